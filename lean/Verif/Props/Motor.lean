import Verif.Lemmas.Motor

/-!
# The CiA 402 motor: C49 to C56 and C67
-/

namespace Verif.Props
open Verif Verif.M402 Verif.Spec.M402

/-! ## C49: drive state -/

/-- C49: the state derived from a status word is the one whose line of the table of the standard fits it, and unknown if no line fits. -/
theorem C49_state (sw : BitVec 16) :
    (∀ s p, (s, p) ∈ stateTable → fits p sw = true → decode sw = s) ∧
    ((∀ s p, (s, p) ∈ stateTable → fits p sw = false) → decode sw = .unknown) := by
  have h := decode_table_low (sw.setWidth 7)
  constructor
  · intro s p hp hf
    rw [← decode_low]
    exact h.1 (s, p) hp (by rw [← fits_low s p hp] at hf; exact hf)
  · intro hn
    rw [← decode_low]
    exact h.2 fun e he => by rw [show fits e.2 ((sw.setWidth 7).setWidth 16) = fits e.2 sw from fits_low e.1 e.2 he sw]; exact hn e.1 e.2 he

-- 0x1637: operation enabled, with voltage, remote, target reached and acknowledge bits; 0x0001 is in no line
example : decode 0x1637 = .enabled ∧ decode 0x0001 = .unknown :=
  ⟨(C49_state _).1 _ "xxxxxxxxx01x0111".toList (by decide) (by decide +kernel), (C49_state _).2 (by
    intro s p h
    have : ∀ e ∈ stateTable, fits e.2 0x0001 = false := by decide +kernel
    exact this (s, p) h)⟩

/-- C49: and the motor takes this state from every status word it reads. -/
theorem C49_read (m : Motor) (sw : BitVec 16) (disp : BitVec 8) (s : S402) (p : List Char) (hp : (s, p) ∈ stateTable) (hf : fits p sw = true) :
    (m.step (.read sw disp)).1.hs = s := (C49_state sw).1 s p hp hf

example (m : Motor) : (m.step (.read 0x0218 0)).1.hs = .fault := C49_read m _ _ _ "xxxxxxxxx0xx1000".toList (by decide) (by decide +kernel)

/-! ## C50: control word -/

/-- C50 (for all entries of the table but quick stop from "ready to switch on" and "switched on"): the command makes a conforming drive take the
transition, whatever the previous control word; for a fault reset the drive must have seen bit 7 clear before. -/
theorem C50_commands_partial (cw prev : BitVec 16) (a b : S402) (h : (a, b) ∈ transitions) (hq : b = .quickStop → a = .enabled)
    (hf : a = .fault → prev.getLsbD 7 = false) :
    (setTransition cw a b false).2.1 = true ∧ drive a prev (setTransition cw a b false).1 = b := by
  have hbit : ∀ (o : Op) i, i < 16 → (o.apply cw).getLsbD i = ((cw.getLsbD i && !o.toReset.getLsbD i) || o.toSet.getLsbD i) :=
    fun o i hi => apply_bit o cw i hi
  cases a <;> cases b <;> first
    | (exfalso; revert h; decide)
    | (exfalso; have := hq rfl; simp at this; done)
    | (constructor
       · rfl
       · simp [setTransition, transition, drive, command, follow, hbit, opDisableVoltage, opAutomatic, opShutdown, opSwitchOn, opEnable,
           opQuickStop, opFaultReset, -BitVec.getLsbD_eq_getElem] <;>
         first | done | exact hf rfl)

example : drive .ready 0xFFFF (setTransition 0xFFFF .ready .switchedOn false).1 = .switchedOn ∧
    drive .fault 0x0000 (setTransition 0xFF7F .fault .disabled false).1 = .disabled :=
  ⟨(C50_commands_partial _ _ _ _ (by decide) (by simp) (by simp)).2, (C50_commands_partial _ _ _ _ (by decide) (by simp) (by decide)).2⟩

/-- C50: the step taken on the way to "operation enable" (which is not the direct one) is such a command, too; it is the next step that is reported. -/
theorem C50_step (cw prev : BitVec 16) (a : S402) (h : a ≠ .enabled) (hf : a = .fault → prev.getLsbD 7 = false) :
    ∃ b, (setTransition cw a .enabled true).2 = (true, some b) ∧ (a, b) ∈ transitions ∧
      drive a prev (setTransition cw a .enabled true).1 = b := by
  have hbit : ∀ (o : Op) i, i < 16 → (o.apply cw).getLsbD i = ((cw.getLsbD i && !o.toReset.getLsbD i) || o.toSet.getLsbD i) :=
    fun o i hi => apply_bit o cw i hi
  refine ⟨nextForEnabling a, ?_, ?_, ?_⟩
  · cases a <;> first | exact absurd rfl h | rfl
  · cases a <;> first | exact absurd rfl h | decide
  · cases a <;> first
      | exact absurd rfl h
      | (simp [setTransition, transition, nextForEnabling, drive, command, follow, hbit, opAutomatic, opShutdown, opSwitchOn, opEnable,
           opFaultReset, -BitVec.getLsbD_eq_getElem] <;>
         first | done | exact hf rfl)

example : ∃ b, (setTransition 0 .disabled .enabled true).2 = (true, some b) ∧ drive .disabled 0 (setTransition 0 .disabled .enabled true).1 = b :=
  (C50_step 0 0 .disabled (by simp) (by simp)).imp fun _ h => ⟨h.1, h.2.2⟩

/-- C50: for every pair of different states without an entry the control word stays as it is and failure is reported. -/
theorem C50_refused (cw : BitVec 16) (a b : S402) (h : (a, b) ∉ transitions) (hne : a ≠ b) :
    setTransition cw a b false = (cw, false, none) := by
  have ht : transition a b = none := by
    cases ht : transition a b with
    | none => rfl
    | some o => exact absurd ((transition_some a b).1 (by rw [ht]; rfl)) h
  unfold setTransition
  rw [if_pos hne]
  simp [ht]

example : setTransition 0x1234 .faultReaction .disabled false = (0x1234, false, none) := C50_refused _ _ _ (by decide) (by simp)

/-- C50: with source and target state equal nothing is commanded. -/
theorem C50_same (cw : BitVec 16) (a : S402) (next : Bool) : setTransition cw a a next = (cw, true, none) := by
  unfold setTransition
  rw [if_neg (by simp)]

example : setTransition 0x10F .enabled .enabled true = (0x10F, true, none) := C50_same _ _ _

/-- C50: where the drive goes by itself nothing is commanded: the control word stays as it is. -/
theorem C50_automatic (cw : BitVec 16) (a b : S402) (h : (a, b) ∈ automatic) :
    setTransition cw a b false = (cw, true, none) ∧ setTransition cw a .enabled true = (cw, true, some b) := by
  have h0 : ∀ cw : BitVec 16, (cw &&& ~~~0#16) ||| 0#16 = cw := by
    intro cw
    rw [BitVec.or_zero, show ~~~0#16 = BitVec.allOnes 16 from rfl, BitVec.and_allOnes]
  cases a <;> cases b <;> first
    | (exfalso; revert h; decide)
    | exact ⟨congrArg (fun x => (x, true, none)) (h0 cw), congrArg (fun x => (x, true, some _)) (h0 cw)⟩

example : setTransition 0x10F .faultReaction .fault false = (0x10F, true, none) := (C50_automatic _ _ _ (by decide)).1

/-- Why C50 is not proved in full: the table has entries from "ready to switch on" and "switched on" to "quick stop active", but a quick stop command
makes a conforming drive in these states disable the switch-on instead; the requested state is never entered. -/
theorem C50_quick_stop_not_entered (cw prev : BitVec 16) (a : S402) (ha : a = .ready ∨ a = .switchedOn) :
    (a, .quickStop) ∈ transitions ∧ (setTransition cw a .quickStop false).2.1 = true ∧
    drive a prev (setTransition cw a .quickStop false).1 = .disabled := by
  have hbit : ∀ (o : Op) i, i < 16 → (o.apply cw).getLsbD i = ((cw.getLsbD i && !o.toReset.getLsbD i) || o.toSet.getLsbD i) :=
    fun o i hi => apply_bit o cw i hi
  rcases ha with rfl | rfl
  · exact ⟨by decide, rfl, by
      simp [setTransition, transition, drive, command, follow, hbit, opQuickStop, -BitVec.getLsbD_eq_getElem]⟩
  · exact ⟨by decide, rfl, by
      simp [setTransition, transition, drive, command, follow, hbit, opQuickStop, -BitVec.getLsbD_eq_getElem]⟩

example : drive .ready 0x06 (setTransition 0x06 .ready .quickStop false).1 = .disabled := (C50_quick_stop_not_entered _ _ _ (Or.inl rfl)).2.2

/-- Why C50 needs the edge: a fault reset whose bit is still set from an earlier one has no effect. -/
theorem C50_fault_reset_needs_edge (cw prev : BitVec 16) (h : prev.getLsbD 7 = true) :
    drive .fault prev (setTransition cw .fault .disabled false).1 = .fault := by
  simp [drive, h, -BitVec.getLsbD_eq_getElem]

example : drive .fault 0x80 (setTransition 0x80 .fault .disabled false).1 = .fault := C50_fault_reset_needs_edge _ _ (by decide)

/-! ## C51: reaching "operation enable" -/

/-- C51: after `init` (which clears the control word), whatever the state of the drive, its mode handlers and its answers, the drive is enabled as soon
as it has acted on five control words; words may be lost in between and automatic transitions take their time.  The drive must not be in a fault for
which it has already seen the reset bit set by somebody else. -/
theorem C51_after_init (m : Motor) (d : S402) (prev : BitVec 16) (hp : d = .fault → prev.getLsbD 7 = false) (as : List Answer)
    (h : 5 ≤ as.count .acts) : Reaches { m := (m.step .init).1, d := d, prev := prev } as := by
  refine reaches_lossy as 5 _ ?_ h
  unfold WithinLossy
  cases d <;> simp only <;> first | trivial | omega | skip
  · exact ⟨by omega, by simp [Motor.step]⟩
  · exact ⟨hp rfl, Or.inl (by omega)⟩

example (m : Motor) : Reaches { m := (m.step .init).1, d := .faultReaction, prev := 0 }
    [.busy, .busy, .acts, .misses, .acts, .acts, .acts, .busy, .acts] := C51_after_init m _ _ (by simp) _ (by decide)

/-- C51 (for a drive that acts in every cycle): after `init`, which also sends one word without the reset bit, the drive is enabled within five cycles, even from a fault for
which it has seen the reset bit set by somebody else. -/
theorem C51_after_init_any_partial (m : Motor) (d : S402) (prev : BitVec 16) :
    Reaches { m := (m.step .init).1, d := d, prev := prev } (List.replicate 5 .acts) := by
  have hs : (m.step .init).1.sfr = true := rfl
  apply reaches_acts
  unfold Within
  cases d <;> simp only <;> first | trivial | omega | skip
  · exact ⟨by omega, Or.inl hs⟩
  · exact Or.inl ⟨hs, by omega⟩

example (m : Motor) : Reaches { m := (m.step .init).1, d := .fault, prev := 0x80 } (List.replicate 5 .acts) := C51_after_init_any_partial _ _ _

/-- C51 (for a drive that acts in every cycle): after `recover` (which sends one word without the reset bit) from every state and control word the
drive is enabled within five cycles. -/
theorem C51_after_recover_partial (m : Motor) (d : S402) (prev : BitVec 16) :
    Reaches { m := (m.step .recover).1, d := d, prev := prev } (List.replicate 5 .acts) := by
  have hs : (m.step .recover).1.sfr = true := by
    simp only [Motor.step, Motor.handleRecover]
    split <;> rfl
  apply reaches_acts
  unfold Within
  cases d <;> simp only <;> first | trivial | omega | skip
  · exact ⟨by omega, Or.inl hs⟩
  · exact Or.inl ⟨hs, by omega⟩

-- from a fault with the reset bit set already
example (m : Motor) : Reaches { m := ({ m with cw := 0x80 } |>.step .recover).1, d := .fault, prev := 0x80 } (List.replicate 5 .acts) :=
  C51_after_recover_partial _ _ _

/-- Why C51 is not proved in full: without a fresh `init` or `recover`, a drive that falls back into a fault before the reset bit was cleared stays there,
however often the next step is commanded. -/
theorem C51_repeated_fault_stuck (m : Motor) (prev : BitVec 16) (hs : m.sfr = false) (hp : prev.getLsbD 7 = true) (as : List Answer) (q : Plant)
    (h : Cycles { m := m, d := .fault, prev := prev } as q) : q.d = .fault := by
  suffices H : ∀ as (p q : Plant), p.d = .fault → p.m.sfr = false → p.prev.getLsbD 7 = true → Cycles p as q → q.d = .fault from
    H as { m := m, d := .fault, prev := prev } q (by rfl) (by exact hs) (by exact hp) h
  intro as
  induction as with
  | nil => intro p q h1 _ _ hc; cases hc; exact h1
  | cons a as ih =>
    intro p q h1 h2 h3 hc
    cases hc with
    | @cons _ sw disp _ _ _ hsw hc =>
      obtain ⟨m3, w, hs3, hw, hw7, hc7, hc4, e⟩ :=
        cycle_eq p sw disp a hsw (by rw [h1]; simp) opFaultReset (by rw [h1]; rfl)
      have hop7 : (opFaultReset.apply p.m.cw).getLsbD 7 = true := by rw [apply_bit _ _ _ (by omega)]; simp [opFaultReset]
      rw [hop7, h2] at hw7
      have hdr : drive .fault p.prev w = .fault := by simp [drive, h3, -BitVec.getLsbD_eq_getElem]
      refine ih _ _ ?_ ?_ ?_ hc
      · rw [e]; cases a <;> simp [h1, hdr]
      · rw [e]; cases a <;> exact hs3
      · rw [e]
        cases a
        · exact hw7
        · exact h3
        · exact hw7

/-- a motor, for the examples -/
def aMotor : Motor :=
  { cw := 0, sfr := false, hs := .unknown, sw := 0, target := .unknown, modes := registered 0x3ED (fun _ => none), drives := some 0x3ED,
    selected := none, modeId := 0, phase := .idle }

example (q : Plant) (h : Cycles { m := aMotor, d := .fault, prev := 0x80 } [.acts, .acts, .acts] q) : q.d = .fault :=
  C51_repeated_fault_stuck aMotor 0x80 rfl (by decide) _ q h

/-- Why C51 is not proved in full, after `recover`: if the fault reaction of the drive takes two cycles and the reset bit is still set in the control word
from an earlier reset, the one word without the bit is gone before the fault is reached, and the drive stays in the fault. -/
theorem C51_recover_stuck (m : Motor) (hcw : m.cw.getLsbD 7 = true) (prev : BitVec 16) (as : List Answer) (q : Plant)
    (h : Cycles { m := (m.step .recover).1, d := .faultReaction, prev := prev } (.busy :: .acts :: as) q) : q.d = .fault := by
  have hr : (m.step .recover).1.sfr = true ∧ (m.step .recover).1.cw = m.cw := by
    simp only [Motor.step, Motor.handleRecover]
    split <;> exact ⟨rfl, rfl⟩
  cases h with
  | @cons _ sw disp _ _ _ hsw h1 =>
    obtain ⟨m3, w, hs3, hw, hw7, hc7, hc4, e⟩ :=
      cycle_eq _ sw disp .busy hsw (by simp) opAutomatic rfl
    rw [e] at h1
    simp only at h1
    rw [apply_bit _ _ _ (by omega)] at hc7
    simp only [hr.2, hcw, opAutomatic] at hc7
    cases h1 with
    | @cons _ sw' disp' _ _ _ hsw' h2 =>
      obtain ⟨m4, w', hs4, hw', hw7', hc7', hc4', e'⟩ :=
        cycle_eq _ sw' disp' .acts hsw' (by simp) opAutomatic rfl
      rw [e'] at h2
      simp only at h2
      refine C51_repeated_fault_stuck m4 w' hs4 ?_ as q (by simpa [drive] using h2)
      rw [hw7', apply_bit _ _ _ (by omega)]
      simp only [hs3, hc7]
      decide

example (q : Plant) (h : Cycles { m := ({ aMotor with cw := 0x80 }.step .recover).1, d := .faultReaction, prev := 0 } [.busy, .acts, .acts, .acts] q) :
    q.d = .fault := C51_recover_stuck _ (by decide) _ _ q h

/-! ## C67: staying enabled -/

/-- C67 (for a drive that was not enabled when `init` was called): once it has acted on five control words it is enabled, and stays so in all later
cycles. -/
theorem C67_stays_enabled_partial (m : Motor) (d : S402) (hd : d ≠ .enabled) (prev : BitVec 16) (hp : d = .fault → prev.getLsbD 7 = false)
    (as : List Answer) (h : 5 ≤ as.count .acts) (q : Plant) (hq : Cycles { m := (m.step .init).1, d := d, prev := prev } as q) : q.d = .enabled := by
  refine ends_enabled as 5 _ q ?_ (fun h => absurd h hd) h hq
  unfold WithinLossy
  cases d <;> simp only <;> first | trivial | omega | skip
  · exact ⟨by omega, by simp [Motor.step]⟩
  · exact ⟨hp rfl, Or.inl (by omega)⟩

example (q : Plant) (h : Cycles { m := (aMotor.step .init).1, d := .disabled, prev := 0 } (List.replicate 100 .acts) q) : q.d = .enabled :=
  C67_stays_enabled_partial aMotor _ (by simp) _ (by simp) _ (by simp) q h

/-- Why C67 is not proved in full: a drive that is already enabled when `init` is called needs no transition, so the cleared control word is not changed,
and the first write cycle disables the drive. -/
theorem C67_enabled_drive_dropped (m : Motor) (prev : BitVec 16) (q : Plant)
    (h : Cycles { m := (m.step .init).1, d := .enabled, prev := prev } [.acts] q) : q.d = .disabled := by
  cases h with
  | @cons _ sw disp _ _ _ hsw h1 =>
    cases h1
    unfold cycle
    dsimp only
    generalize hm1 : ((m.step .init).1.step (.read sw disp)).1 = m1
    have e1 : m1.hs = .enabled := by rw [← hm1]; exact hsw
    have e2 : m1.cw = 0 := by rw [← hm1]; rfl
    generalize hm2 : (m1.step (.command m1.hs .enabled)).1 = m2
    have e3 : m2.cw = 0 := by
      rw [← hm2]
      show (setTransition m1.cw m1.hs .enabled true).1 = _
      rw [e1, e2]; rfl
    have w1 : m2.handleWrite.2.1.getLsbD 1 = false := by
      rw [handleWrite_word_bit _ _ (by decide) (by decide) (by decide), e3]; rfl
    have w7 : m2.handleWrite.2.1.getLsbD 7 = false := by rw [handleWrite_word_bit7, e3]; simp
    have hc : command m2.handleWrite.2.1 = .disableVoltage := by
      unfold command
      rw [w1]; rfl
    simp only [drive, w7, hc]; rfl

example : ∃ q, Cycles { m := (aMotor.step .init).1, d := .enabled, prev := 0x0F } [.acts] q ∧ q.d = .disabled :=
  have c := Cycles.cons (p := { m := (aMotor.step .init).1, d := .enabled, prev := 0x0F }) (sw := 0x27) (disp := 0) (a := .acts) (by decide) .nil
  ⟨_, c, C67_enabled_drive_dropped _ _ _ c⟩

/-! ## C52: the bits of the modes -/

/-- C52: whatever a mode does through the accessor it is given, only the bits 4, 5, 6 and 9 of the control word change. -/
theorem C52_accessor (ops : List AccOp) (cw : BitVec 16) (i : Nat) (h : (ops.foldl AccOp.apply cw).getLsbD i ≠ cw.getLsbD i) :
    i = 4 ∨ i = 5 ∨ i = 6 ∨ i = 9 := by
  apply Classical.byContradiction
  intro hn
  exact h (accs_bit ops cw i (by omega))

example : ([AccOp.assign 0xFFFF, .set 7, .reset 0].foldl AccOp.apply 0x0F).getLsbD 9 ≠ (0x0F#16).getLsbD 9 := by decide

/-- C52: in the control word kept by the motor a write cycle changes nothing but these bits and the halt bit. -/
theorem C52_write (m : Motor) (i : Nat) (h : (m.step .write).1.cw.getLsbD i ≠ m.cw.getLsbD i) :
    i = 4 ∨ i = 5 ∨ i = 6 ∨ i = 9 ∨ i = 8 := by
  apply Classical.byContradiction
  intro hn
  exact h (handleWrite_cw m i (by omega) (by omega))

example : (aMotor.step .write).1.cw.getLsbD 8 ≠ aMotor.cw.getLsbD 8 := by decide

/-! ## C53: the halt bit -/

/-- C53: if a control word is written without the halt bit, then the last status word said "operation enable", the last mode display was that of the
selected mode, and this mode has something to do: it was given a target after it was entered, or its homing was started after it was entered. -/
theorem C53_halt (m0 : Motor) (hf : Fresh m0) (es : List Ev) (cw : BitVec 16) (t : Option Int)
    (hw : ((m0.run es).1.step .write).2 = [.wrote cw t]) (hh : cw.getLsbD 8 = false) :
    ∃ sw k, lastWord es = some sw ∧ decode sw = .enabled ∧ lastDisplay es = some k ∧ (m0.run es).1.selected = some k ∧
      ((∃ v, v ≠ .nan ∧ Given m0 es k v) ∨ (k = 6 ∧ HomingStarted m0 es k)) := by
  have hi := minv_run hf es
  generalize hm : (m0.run es).1 = m at hi hw
  injection hw with hw _
  injection hw with h1 h2
  rw [← h1] at hh
  obtain ⟨he, h, ha, hs⟩ := (word_halt m).1 hh
  obtain ⟨hsel, hmode⟩ := active_some ha
  have hl : ∃ sw, lastWord es = some sw ∧ decode sw = .enabled := by
    have := hi.hs
    rw [he] at this
    cases hw : lastWord es with
    | none => rw [hw] at this; simp at this
    | some sw => rw [hw] at this; simp at this; exact ⟨sw, rfl, this.symm⟩
  have hd : lastDisplay es = some m.modeId := by
    have h0 : lastWord es = none ↔ lastDisplay es = none := by
      clear hl hi hm hsel hmode ha hs he h1 h2 hh h hf t cw
      refine snoc_induction (fun es => lastWord es = none ↔ lastDisplay es = none) (by simp [lastWord, lastDisplay]) ?_ es
      intro es e ih
      rw [lastWord_snoc, lastDisplay_snoc]
      cases e <;> first | exact ih | simp
    have := hi.disp
    cases hd : lastDisplay es with
    | none =>
      obtain ⟨sw, h3, _⟩ := hl
      rw [h0.2 hd] at h3; simp at h3
    | some k => rw [hd] at this; simp at this; rw [this]
  obtain ⟨sw, hl1, hl2⟩ := hl
  refine ⟨sw, m.modeId, hl1, hl2, hd, hsel, ?_⟩
  have hc := hi.claim m.modeId h (Or.inl hsel) hmode
  cases hg : goal h with
  | inl tg =>
    rw [hg] at hc hs
    have hhas : tg.has = true := by
      cases ht : tg.has
      · exact absurd ht hs
      · rfl
    obtain ⟨v, hv, hst⟩ := hc hhas
    refine Or.inl ⟨v, ?_, hv⟩
    intro hnan
    rw [hnan] at hst; exact hst
  | inr b =>
    rw [hg] at hc hs
    have hb : b = true := by
      cases b
      · exact absurd rfl hs
      · rfl
    exact Or.inr (hc hb)

/-- C53: and the target written to the device with it is the last one given since the mode was entered (its integer part, limited to the range of the object). -/
theorem C53_target (m0 : Motor) (hf : Fresh m0) (es : List Ev) (cw : BitVec 16) (n : Int)
    (hw : ((m0.run es).1.step .write).2 = [.wrote cw (some n)]) :
    ∃ sw k v lo hi, lastWord es = some sw ∧ decode sw = .enabled ∧ (m0.run es).1.selected = some k ∧ Given m0 es k v ∧
      (∃ h g, (m0.run es).1.modes k = some h ∧ goal h = .inl g ∧ g.lo = lo ∧ g.hi = hi) ∧ Stored lo hi v n := by
  have hi := minv_run hf es
  generalize hm : (m0.run es).1 = m at hi hw
  injection hw with hw _
  injection hw with h1 h2
  obtain ⟨he, h, ha, g, hg, hhas, hn⟩ := word_target m n h2
  obtain ⟨hsel, hmode⟩ := active_some ha
  have hl : ∃ sw, lastWord es = some sw ∧ decode sw = .enabled := by
    have := hi.hs
    rw [he] at this
    cases hw : lastWord es with
    | none => rw [hw] at this; simp at this
    | some sw => rw [hw] at this; simp at this; exact ⟨sw, rfl, this.symm⟩
  obtain ⟨sw, hl1, hl2⟩ := hl
  have hc := hi.claim m.modeId h (Or.inl hsel) hmode
  rw [hg] at hc
  obtain ⟨v, hv, hst⟩ := hc hhas
  rw [hn] at hst
  exact ⟨sw, m.modeId, v, g.lo, g.hi, hl1, hl2, hsel, hv, ⟨h, g, hmode, hg, rfl, rfl⟩, hst⟩

/-- C53, the other direction: with the drive in "operation enable" and the selected mode displayed, a mode with a target (or running homing) moves: the
halt bit is clear. -/
theorem C53_moves (m : Motor) (he : m.hs = .enabled) (k : Nat) (hs : m.selected = some k) (hd : m.modeId = k) (h : Mode) (hm : m.modes k = some h)
    (hg : (∃ t, goal h = .inl t ∧ t.has = true) ∨ goal h = .inr true) : ∃ cw t, (m.step .write).2 = [.wrote cw t] ∧ cw.getLsbD 8 = false := by
  refine ⟨_, _, rfl, (word_halt m).2 ⟨he, h, ?_, ?_⟩⟩
  · unfold Motor.active
    rw [hd, if_pos hs, hm]
  · rcases hg with ⟨t, h1, h2⟩ | h1
    · rw [h1]; show ¬ t.has = false; rw [h2]; simp
    · rw [h1]; show ¬ true = false; simp

/-- a history that selects cyclic synchronous position mode and gives a target -/
def aHistory : List Ev :=
  [.read 0x27 0, .request 8, .stateDone true, .read 0x27 8, .modeDone false, .stateDone true, .setTarget (.fin 42)]

theorem aMotor_fresh : Fresh aMotor := by
  have hall : ∀ k h, aMotor.modes k = some h → GoalOk (goal h) := by
    intro k h hk
    simp only [aMotor, registered] at hk
    split at hk
    · unfold defaultMode at hk
      split at hk <;> first | (injection hk with hk; subst hk; first | exact ⟨by decide, by decide⟩ | trivial) | simp at hk
    · simp at hk
  refine ⟨rfl, rfl, rfl, ?_, ?_⟩
  · intro k o s w t h
    have := hall k _ h
    exact ⟨this.lo, this.hi⟩
  · intro k p h
    have := hall k _ h
    exact ⟨this.lo, this.hi⟩

-- the hypotheses of C53_halt and C53_target are met: 42 is written without the halt bit
example : ((aMotor.run aHistory).1.step .write).2 = [.wrote 0 (some 42)] := by decide +kernel
example : ∃ v, Given aMotor aHistory 8 v := by
  obtain ⟨sw, k, v, lo, hi, h1, h2, h3, h4, h5, h6⟩ := C53_target aMotor aMotor_fresh aHistory 0 42 (by decide +kernel)
  have : (aMotor.run aHistory).1.selected = some 8 := by decide +kernel
  rw [this] at h3
  injection h3 with h3
  exact ⟨v, by rw [h3]; exact h4⟩
example : ∃ cw t, ((aMotor.run aHistory).1.step .write).2 = [.wrote cw t] ∧ cw.getLsbD 8 = false := ⟨0, some 42, by decide +kernel, by decide⟩

/-! ## C54: targets -/

/-- C54: a number given as target is stored as its integer part, limited to the range of the device object; infinities are stored as the limits. -/
theorem C54_target (t : Target) (h0 : t.lo ≤ 0) (h1 : 0 ≤ t.hi) (v : Dbl) (hv : v ≠ .nan) :
    (t.set v).2 = true ∧ (t.set v).1.has = true ∧ Stored t.lo t.hi v (t.set v).1.target := by
  have := target_set t ⟨h0, h1⟩ v hv
  exact ⟨this.1, this.2.1, this.2.2.1⟩

example : (Target.i16.set (.fin (-32768 - 1/2))).1.target = -32768 ∧ (Target.i16.set (.fin (-7/2))).1.target = -3 ∧
    (Target.i16.set (.fin 1000000)).1.target = 32767 ∧ (Target.i32.set .negInf).1.target = -2147483648 := by decide +kernel

/-- C54: the default modes with a plain target are the ones of the standard, and each has the object of the standard, with its range. -/
theorem C54_objects (k : Nat) : (∀ o s c t, defaultMode k = some (.forward o s c t) →
      ∃ bits, targetObject k = some (o, s, bits) ∧ t.lo = -2 ^ (bits - 1) ∧ t.hi = 2 ^ (bits - 1) - 1) ∧
    (∀ x, targetObject k = some x → ∃ o s c t, defaultMode k = some (.forward o s c t)) := by
  by_cases hk : k ≤ 10
  · have : k = 0 ∨ k = 1 ∨ k = 2 ∨ k = 3 ∨ k = 4 ∨ k = 5 ∨ k = 6 ∨ k = 7 ∨ k = 8 ∨ k = 9 ∨ k = 10 := by omega
    rcases this with rfl | rfl | rfl | rfl | rfl | rfl | rfl | rfl | rfl | rfl | rfl
    all_goals
      constructor
      · intro o s c t h
        first
          | (simp [defaultMode] at h; done)
          | (simp only [defaultMode, Option.some.injEq, Mode.forward.injEq] at h
             obtain ⟨rfl, rfl, rfl, rfl⟩ := h
             exact ⟨_, rfl, by decide, by decide⟩)
      · intro x h
        first
          | (simp [targetObject] at h; done)
          | exact ⟨_, _, _, _, rfl⟩
  · have h1 : defaultMode k = none := by
      unfold defaultMode
      split <;> first | omega | rfl
    have h2 : targetObject k = none := by
      unfold targetObject
      split <;> first | omega | rfl
    rw [h1, h2]
    exact ⟨(fun _ _ _ _ h => by cases h), (fun _ h => by cases h)⟩

example : ∃ o s c t, defaultMode 9 = some (.forward o s c t) := (C54_objects 9).2 _ rfl

private theorem mask_bit (w c : BitVec 16) (b : Nat) (hb : b = 4 ∨ b = 5 ∨ b = 6 ∨ b = 9) :
    (AccOp.apply w (.assign (getMasked w ||| c))).getLsbD b = (w.getLsbD b || c.getLsbD b) ∧
    (AccOp.apply w (.assign (getMasked w &&& ~~~ c))).getLsbD b = (w.getLsbD b && !c.getLsbD b) := by
  have h1 : opMask.getLsbD b = true := by rcases hb with rfl | rfl | rfl | rfl <;> decide
  have h2 : b < 16 := by omega
  unfold AccOp.apply getMasked
  simp only [BitVec.getLsbD_or, BitVec.getLsbD_and, BitVec.getLsbD_not, h1, h2, decide_true, Bool.and_true, Bool.true_and, Bool.not_true, Bool.and_false,
    Bool.false_or, and_self]

/-- C54: while such a mode runs, each of its bits of the control word (4 to 6 and 9) that the standard wants set is set exactly if the mode has a target; the
others keep the value they had. -/
theorem C54_run_bits (m : Motor) (he : m.hs = .enabled) (k : Nat) (hs : m.selected = some k) (hd : m.modeId = k) (o s : Nat) (c : BitVec 16)
    (t t0 : Target) (hm : m.modes k = some (.forward o s c t)) (h0 : defaultMode k = some (.forward o s c t0)) (b : Nat)
    (hb : b = 4 ∨ b = 5 ∨ b = 6 ∨ b = 9) :
    ∃ cw v, (m.step .write).2 = [.wrote cw v] ∧ cw.getLsbD b = if b ∈ runBits k then t.has else m.cw.getLsbD b := by
  have hc : c.getLsbD b = decide (b ∈ runBits k) := by
    by_cases hk : k ≤ 10
    · have : k = 0 ∨ k = 1 ∨ k = 2 ∨ k = 3 ∨ k = 4 ∨ k = 5 ∨ k = 6 ∨ k = 7 ∨ k = 8 ∨ k = 9 ∨ k = 10 := by omega
      rcases this with rfl | rfl | rfl | rfl | rfl | rfl | rfl | rfl | rfl | rfl | rfl <;>
        simp only [defaultMode, Option.some.injEq, Mode.forward.injEq, reduceCtorEq] at h0 <;>
        (obtain ⟨-, -, rfl, -⟩ := h0; rcases hb with rfl | rfl | rfl | rfl <;> decide)
    · have h1 : defaultMode k = none := by
        unfold defaultMode
        split <;> first | rfl | omega
      rw [h1] at h0
      cases h0
  refine ⟨_, _, rfl, ?_⟩
  have hact : m.active m.modeId = some (.forward o s c t) := by
    unfold Motor.active
    rw [hd, if_pos hs, hm]
  have hor : (m.cw ||| 0x100#16).getLsbD b = m.cw.getLsbD b := bit_or_halt _ _ (by omega)
  rw [handleWrite_word]
  have key : m.handleWrite.1.cw.getLsbD b = if b ∈ runBits k then t.has else m.cw.getLsbD b := by
    unfold Motor.handleWrite
    dsimp only
    rw [if_pos he]
    unfold Motor.writeMode
    rw [hact]
    obtain ⟨q1, q2⟩ := mask_bit (m.cw ||| 0x100#16) c b hb
    rw [hor, hc] at q1 q2
    by_cases ht : t.has = true
    · have hw : (Mode.forward o s c t).write (m.cw ||| 0x100#16) =
          (.forward o s c t, [.assign (getMasked (m.cw ||| 0x100#16) ||| c)], true, some t.target) := if_pos ht
      simp only [hw, if_true, List.foldl_cons, List.foldl_nil]
      rw [bit_clear_halt _ _ (by omega), q1, ht]
      by_cases hq : b ∈ runBits k <;> simp [hq]
    · have hw : (Mode.forward o s c t).write (m.cw ||| 0x100#16) =
          (.forward o s c t, [.assign (getMasked (m.cw ||| 0x100#16) &&& ~~~ c)], false, none) := if_neg ht
      rw [Bool.not_eq_true] at ht
      simp only [hw, Bool.false_eq_true, if_false, List.foldl_cons, List.foldl_nil]
      rw [q2, ht]
      by_cases hq : b ∈ runBits k <;> simp [hq]
  split
  · rw [bit_clear_reset _ _ (by omega), key]
  · exact key

example : runBits 2 = [4, 5, 6] ∧ ∃ o s c t, defaultMode 2 = some (.forward o s c t) := ⟨rfl, _, _, _, _, rfl⟩

/-- C54: not-a-number is refused and nothing changes. -/
theorem C54_nan (t : Target) : t.set .nan = (t, false) := rfl

example : ((Target.i16.set (.fin 5)).1.set .nan).1.target = 5 := by decide +kernel

/-- C54: the integer part and thus the stored value is determined by the number. -/
theorem C54_determined (lo hi : Int) (v : Dbl) (a b : Int) (ha : Stored lo hi v a) (hb : Stored lo hi v b) : a = b := by
  cases v with
  | nan => exact ha.elim
  | posInf => exact Eq.trans ha (Eq.symm hb)
  | negInf => exact Eq.trans ha (Eq.symm hb)
  | fin q =>
    obtain ⟨n, hn, rfl⟩ := ha
    obtain ⟨k, hk, rfl⟩ := hb
    have : n = k := by
      by_cases h : 0 ≤ q
      · have a1 := hn.1 h
        have a2 := hk.1 h
        have b1 : (n : Rat) < ((k + 1 : Int) : Rat) := by rw [Rat.intCast_add]; grind
        have b2 : (k : Rat) < ((n + 1 : Int) : Rat) := by rw [Rat.intCast_add]; grind
        have c1 := Rat.intCast_lt_intCast.1 b1
        have c2 := Rat.intCast_lt_intCast.1 b2
        omega
      · have h' := Rat.not_le.1 h
        have a1 := hn.2 h'
        have a2 := hk.2 h'
        have b1 : ((n - 1 : Int) : Rat) < (k : Rat) := by rw [Rat.intCast_sub]; grind
        have b2 : ((k - 1 : Int) : Rat) < (n : Rat) := by rw [Rat.intCast_sub]; grind
        have c1 := Rat.intCast_lt_intCast.1 b1
        have c2 := Rat.intCast_lt_intCast.1 b2
        omega
    rw [this]

example : Stored (-128) 127 (.fin (5/2)) 2 := by
  have h := C54_target { lo := -128, hi := 127, target := 0, has := false } (by decide) (by decide) (.fin (5/2)) (by simp)
  have e : (({ lo := -128, hi := 127, target := 0, has := false } : Target).set (.fin (5/2))).1.target = 2 := by decide +kernel
  rw [← e]; exact h.2.2

/-! ## C55: profiled position mode -/

/-- C55: the new-set-point bit is raised only together with sending the target in force, which differs from the one sent last, and only when the drive's
last status word does not acknowledge an earlier one; and a target is sent only by raising the bit. -/
theorem C55_raised (p : ProfPos) (hlo : p.t.lo = -2147483648) (hhi : p.t.hi = 2147483647) (cw0 : BitVec 16) (es : List PEv) (before after : BitVec 16)
    (sent : Option Int) (h : (pstep (prun (p, cw0) (.start :: es)).1 .write).2 = [.wrote before after sent])
    (hr : newSetPoint before = false ∧ newSetPoint after = true ∨ sent ≠ none) :
    newSetPoint before = false ∧ newSetPoint after = true ∧
    ∃ t v, sent = some t ∧ inForce (prun (p, cw0) (.start :: es)).2 = some v ∧ Stored (-2147483648) 2147483647 v t ∧
      lastSent (prun (p, cw0) (.start :: es)).2 ≠ some t ∧ acknowledged (statusWord (prun (p, cw0) (.start :: es)).2) = false := by
  have hi := pinv_start p hlo hhi cw0 es
  generalize (prun (p, cw0) (.start :: es)).2 = tr at hi ⊢
  generalize (prun (p, cw0) (.start :: es)).1 = s at hi h
  injection h with h _
  injection h with h1 h2 h3
  subst h1; subst h2; subst h3
  have hv : ∀ (h : s.1.t.has = true), ∃ v, inForce tr = some v ∧ Stored (-2147483648) 2147483647 v s.1.t.target := by
    intro h
    have := hi.has
    rw [h] at this
    cases hf : inForce tr with
    | none => rw [hf] at this; simp at this
    | some v => exact ⟨v, rfl, hi.val v hf⟩
  rcases pwrite_cases s.1 s.2 with ⟨a1, a2, a3, a4, a5, a6⟩ | ⟨a1, a2, a3, a4, a5, a6⟩ | ⟨a1, a2, a5, a6⟩ | ⟨a1, a2, a3, a5, a6⟩ | ⟨a1, a5, a6⟩
  · rw [a5, a6] at hr; simp at hr
  · obtain ⟨v, hv1, hv2⟩ := hv a1
    exact ⟨a4, a5, s.1.t.target, v, a6, hv1, hv2, by rw [← hi.last]; exact a3, by rw [← hi.sw]; exact a2⟩
  · rw [a5, a6] at hr; simp at hr
  · rw [a5, a6] at hr; simp at hr
  · rw [a5, a6] at hr; simp at hr

/-- C55: a target different from the last sent one is sent in the next write cycle if the drive does not acknowledge an earlier one and the bit is low; if the
bit is still high it is lowered first. -/
theorem C55_sent (p : ProfPos) (hlo : p.t.lo = -2147483648) (hhi : p.t.hi = 2147483647) (cw0 : BitVec 16) (es : List PEv) (before after : BitVec 16)
    (sent : Option Int) (h : (pstep (prun (p, cw0) (.start :: es)).1 .write).2 = [.wrote before after sent]) (v : Dbl) (t : Int)
    (hv : inForce (prun (p, cw0) (.start :: es)).2 = some v) (ht : Stored (-2147483648) 2147483647 v t)
    (hn : lastSent (prun (p, cw0) (.start :: es)).2 ≠ some t) (ha : acknowledged (statusWord (prun (p, cw0) (.start :: es)).2) = false) :
    (newSetPoint before = false → newSetPoint after = true ∧ sent = some t) ∧ (newSetPoint before = true → newSetPoint after = false ∧ sent = none) := by
  have hi := pinv_start p hlo hhi cw0 es
  generalize (prun (p, cw0) (.start :: es)).2 = tr at hi hv hn ha
  generalize (prun (p, cw0) (.start :: es)).1 = s at hi h
  injection h with h _
  injection h with h1 h2 h3
  subst h1; subst h2; subst h3
  have hhas : s.1.t.has = true := by rw [hi.has, hv]; rfl
  have htt : s.1.t.target = t := C54_determined _ _ v _ _ (hi.val v hv) ht
  have hl : s.1.last ≠ some s.1.t.target := by rw [hi.last, htt]; exact hn
  have hsw : acknowledged s.1.sw = false := by rw [hi.sw]; exact ha
  rcases pwrite_cases s.1 s.2 with ⟨a1, a2, a3, a4, a5, a6⟩ | ⟨a1, a2, a3, a4, a5, a6⟩ | ⟨a1, a2, a5, a6⟩ | ⟨a1, a2, a3, a5, a6⟩ | ⟨a1, a5, a6⟩
  · exact ⟨by rw [a4]; simp, fun _ => ⟨a5, a6⟩⟩
  · exact ⟨fun _ => ⟨a5, by rw [a6, htt]⟩, by rw [a4]; simp⟩
  · rw [hsw] at a2; simp at a2
  · exact absurd a3 hl
  · rw [hhas] at a1; simp at a1

/-- C55: after the acknowledge the bit is lowered (in every write cycle with a target in force), and nothing is sent. -/
theorem C55_lowered (p : ProfPos) (hlo : p.t.lo = -2147483648) (hhi : p.t.hi = 2147483647) (cw0 : BitVec 16) (es : List PEv) (before after : BitVec 16)
    (sent : Option Int) (h : (pstep (prun (p, cw0) (.start :: es)).1 .write).2 = [.wrote before after sent])
    (hv : inForce (prun (p, cw0) (.start :: es)).2 ≠ none) (ha : acknowledged (statusWord (prun (p, cw0) (.start :: es)).2) = true) :
    newSetPoint after = false ∧ sent = none := by
  have hi := pinv_start p hlo hhi cw0 es
  generalize (prun (p, cw0) (.start :: es)).2 = tr at hi hv ha
  generalize (prun (p, cw0) (.start :: es)).1 = s at hi h
  injection h with h _
  injection h with h1 h2 h3
  subst h1; subst h2; subst h3
  have hhas : s.1.t.has = true := by
    rw [hi.has]
    cases hf : inForce tr with
    | none => exact absurd hf hv
    | some v => rfl
  have hsw : acknowledged s.1.sw = true := by rw [hi.sw]; exact ha
  rcases pwrite_cases s.1 s.2 with ⟨a1, a2, a3, a4, a5, a6⟩ | ⟨a1, a2, a3, a4, a5, a6⟩ | ⟨a1, a2, a5, a6⟩ | ⟨a1, a2, a3, a5, a6⟩ | ⟨a1, a5, a6⟩
  · rw [hsw] at a2; simp at a2
  · rw [hsw] at a2; simp at a2
  · exact ⟨a5, a6⟩
  · rw [hsw] at a2; simp at a2
  · rw [hhas] at a1; simp at a1

/-- C55: until the acknowledge the bit stays as it is if there is no other target. -/
theorem C55_held (p : ProfPos) (hlo : p.t.lo = -2147483648) (hhi : p.t.hi = 2147483647) (cw0 : BitVec 16) (es : List PEv) (before after : BitVec 16)
    (sent : Option Int) (h : (pstep (prun (p, cw0) (.start :: es)).1 .write).2 = [.wrote before after sent]) (v : Dbl) (t : Int)
    (hv : inForce (prun (p, cw0) (.start :: es)).2 = some v) (ht : Stored (-2147483648) 2147483647 v t)
    (hn : lastSent (prun (p, cw0) (.start :: es)).2 = some t) (ha : acknowledged (statusWord (prun (p, cw0) (.start :: es)).2) = false) :
    newSetPoint after = newSetPoint before ∧ sent = none := by
  have hi := pinv_start p hlo hhi cw0 es
  generalize (prun (p, cw0) (.start :: es)).2 = tr at hi hv hn ha
  generalize (prun (p, cw0) (.start :: es)).1 = s at hi h
  injection h with h _
  injection h with h1 h2 h3
  subst h1; subst h2; subst h3
  have htt : s.1.t.target = t := C54_determined _ _ v _ _ (hi.val v hv) ht
  have hl : s.1.last = some s.1.t.target := by rw [hi.last, htt]; exact hn
  have hsw : acknowledged s.1.sw = false := by rw [hi.sw]; exact ha
  rcases pwrite_cases s.1 s.2 with ⟨a1, a2, a3, a4, a5, a6⟩ | ⟨a1, a2, a3, a4, a5, a6⟩ | ⟨a1, a2, a5, a6⟩ | ⟨a1, a2, a3, a5, a6⟩ | ⟨a1, a5, a6⟩
  · exact absurd hl a3
  · exact absurd hl a3
  · rw [hsw] at a2; simp at a2
  · exact ⟨a5, a6⟩
  · exact ⟨a5, a6⟩

/-- the mode as constructed, for the examples -/
def aProfPos : ProfPos := { t := .i32, last := none, sw := 0 }

-- C55_raised, C55_sent: the first target
example : ∃ after, (pstep (prun (aProfPos, 0) [.start, .target (.fin 10)]).1 .write).2 = [.wrote 0 after (some 10)] ∧ newSetPoint after = true :=
  ⟨0x30, rfl, by decide⟩
example : ∃ t v, some (10 : Int) = some t ∧ inForce (prun (aProfPos, 0) [.start, .target (.fin 10)]).2 = some v ∧
    Stored (-2147483648) 2147483647 v t := by
  obtain ⟨_, _, t, v, h1, h2, h3, _⟩ := C55_raised aProfPos rfl rfl 0 [.target (.fin 10)] 0 0x30 (some 10) rfl (Or.inr (by simp))
  exact ⟨t, v, h1, h2, h3⟩
-- C55_lowered: acknowledged
example : (pstep (prun (aProfPos, 0) [.start, .target (.fin 10), .write, .read 0x1027]).1 .write).2 = [.wrote 0x30 0x20 none] := rfl
example : newSetPoint 0x20 = false := (C55_lowered aProfPos rfl rfl 0 [.target (.fin 10), .write, .read 0x1027] 0x30 0x20 none rfl
  (by
    have : (inForce (prun (aProfPos, 0) [.start, .target (.fin 10), .write, .read 0x1027]).2).isSome = true := by decide +kernel
    intro h; rw [h] at this; simp at this) (by decide)).1
-- C55_held: not yet acknowledged
example : (pstep (prun (aProfPos, 0) [.start, .target (.fin 10), .write, .read 0x0027]).1 .write).2 = [.wrote 0x30 0x30 none] := rfl

/-! ## C56: mode switches -/

/-- C56: the modes that can be selected after the first initialisation are the ones the program knows that object 0x6502 of the device offers (bit `k - 1`). -/
theorem C56_available (d : BitVec 32) (k : Nat) : (registered d (fun _ => none) k).isSome = true ↔ knownMode k ∧ d.getLsbD (k - 1) = true := by
  unfold registered knownMode
  dsimp only
  by_cases hk : k ≤ 10
  · have : k = 0 ∨ k = 1 ∨ k = 2 ∨ k = 3 ∨ k = 4 ∨ k = 5 ∨ k = 6 ∨ k = 7 ∨ k = 8 ∨ k = 9 ∨ k = 10 := by omega
    rcases this with rfl | rfl | rfl | rfl | rfl | rfl | rfl | rfl | rfl | rfl | rfl <;> simp [defaultMode]
  · have h1 : defaultMode k = none := by
      unfold defaultMode
      split <;> first | rfl | omega
    rw [h1]
    simp [hk]

example : (registered 0x3ED (fun _ => none) 1).isSome = true ∧ (registered 0x3ED (fun _ => none) 2).isSome = false := by decide

/-- C56: whenever a mode is selected (and only then are targets accepted), it is registered, the device supports it, it was requested, and the mode display last read
when it was selected was this mode; whatever the device does. -/
theorem C56_selected (m0 : Motor) (hf : Fresh m0) (sw : BitVec 16) (d : BitVec 8) (es : List Ev) (k : Nat)
    (hs : (m0.run (.read sw d :: es)).1.selected = some k) :
    m0.modes k ≠ none ∧ Supported m0.drives k ∧
    ∃ a t b, .read sw d :: es = a ++ .modeDone t :: b ∧ (m0.run a).1.phase = .waitMode k ∧ lastDisplay a = some k := by
  have hi := minv_run hf (.read sw d :: es)
  obtain ⟨h1, h2⟩ := canAlloc_pos (hi.alloc k (Or.inl hs))
  rw [hi.drives] at h1
  rw [hi.reg] at h2
  refine ⟨by intro h0; rw [h0] at h2; simp at h2, h1, ?_⟩
  obtain ⟨a, t, b, ha, hp, hid⟩ := hi.sel k hs
  refine ⟨a, t, b, ha, hp, ?_⟩
  cases a with
  | nil => simp at ha
  | cons e a =>
    injection ha with he _
    subst he
    have h3 := (minv_run hf (.read sw d :: a)).disp
    rw [hid] at h3
    have h4 : lastDisplay (.read sw d :: a) ≠ none := by
      refine snoc_induction (fun a => lastDisplay (.read sw d :: a) ≠ none) (by simp [lastDisplay]) ?_ a
      intro es e ih
      rw [← List.cons_append, lastDisplay_snoc]
      cases e <;> first | exact ih | simp
    cases hl : lastDisplay (.read sw d :: a) with
    | none => exact absurd hl h4
    | some j => rw [hl] at h3; simp at h3; rw [h3]

/-- C56: a target is accepted only with a selected mode. -/
theorem C56_accepts (m : Motor) (v : Dbl) (h : (m.step (.setTarget v)).2 = [.accepted true]) : m.hs = .enabled ∧ ∃ k, m.selected = some k := by
  have h' : (m.setTarget v).2 = true := by
    injection h with h _
    injection h with h
  unfold Motor.setTarget at h'
  split at h'
  · next he =>
    refine ⟨he, ?_⟩
    split at h'
    · simp at h'
    · next k hk => exact ⟨k, hk⟩
  · simp at h'

example : ((aMotor.run aHistory).1.step (.setTarget (.fin 3))).2 = [.accepted true] := by decide +kernel
example : Supported aMotor.drives 8 :=
  (C56_selected aMotor aMotor_fresh 0x27 0 [.request 8, .stateDone true, .read 0x27 8, .modeDone false] 8 (by decide +kernel)).2.1

/-- C56 (for a request that is not refused at once): whatever happens afterwards, no other mode than the requested one is selected until there is another request. -/
theorem C56_other_modes_partial (m : Motor) (k : Nat) (hk : k ≠ 0) (hp : m.phase = .idle) (hc : m.canAlloc k = some true) (b : List Ev)
    (hb : ∀ j, Ev.request j ∉ b) (j : Nat) (hj : (m.run (.request k :: b)).1.selected = some j) : j = k := by
  have hst : (m.run (.request k :: b)).1 = ((m.step (.request k)).1.run b).1 := rfl
  rw [hst] at hj
  refine (only_requested (m.step (.request k)).1 k b hb ?_).1 j hj
  simp only [Motor.step]
  rw [if_neg hk, if_pos hp]
  unfold Motor.beginSwitch
  rw [hc]
  dsimp only
  split
  · next hcond =>
    refine ⟨?_, ?_⟩
    · intro i hi
      have : m.selected = some i := hi
      rw [hcond.2] at this
      injection this with this
      exact this.symm
    · intro i hi
      have : m.phase.mode = some i := hi
      rw [hp] at this; simp [Phase.mode] at this
  · refine ⟨by intro i hi; simp at hi, ?_⟩
    intro i hi
    simp [Phase.mode] at hi; omega

-- the mode display never becomes 1: no mode is selected afterwards
example : ((aMotor.run aHistory).1.run [.request 1, .stateDone true, .read 0x27 8, .modeDone true, .stateDone true]).1.selected = none := by decide +kernel
example (j : Nat) (h : ((aMotor.run aHistory).1.run [.request 1, .stateDone true, .read 0x27 8, .modeDone true]).1.selected = some j) : j = 1 :=
  C56_other_modes_partial _ 1 (by decide) (by decide +kernel) (by decide +kernel) _ (by simp) j h

/-- C56: after a request that timed out (the display never showed the mode) no mode is selected and targets are refused. -/
theorem C56_timeout (m : Motor) (k : Nat) (hp : m.phase = .waitMode k) (hs : m.selected = none) (hd : m.modeId ≠ k) :
    (m.step (.modeDone true)).1.selected = none ∧ ∀ v, ((m.step (.modeDone true)).1.step (.setTarget v)).2 = [.accepted false] := by
  have h1 : (m.step (.modeDone true)).1.selected = none := by
    simp only [Motor.step, Motor.modeDone, hp]
    rw [if_neg hd]; exact hs
  refine ⟨h1, ?_⟩
  intro v
  show [Out.accepted ((m.step (.modeDone true)).1.setTarget v).2] = _
  unfold Motor.setTarget
  split
  · rw [h1]
  · rfl

example : ((aMotor.run [.read 0x27 0, .request 8, .stateDone true]).1.step (.modeDone true)).1.selected = none :=
  (C56_timeout _ 8 (by decide +kernel) (by decide +kernel) (by decide +kernel)).1

/-- Why C56 is not proved in full: a request for a mode that is not registered or not supported is refused, but the mode selected before stays selected and
goes on accepting targets. -/
theorem C56_refused_keeps_mode : ∃ (m0 : Motor) (es : List Ev), Fresh m0 ∧
    (m0.run es).1.selected = some 8 ∧ ((m0.run es).1.step (.request 2)).2 = [.switched 2 false] ∧
    ((m0.run es).1.step (.request 2)).1.selected = some 8 ∧
    (((m0.run es).1.step (.request 2)).1.step (.setTarget (.fin 1))).2 = [.accepted true] :=
  ⟨aMotor, aHistory, aMotor_fresh, by decide +kernel, by decide +kernel, by decide +kernel, by decide +kernel⟩

/-- Why C56 is not proved in full: if the object with the supported modes is missing, the request leaves with an exception, with the mode unchanged. -/
theorem C56_no_modes_object (m : Motor) (k : Nat) (hk : k ≠ 0) (hp : m.phase = .idle) (hd : m.drives = none) :
    m.step (.request k) = (m, [.threw]) := by
  simp only [Motor.step]
  rw [if_neg hk, if_pos hp]
  unfold Motor.beginSwitch Motor.canAlloc Motor.deviceSupports
  rw [hd]; rfl

example : ({ aMotor with drives := none }.step (.request 8)).2 = [.threw] := by rw [C56_no_modes_object _ _ (by decide) rfl rfl]

end Verif.Props
