import Verif.Props.Motor

/-!
# What the diagnostics of a motor show: C128

Severities: 1 is a warning, 2 an error.  Status words are read by the patterns of CiA 402 (`stateTable`); bit 7 is the warning bit, bit 11 the bit for an internal limit.
-/

namespace Verif.Props
open Verif Verif.M402 Verif.Spec.M402

/-- the drive tells that it is stopped by a fault or a quick stop, that a limit is active, or something that is no state of CiA 402 -/
def Alarming (sw : BitVec 16) : Prop :=
  fits "xxxxxxxxx00x0111".toList sw = true ∨ fits "xxxxxxxxx0xx1111".toList sw = true ∨ fits "xxxxxxxxx0xx1000".toList sw = true ∨
  (∀ s p, (s, p) ∈ stateTable → fits p sw = false) ∨ sw.getLsbD 11 = true

/-- the drive tells that it is not enabled, without being stopped, or that something needs attention -/
def Cautious (sw : BitVec 16) : Prop :=
  fits "xxxxxxxxx0xx0000".toList sw = true ∨ fits "xxxxxxxxx1xx0000".toList sw = true ∨ fits "xxxxxxxxx01x0001".toList sw = true ∨
  fits "xxxxxxxxx01x0011".toList sw = true ∨ sw.getLsbD 7 = true

private theorem sw_step (m : Motor) (e : Ev) : (m.step e).1.sw = match e with | .read sw _ => sw | _ => m.sw := by
  cases e with
  | read sw d => rfl
  | write => rfl
  | setTarget v => simp only [Motor.step, Motor.setTarget]; (repeat' split) <;> rfl
  | request j =>
    simp only [Motor.step]
    split
    · rfl
    · split
      · unfold Motor.beginSwitch
        (repeat' split) <;> rfl
      · rfl
  | stateDone b => simp only [Motor.step, Motor.stateDone]; (repeat' split) <;> rfl
  | modeDone b => simp only [Motor.step, Motor.modeDone]; (repeat' split) <;> rfl
  | exception => simp only [Motor.step]; split <;> rfl
  | command a b => rfl
  | execute b => rfl
  | init => rfl
  | recover => simp only [Motor.step, Motor.handleRecover]; split <;> rfl
  | halt => simp only [Motor.step, Motor.handleHalt]; (repeat' split) <;> rfl

private theorem sw_run (es : List Ev) : ∀ m : Motor, (m.run es).1.sw =
    es.foldl (fun s e => match e with | .read sw _ => sw | _ => s) m.sw := by
  induction es with
  | nil => intro m; rfl
  | cons e es ih =>
    intro m
    show ((m.step e).1.run es).1.sw = _
    rw [ih, sw_step]
    rfl

private theorem sw_last (es : List Ev) (m : Motor) (sw : BitVec 16) (h : lastWord es = some sw) : (m.run es).1.sw = sw := by
  rw [sw_run]
  have key : ∀ (es : List Ev) (o : Option (BitVec 16)) (s : BitVec 16), (∀ x, o = some x → s = x) →
      ∀ x, es.foldl (fun s e => match e with | .read sw _ => some sw | _ => s) o = some x →
        es.foldl (fun s e => match e with | .read sw _ => sw | _ => s) s = x := by
    intro es
    induction es with
    | nil => exact fun o s h => h
    | cons e es ih =>
      intro o s h x
      cases e with
      | read sw d => exact ih (some sw) sw (fun x hx => by injection hx) x
      | _ => exact ih o s h x
  exact key es none m.sw (fun _ h => nomatch h) sw h

private theorem hs_last (m0 : Motor) (hf : Fresh m0) (es : List Ev) (sw : BitVec 16) (h : lastWord es = some sw) : (m0.run es).1.hs = decode sw := by
  rw [(minv_run hf es).hs, h]; rfl

private theorem other7 : ∀ i : Fin 16, i.val ≠ 7 → (0x80#16)[i.val] = false := by decide

private theorem bit7 (sw : BitVec 16) : (sw &&& 0x80 ≠ 0) ↔ sw.getLsbD 7 = true := by
  constructor
  · intro h
    apply Classical.byContradiction
    intro hn
    apply h
    ext i hi
    by_cases h7 : i = 7
    · subst h7; simp at hn ⊢; exact hn
    · have : (0x80#16)[i] = false := by
        exact other7 ⟨i, hi⟩ h7
      simp [this]
  · intro h hz
    have := congrArg (fun x => x.getLsbD 7) hz
    simp at this h
    rw [h] at this; cases this

private theorem other11 : ∀ i : Fin 16, i.val ≠ 11 → (0x800#16)[i.val] = false := by decide

private theorem bit11 (sw : BitVec 16) : (sw &&& 0x800 ≠ 0) ↔ sw.getLsbD 11 = true := by
  constructor
  · intro h
    apply Classical.byContradiction
    intro hn
    apply h
    ext i hi
    by_cases h7 : i = 11
    · subst h7; simp at hn ⊢; exact hn
    · have : (0x800#16)[i] = false := by
        exact other11 ⟨i, hi⟩ h7
      simp [this]
  · intro h hz
    have := congrArg (fun x => x.getLsbD 11) hz
    simp at this h
    rw [h] at this; cases this

/-- the state a word tells, by the patterns -/
private theorem decode_iff (sw : BitVec 16) (s : S402) (p : List Char) (h : (s, p) ∈ stateTable) : decode sw = s ↔ fits p sw = true := by
  obtain ⟨h1, h2⟩ := C49_state sw
  constructor
  · intro hd
    apply Classical.byContradiction
    intro hn
    have huniq : ∀ q, (s, q) ∈ stateTable → q = p := by
      intro q hq
      simp only [stateTable, List.mem_cons, Prod.mk.injEq, List.not_mem_nil, or_false] at h hq
      rcases h with h | h | h | h | h | h | h | h <;> obtain ⟨rfl, rfl⟩ := h <;> simpa using hq
    have hnone : ∀ s' q, (s', q) ∈ stateTable → fits q sw = false := by
      intro s' q hq
      cases hf : fits q sw with
      | false => rfl
      | true =>
        have := h1 s' q hq hf
        rw [hd] at this
        subst this
        rw [huniq q hq] at hf
        exact absurd hf hn
    rw [h2 hnone] at hd
    subst hd
    simp [stateTable] at h
  · exact h1 s p h

private theorem unknown_iff (sw : BitVec 16) : decode sw = .unknown ↔ ∀ s p, (s, p) ∈ stateTable → fits p sw = false := by
  constructor
  · intro hd s p h
    cases hf : fits p sw with
    | false => rfl
    | true =>
      have := (C49_state sw).1 s p h hf
      rw [hd] at this
      subst this
      simp [stateTable] at h
  · exact (C49_state sw).2

/-- C128 (partial: no status word is read while the report is made, see `C128_mixed_false`).  Whatever happened to a motor, with `sw` the status word read last:
there is an error in the report exactly if the drive tells a fault, a quick stop, an internal limit or an unknown state, a warning exactly if it tells not to be enabled or has
its warning bit set, nothing exactly if it is enabled without these bits, and never anything else. -/
theorem C128_report_partial (m0 : Motor) (hf : Fresh m0) (es between : List Ev) (sw : BitVec 16) (hw : lastWord es = some sw)
    (hb : ∀ w d, Ev.read w d ∉ between) :
    let report := (m0.run es).1.handleDiag between
    (2 ∈ report ↔ Alarming sw) ∧ (1 ∈ report ↔ Cautious sw) ∧ (∀ x ∈ report, x = 1 ∨ x = 2) ∧
      (report = [] ↔ fits "xxxxxxxxx01x0111".toList sw = true ∧ sw.getLsbD 7 = false ∧ sw.getLsbD 11 = false) := by
  have hrun : ((m0.run es).1.run between).1 = (m0.run (es ++ between)).1 := by
    have : ∀ (a : List Ev) (m : Motor), ((m.run a).1.run between).1 = (m.run (a ++ between)).1 := by
      intro a
      induction a with
      | nil => exact fun m => rfl
      | cons e a ih => exact fun m => ih (m.step e).1
    exact this es m0
  have hlast : lastWord (es ++ between) = some sw := by
    unfold lastWord at hw ⊢
    rw [List.foldl_append, hw]
    have : ∀ (l : List Ev) (o : Option (BitVec 16)), (∀ w d, Ev.read w d ∉ l) →
        l.foldl (fun s e => match e with | .read sw _ => some sw | _ => s) o = o := by
      intro l
      induction l with
      | nil => exact fun o _ => rfl
      | cons e l ih =>
        intro o h
        cases e with
        | read w d => exact absurd (List.mem_cons_self ..) (h w d)
        | _ => exact ih o (fun w d hx => h w d (List.mem_cons_of_mem _ hx))
    exact this between _ hb
  intro report
  have hr : report = diagReport sw (decode sw) := by
    show diagReport (m0.run es).1.sw ((m0.run es).1.run between).1.hs = _
    rw [hrun, hs_last m0 hf _ sw hlast, sw_last es m0 sw hw]
  rw [hr]
  have d1 := decode_iff sw .notReady _ (List.mem_cons_self ..)
  have d2 := decode_iff sw .disabled "xxxxxxxxx1xx0000".toList (by simp [stateTable])
  have d3 := decode_iff sw .ready "xxxxxxxxx01x0001".toList (by simp [stateTable])
  have d4 := decode_iff sw .switchedOn "xxxxxxxxx01x0011".toList (by simp [stateTable])
  have d5 := decode_iff sw .enabled "xxxxxxxxx01x0111".toList (by simp [stateTable])
  have d6 := decode_iff sw .quickStop "xxxxxxxxx00x0111".toList (by simp [stateTable])
  have d7 := decode_iff sw .faultReaction "xxxxxxxxx0xx1111".toList (by simp [stateTable])
  have d8 := decode_iff sw .fault "xxxxxxxxx0xx1000".toList (by simp [stateTable])
  have d9 := unknown_iff sw
  have b1 := bit7 sw
  have b2 := bit11 sw
  unfold Alarming Cautious
  rw [← d1, ← d2, ← d3, ← d4, ← d5, ← d6, ← d7, ← d8, ← d9, ← Bool.not_eq_true, ← Bool.not_eq_true, ← b1, ← b2]
  unfold diagReport
  generalize decode sw = s
  by_cases c1 : sw &&& 0x80 = 0 <;> by_cases c2 : sw &&& 0x800 = 0 <;> cases s <;>
    simp only [c1, c2, ne_eq, not_true_eq_false, not_false_eq_true, if_true, if_false] <;> simp

/-- C128.  Before the first status word is read, the report is an error. -/
theorem C128_unknown (m0 : Motor) (hf : Fresh m0) (es between : List Ev) (hw : lastWord (es ++ between) = none) :
    2 ∈ (m0.run es).1.handleDiag between := by
  have hrun : ((m0.run es).1.run between).1 = (m0.run (es ++ between)).1 := by
    have : ∀ (a : List Ev) (m : Motor), ((m.run a).1.run between).1 = (m.run (a ++ between)).1 := by
      intro a
      induction a with
      | nil => exact fun m => rfl
      | cons e a ih => exact fun m => ih (m.step e).1
    exact this es m0
  have : ((m0.run es).1.run between).1.hs = .unknown := by
    rw [hrun, (minv_run hf _).hs, hw]; rfl
  simp [Motor.handleDiag, diagReport, this]

/-- C128, when status words are read while the report is made: the state is that of the last one, the bits are those of the last one before. -/
theorem C128_two_words (m0 : Motor) (hf : Fresh m0) (es between : List Ev) (sw sw' : BitVec 16) (hw : lastWord es = some sw)
    (hw' : lastWord (es ++ between) = some sw') :
    let report := (m0.run es).1.handleDiag between
    (fits "xxxxxxxxx00x0111".toList sw' = true ∨ fits "xxxxxxxxx0xx1111".toList sw' = true ∨ fits "xxxxxxxxx0xx1000".toList sw' = true ∨
      sw.getLsbD 11 = true → 2 ∈ report) ∧
    (sw.getLsbD 7 = true → 1 ∈ report) ∧ (report = [] → fits "xxxxxxxxx01x0111".toList sw' = true ∧ sw.getLsbD 7 = false ∧ sw.getLsbD 11 = false) := by
  have hrun : ((m0.run es).1.run between).1 = (m0.run (es ++ between)).1 := by
    have : ∀ (a : List Ev) (m : Motor), ((m.run a).1.run between).1 = (m.run (a ++ between)).1 := by
      intro a
      induction a with
      | nil => exact fun m => rfl
      | cons e a ih => exact fun m => ih (m.step e).1
    exact this es m0
  intro report
  have hr : report = diagReport sw (decode sw') := by
    show diagReport (m0.run es).1.sw ((m0.run es).1.run between).1.hs = _
    rw [hrun, hs_last m0 hf _ sw' hw', sw_last es m0 sw hw]
  rw [hr]
  have d5 := decode_iff sw' .enabled "xxxxxxxxx01x0111".toList (by simp [stateTable])
  have d6 := decode_iff sw' .quickStop "xxxxxxxxx00x0111".toList (by simp [stateTable])
  have d7 := decode_iff sw' .faultReaction "xxxxxxxxx0xx1111".toList (by simp [stateTable])
  have d8 := decode_iff sw' .fault "xxxxxxxxx0xx1000".toList (by simp [stateTable])
  have b1 := bit7 sw
  have b2 := bit11 sw
  rw [← d5, ← d6, ← d7, ← d8, ← Bool.not_eq_true, ← Bool.not_eq_true, ← b1, ← b2]
  unfold diagReport
  generalize decode sw' = s
  by_cases c1 : sw &&& 0x80 = 0 <;> by_cases c2 : sw &&& 0x800 = 0 <;> cases s <;>
    simp only [c1, c2, ne_eq, not_true_eq_false, not_false_eq_true, if_true, if_false] <;> simp

/-- C128 fails: a drive in a fault and then enabled with an active limit - both words call for an error - is reported as being all right if the second word is read
between the two looks of the diagnostics. -/
theorem C128_mixed_false : ∃ (m0 : Motor) (es between : List Ev) (sw sw' : BitVec 16), Fresh m0 ∧ lastWord es = some sw ∧
    lastWord (es ++ between) = some sw' ∧ Alarming sw ∧ Alarming sw' ∧ (m0.run es).1.handleDiag between = [] :=
  ⟨aMotor, [.read 0x0008 0], [.read 0x0827 0], 0x0008, 0x0827, aMotor_fresh, rfl, rfl, Or.inr (Or.inr (Or.inl (by decide))),
    Or.inr (Or.inr (Or.inr (Or.inr (by decide)))), by decide +kernel⟩

-- a drive that is switched on with its warning bit, then enabled with an active limit, then enabled
example : aMotor_fresh = aMotor_fresh ∧ lastWord [.read 0x00A3 0] = some 0x00A3 ∧ (∀ w d, Ev.read w d ∉ [Ev.write, .halt]) ∧
    (aMotor.run [.read 0x00A3 0]).1.handleDiag [.write, .halt] = [1, 1] ∧ (aMotor.run [.read 0x0827 0]).1.handleDiag [.write] = [2] ∧
    (aMotor.run [.read 0x0027 0]).1.handleDiag [.write] = [] ∧ aMotor.handleDiag [.write] = [2] ∧ lastWord ([] ++ [.write]) = none := by
  refine ⟨rfl, rfl, by simp, ?_⟩
  decide +kernel

end Verif.Props
