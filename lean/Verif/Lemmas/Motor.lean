import Verif.Spec.Motor
import Verif.Lemmas.Master

set_option linter.unusedSimpArgs false
set_option linter.unusedVariables false

namespace Verif.M402
open Verif Verif.Spec.M402

/-! ## Status word -/

/-- the seven low bits -/
def low (sw : BitVec 16) : BitVec 16 := (sw.setWidth 7).setWidth 16

theorem low_and (sw : BitVec 16) : low sw &&& 0x6F = sw &&& 0x6F := by
  apply BitVec.eq_of_getLsbD_eq
  intro i hi
  have h : ∀ j, j < 16 → (7 ≤ j → (0x6F : BitVec 16).getLsbD j = false) := by decide
  by_cases h7 : i < 7
  · simp [low, -BitVec.getLsbD_eq_getElem, h7, hi]
  · rw [BitVec.getLsbD_and, BitVec.getLsbD_and, h i hi (by omega)]; simp

theorem decode_low (sw : BitVec 16) : decode (low sw) = decode sw := by
  unfold decode
  rw [low_and]

theorem low_bit (sw : BitVec 16) (i : Nat) (hi : i < 7) : (low sw).getLsbD i = sw.getLsbD i := by
  simp [low, -BitVec.getLsbD_eq_getElem, hi]; omega

theorem fits_low (s : S402) (p : List Char) (hp : (s, p) ∈ stateTable) (sw : BitVec 16) : fits p (low sw) = fits p sw := by
  have hx : ∀ e ∈ stateTable, ∀ i, i < 16 → 7 ≤ i → e.2.getD (15 - i) 'x' = 'x' := by decide +kernel
  unfold fits
  congr 1
  apply Bool.eq_iff_iff.2
  simp only [List.all_eq_true, List.mem_range]
  constructor
  · intro h i hi
    by_cases h7 : i < 7
    · rw [← low_bit sw i h7]; exact h i hi
    · rw [hx _ hp i hi (by omega)]; rfl
  · intro h i hi
    by_cases h7 : i < 7
    · rw [low_bit sw i h7]; exact h i hi
    · rw [hx _ hp i hi (by omega)]; rfl

theorem decode_table_low : ∀ x : BitVec 7,
    (∀ e ∈ stateTable, fits e.2 (x.setWidth 16) = true → decode (x.setWidth 16) = e.1) ∧
    ((∀ e ∈ stateTable, fits e.2 (x.setWidth 16) = false) → decode (x.setWidth 16) = .unknown) := by decide +kernel

/-! ## Control word -/

/-- what a drive sees of a control word -/
theorem command_congr {a b : BitVec 16} (h : ∀ i, i < 4 → a.getLsbD i = b.getLsbD i) : command a = command b := by
  unfold command
  rw [h 0 (by omega), h 1 (by omega), h 2 (by omega), h 3 (by omega)]

theorem drive_congr {s : S402} {p a b : BitVec 16} (h : ∀ i, i < 4 → a.getLsbD i = b.getLsbD i) (h7 : a.getLsbD 7 = b.getLsbD 7) :
    drive s p a = drive s p b := by
  unfold drive
  rw [command_congr h, h7]

theorem apply_bit (o : Op) (cw : BitVec 16) (i : Nat) (hi : i < 16) :
    (o.apply cw).getLsbD i = ((cw.getLsbD i && !o.toReset.getLsbD i) || o.toSet.getLsbD i) := by
  simp [Op.apply, -BitVec.getLsbD_eq_getElem, hi]

/-- the entries of the table -/
theorem transition_some (a b : S402) : (transition a b).isSome = true ↔ (a, b) ∈ transitions := by
  cases a <;> cases b <;> decide

/-! ## The accessor -/

theorem acc_bit (w : BitVec 16) (o : AccOp) (i : Nat) (h : i ≠ 4 ∧ i ≠ 5 ∧ i ≠ 6 ∧ i ≠ 9) : (o.apply w).getLsbD i = w.getLsbD i := by
  by_cases hi : i < 16
  · have hm : opMask.getLsbD i = false := by
      have : ∀ j, j < 16 → (j ≠ 4 ∧ j ≠ 5 ∧ j ≠ 6 ∧ j ≠ 9) → opMask.getLsbD j = false := by decide
      exact this i hi h
    cases o with
    | set b => simp only [AccOp.apply, BitVec.getLsbD_or, BitVec.getLsbD_and, hm]; simp
    | reset b => simp only [AccOp.apply, BitVec.getLsbD_and, BitVec.getLsbD_not, hm]; simp [hi]
    | assign v => simp only [AccOp.apply, BitVec.getLsbD_or, BitVec.getLsbD_and, BitVec.getLsbD_not, hm]; simp [hi]
  · rw [BitVec.getLsbD_of_ge _ _ (by omega), BitVec.getLsbD_of_ge _ _ (by omega)]

theorem accs_bit (os : List AccOp) (w : BitVec 16) (i : Nat) (h : i ≠ 4 ∧ i ≠ 5 ∧ i ≠ 6 ∧ i ≠ 9) :
    (os.foldl AccOp.apply w).getLsbD i = w.getLsbD i := by
  induction os generalizing w with
  | nil => rfl
  | cons o os ih => rw [List.foldl_cons, ih, acc_bit w o i h]

theorem bit_or_halt (w : BitVec 16) (i : Nat) (h : i ≠ 8) : (w ||| 0x100#16).getLsbD i = w.getLsbD i := by
  by_cases hi : i < 16
  · have : (0x100#16).getLsbD i = false := by
      have : ∀ j, j < 16 → j ≠ 8 → (0x100#16).getLsbD j = false := by decide
      exact this i hi h
    rw [BitVec.getLsbD_or, this, Bool.or_false]
  · rw [BitVec.getLsbD_of_ge _ _ (by omega), BitVec.getLsbD_of_ge _ _ (by omega)]

theorem bit_clear_halt (w : BitVec 16) (i : Nat) (h : i ≠ 8) : (w &&& ~~~ 0x100#16).getLsbD i = w.getLsbD i := by
  by_cases hi : i < 16
  · have : (~~~ 0x100#16).getLsbD i = true := by
      have : ∀ j, j < 16 → j ≠ 8 → (~~~ 0x100#16).getLsbD j = true := by decide
      exact this i hi h
    rw [BitVec.getLsbD_and, this, Bool.and_true]
  · rw [BitVec.getLsbD_of_ge _ _ (by omega), BitVec.getLsbD_of_ge _ _ (by omega)]

theorem bit_clear_reset (w : BitVec 16) (i : Nat) (h : i ≠ 7) : (w &&& ~~~ 0x80#16).getLsbD i = w.getLsbD i := by
  by_cases hi : i < 16
  · have : (~~~ 0x80#16).getLsbD i = true := by
      have : ∀ j, j < 16 → j ≠ 7 → (~~~ 0x80#16).getLsbD j = true := by decide
      exact this i hi h
    rw [BitVec.getLsbD_and, this, Bool.and_true]
  · rw [BitVec.getLsbD_of_ge _ _ (by omega), BitVec.getLsbD_of_ge _ _ (by omega)]

theorem bit7_clear_reset (w : BitVec 16) : (w &&& ~~~ 0x80#16).getLsbD 7 = false := by
  rw [BitVec.getLsbD_and, show (~~~ 0x80#16).getLsbD 7 = false by decide, Bool.and_false]

theorem writeMode_bit (m : Motor) (cw : BitVec 16) (i : Nat) (h : i ≠ 4 ∧ i ≠ 5 ∧ i ≠ 6 ∧ i ≠ 9) (h8 : i ≠ 8) :
    (m.writeMode cw).1.getLsbD i = cw.getLsbD i := by
  unfold Motor.writeMode
  split
  · next hd =>
    dsimp only
    split
    · rw [bit_clear_halt _ _ h8, accs_bit _ _ _ h]
    · rw [accs_bit _ _ _ h]
  · exact acc_bit _ _ _ h

/-- the write cycle leaves everything but the bits of the mode and the halt bit alone -/
theorem handleWrite_cw (m : Motor) (i : Nat) (h : i ≠ 4 ∧ i ≠ 5 ∧ i ≠ 6 ∧ i ≠ 9) (h8 : i ≠ 8) :
    m.handleWrite.1.cw.getLsbD i = m.cw.getLsbD i := by
  unfold Motor.handleWrite
  dsimp only
  split
  · rw [writeMode_bit _ _ _ h h8, bit_or_halt _ _ h8]
  · exact bit_or_halt _ _ h8

theorem handleWrite_word (m : Motor) :
    m.handleWrite.2.1 = if m.sfr then m.handleWrite.1.cw &&& ~~~ 0x80#16 else m.handleWrite.1.cw := rfl

theorem handleWrite_word_bit (m : Motor) (i : Nat) (h : i ≠ 4 ∧ i ≠ 5 ∧ i ≠ 6 ∧ i ≠ 9) (h8 : i ≠ 8) (h7 : i ≠ 7) :
    m.handleWrite.2.1.getLsbD i = m.cw.getLsbD i := by
  rw [handleWrite_word]
  split
  · rw [bit_clear_reset _ _ h7, handleWrite_cw _ _ h h8]
  · rw [handleWrite_cw _ _ h h8]

theorem handleWrite_word_bit7 (m : Motor) : m.handleWrite.2.1.getLsbD 7 = (!m.sfr && m.cw.getLsbD 7) := by
  rw [handleWrite_word]
  split
  · next h => rw [bit7_clear_reset, h]; rfl
  · next h => rw [handleWrite_cw _ _ (by decide) (by decide)]; simp [h]

/-! ## Enabling -/

theorem setTransition_step (cw : BitVec 16) (d : S402) (h : d ≠ .enabled) (op : Op) (ht : transition d (nextForEnabling d) = some op) :
    (setTransition cw d .enabled true).1 = op.apply cw := by
  unfold setTransition
  rw [if_pos h]
  simp only [and_self, if_true, ht]

/-- what one cycle does, for the next step `op` -/
theorem cycle_eq (p : Plant) (sw : BitVec 16) (disp : BitVec 8) (a : Answer) (hsw : decode sw = p.d) (hd : p.d ≠ .enabled) (op : Op)
    (ht : transition p.d (nextForEnabling p.d) = some op) :
    ∃ (m3 : Motor) (w : BitVec 16),
      m3.sfr = false ∧ (∀ i, i < 4 → w.getLsbD i = (op.apply p.m.cw).getLsbD i) ∧
      w.getLsbD 7 = (!p.m.sfr && (op.apply p.m.cw).getLsbD 7) ∧ m3.cw.getLsbD 7 = (op.apply p.m.cw).getLsbD 7 ∧
      (∀ i, i < 4 → m3.cw.getLsbD i = (op.apply p.m.cw).getLsbD i) ∧
      cycle p sw disp a = (match a with
        | .acts => { m := m3, d := drive p.d p.prev w, prev := w }
        | .misses => { m := m3, d := p.d, prev := p.prev }
        | .busy => { m := m3, d := if p.d = .unknown ∨ p.d = .notReady ∨ p.d = .faultReaction then p.d else drive p.d p.prev w, prev := w }) := by
  unfold cycle
  dsimp only
  generalize hm1 : (p.m.step (.read sw disp)).1 = m1
  have h1 : m1.hs = p.d := by rw [← hm1]; exact hsw
  have h2 : m1.cw = p.m.cw := by rw [← hm1]; rfl
  have h3 : m1.sfr = p.m.sfr := by rw [← hm1]; rfl
  generalize hm2 : (m1.step (.command m1.hs .enabled)).1 = m2
  have h4 : m2.cw = op.apply p.m.cw := by
    rw [← hm2]
    show (setTransition m1.cw m1.hs .enabled true).1 = _
    rw [h1, h2]; exact setTransition_step _ _ hd _ ht
  have h5 : m2.sfr = p.m.sfr := by rw [← hm2, ← h3]; rfl
  refine ⟨(m2.step .write).1, m2.handleWrite.2.1, rfl, ?_, ?_, ?_, ?_, rfl⟩
  · intro i hi
    rw [handleWrite_word_bit _ _ (by omega) (by omega) (by omega), h4]
  · rw [handleWrite_word_bit7, h4, h5]
  · show m2.handleWrite.1.cw.getLsbD 7 = _
    rw [handleWrite_cw _ _ (by decide) (by decide), h4]
  · intro i hi
    show m2.handleWrite.1.cw.getLsbD i = _
    rw [handleWrite_cw _ _ (by omega) (by omega), h4]

/-- the drive acts on a step (no fault) -/
theorem drive_step (d : S402) (op : Op) (ht : transition d (nextForEnabling d) = some op) (h1 : d ≠ .fault) (h2 : d ≠ .enabled)
    (cw prev w : BitVec 16) (hw : ∀ i, i < 4 → w.getLsbD i = (op.apply cw).getLsbD i)
    (h7 : (op.apply cw).getLsbD 7 = false → w.getLsbD 7 = false) :
    drive d prev w = nextForEnabling d := by
  have hb : ∀ i, i < 4 → w.getLsbD i = ((cw.getLsbD i && !op.toReset.getLsbD i) || op.toSet.getLsbD i) := by
    intro i hi; rw [hw i hi, apply_bit _ _ _ (by omega)]
  have hb7 := h7
  rw [apply_bit _ _ _ (by omega)] at hb7
  have b0 := hb 0 (by omega)
  have b1 := hb 1 (by omega)
  have b2 := hb 2 (by omega)
  have b3 := hb 3 (by omega)
  cases d <;> simp only [transition, nextForEnabling, Option.some.injEq, reduceCtorEq, ne_eq, not_true_eq_false, not_false_eq_true] at ht h1 h2 <;>
    subst ht <;>
    simp [opAutomatic, opShutdown, opSwitchOn, opEnable, -BitVec.getLsbD_eq_getElem] at b0 b1 b2 b3 hb7 <;>
    simp [drive, nextForEnabling, command, follow, b0, b1, b2, b3, hb7, -BitVec.getLsbD_eq_getElem]

/-- the steps needed, if the drive acts in each cycle -/
def Within (n : Nat) (p : Plant) : Prop :=
  match p.d with
  | .enabled => True
  | .switchedOn => 1 ≤ n
  | .quickStop => 1 ≤ n
  | .ready => 2 ≤ n
  | .disabled => 3 ≤ n
  | .notReady => 4 ≤ n
  | .unknown => 5 ≤ n
  | .fault => (p.m.sfr = true ∧ 5 ≤ n) ∨ (p.m.sfr = false ∧ p.prev.getLsbD 7 = false ∧ 4 ≤ n)
  | .faultReaction => 5 ≤ n ∧ (p.m.sfr = true ∨ p.m.cw.getLsbD 7 = false)

theorem hop (d : S402) (h : d ≠ .enabled) : ∃ op, transition d (nextForEnabling d) = some op := by
  cases d <;> first | exact absurd rfl h | exact ⟨_, rfl⟩

theorem within_acts (n : Nat) (p : Plant) (h : Within (n + 1) p) (hd : p.d ≠ .enabled) (sw : BitVec 16) (disp : BitVec 8) (hsw : decode sw = p.d) :
    Within n (cycle p sw disp .acts) := by
  obtain ⟨op, ht⟩ := hop p.d hd
  obtain ⟨m3, w, hs3, hw, hw7, hc7, hc4, e⟩ := cycle_eq p sw disp .acts hsw hd op ht
  rw [e]
  dsimp only
  by_cases hf : p.d = .fault
  · rw [hf] at ht
    injection ht with ht
    subst ht
    have hop7 : (opFaultReset.apply p.m.cw).getLsbD 7 = true := by rw [apply_bit _ _ _ (by omega)]; simp [opFaultReset]
    rw [hop7, Bool.and_true] at hw7
    unfold Within at h
    rw [hf] at h
    dsimp only at h
    rw [hf]
    rcases h with ⟨h1, h2⟩ | ⟨h1, h2, h3⟩
    · have : drive .fault p.prev w = .fault := by simp [drive, hw7, h1, -BitVec.getLsbD_eq_getElem]
      unfold Within
      simp only [this]
      exact Or.inr ⟨hs3, by rw [hw7, h1]; rfl, by omega⟩
    · have : drive .fault p.prev w = .disabled := by simp [drive, hw7, h1, h2, -BitVec.getLsbD_eq_getElem]
      unfold Within
      simp only [this]
      omega
  · have := drive_step p.d op ht hf hd p.m.cw p.prev w hw (by intro h0; rw [hw7, h0, Bool.and_false])
    unfold Within
    unfold Within at h
    simp only [this]
    revert ht h
    cases hpd : p.d <;> intro h ht <;> simp only [nextForEnabling] at * <;> first | omega | exact absurd hpd hd | exact absurd hpd hf | skip
    injection ht with ht
    subst ht
    rw [hs3]
    refine Or.inr ⟨rfl, ?_, by omega⟩
    rw [hw7, apply_bit _ _ _ (by omega)]
    rcases h.2 with h | h <;> simp [h, opAutomatic, -BitVec.getLsbD_eq_getElem]

theorem reaches_acts (n : Nat) : ∀ p, Within n p → Reaches p (List.replicate n .acts) := by
  induction n with
  | zero =>
    intro p h
    apply Reaches.here
    unfold Within at h
    revert h
    cases p.d <;> intro h <;> simp only at h <;> first | rfl | omega
  | succ n ih =>
    intro p h
    by_cases hd : p.d = .enabled
    · exact Reaches.here hd
    · exact Reaches.later fun sw disp hsw => ih _ (within_acts n p h hd sw disp hsw)

/-- the same if words may be lost and the drive be busy -/
def WithinLossy (n : Nat) (p : Plant) : Prop :=
  match p.d with
  | .enabled => True
  | .switchedOn => 1 ≤ n
  | .quickStop => 1 ≤ n
  | .ready => 2 ≤ n
  | .disabled => 3 ≤ n
  | .notReady => 4 ≤ n
  | .unknown => 5 ≤ n
  | .fault => p.prev.getLsbD 7 = false ∧ (5 ≤ n ∨ p.m.sfr = false ∧ 4 ≤ n)
  | .faultReaction => 5 ≤ n ∧ p.m.cw.getLsbD 7 = false

theorem WithinLossy.mono {n k : Nat} {p : Plant} (h : WithinLossy n p) (hk : n ≤ k) : WithinLossy k p := by
  unfold WithinLossy at *
  revert h
  cases p.d <;> intro h <;> simp only at * <;> first | trivial | omega | skip
  case fault => exact ⟨h.1, h.2.elim (fun a => Or.inl (by omega)) (fun a => Or.inr ⟨a.1, by omega⟩)⟩
  case faultReaction => exact ⟨by omega, h.2⟩

theorem lossy_acts (n : Nat) (p : Plant) (h : WithinLossy (n + 1) p) (hd : p.d ≠ .enabled) (sw : BitVec 16) (disp : BitVec 8)
    (hsw : decode sw = p.d) : WithinLossy n (cycle p sw disp .acts) := by
  have hw : Within (n + 1) p := by
    unfold WithinLossy at h
    unfold Within
    revert h
    cases p.d <;> intro h <;> simp only at * <;> first | trivial | omega | skip
    case fault =>
      cases hs : p.m.sfr
      · right
        refine ⟨rfl, h.1, ?_⟩
        rcases h.2 with h | h <;> omega
      · left
        refine ⟨rfl, ?_⟩
        rcases h.2 with h' | h'
        · omega
        · rw [hs] at h'; simp at h'
    case faultReaction => exact ⟨h.1, Or.inr h.2⟩
  have := within_acts n p hw hd sw disp hsw
  obtain ⟨op, ht⟩ := hop p.d hd
  obtain ⟨m3, w, hs3, hw, hw7, hc7, hc4, e⟩ := cycle_eq p sw disp .acts hsw hd op ht
  dsimp only at e
  unfold Within at this
  unfold WithinLossy
  revert this
  cases hc : (cycle p sw disp .acts).d <;> intro this <;> simp only at * <;> first | trivial | omega | skip
  case fault =>
    rw [e] at this ⊢
    rcases this with h | h
    · rw [hs3] at h; simp at h
    · exact ⟨h.2.1, Or.inr ⟨hs3, h.2.2⟩⟩
  case faultReaction =>
    rw [e] at hc
    revert hc
    by_cases hf : p.d = .fault
    · rw [hf]; simp only [drive]; split <;> simp
    · rw [drive_step p.d op ht hf hd p.m.cw p.prev w hw (by intro h0; rw [hw7, h0, Bool.and_false])]
      cases p.d <;> simp [nextForEnabling]

theorem lossy_misses (n : Nat) (p : Plant) (h : WithinLossy n p) (hd : p.d ≠ .enabled) (sw : BitVec 16) (disp : BitVec 8)
    (hsw : decode sw = p.d) : WithinLossy n (cycle p sw disp .misses) := by
  obtain ⟨op, ht⟩ := hop p.d hd
  obtain ⟨m3, w, hs3, hw, hw7, hc7, hc4, e⟩ := cycle_eq p sw disp .misses hsw hd op ht
  rw [e]
  dsimp only
  unfold WithinLossy at *
  revert h ht
  cases hpd : p.d <;> intro h ht <;> simp only at * <;> first | trivial | omega | skip
  case fault => exact ⟨h.1, h.2.elim Or.inl (fun a => Or.inr ⟨hs3, a.2⟩)⟩
  case faultReaction =>
    injection ht with ht
    subst ht
    refine ⟨h.1, ?_⟩
    rw [hc7, apply_bit _ _ _ (by omega), h.2]; rfl

theorem lossy_busy (n : Nat) (p : Plant) (h : WithinLossy n p) (hd : p.d ≠ .enabled) (sw : BitVec 16) (disp : BitVec 8)
    (hsw : decode sw = p.d) : WithinLossy n (cycle p sw disp .busy) := by
  by_cases ha : p.d = .unknown ∨ p.d = .notReady ∨ p.d = .faultReaction
  · obtain ⟨op, ht⟩ := hop p.d hd
    obtain ⟨m3, w, hs3, hw, hw7, hc7, hc4, e⟩ := cycle_eq p sw disp .busy hsw hd op ht
    rw [e]
    dsimp only
    rw [if_pos ha]
    unfold WithinLossy at *
    revert h ht
    cases hpd : p.d <;> intro h ht <;> simp only at * <;> first | trivial | omega | skip
    case fault => rw [hpd] at ha; simp at ha
    case faultReaction =>
      injection ht with ht
      subst ht
      refine ⟨h.1, ?_⟩
      rw [hc7, apply_bit _ _ _ (by omega), h.2]; rfl
  · cases n with
    | zero =>
      exfalso
      unfold WithinLossy at h
      revert h
      cases hpd : p.d <;> intro h <;> simp only at h <;> first | omega | exact absurd hpd hd | skip
    | succ n =>
      have e : cycle p sw disp .busy = cycle p sw disp .acts := by
        unfold cycle
        dsimp only
        rw [if_neg ha]
      rw [e]
      exact (lossy_acts n p h hd sw disp hsw).mono (by omega)

theorem reaches_lossy (as : List Answer) : ∀ n p, WithinLossy n p → n ≤ as.count .acts → Reaches p as := by
  induction as with
  | nil =>
    intro n p h hn
    simp at hn
    subst hn
    apply Reaches.here
    unfold WithinLossy at h
    revert h
    cases p.d <;> intro h <;> simp only at h <;> first | rfl | omega
  | cons a as ih =>
    intro n p h hn
    by_cases hd : p.d = .enabled
    · exact Reaches.here hd
    · apply Reaches.later
      intro sw disp hsw
      cases a with
      | acts =>
        simp at hn
        cases n with
        | zero => exact ih 0 _ (lossy_acts 0 p (h.mono (by omega)) hd sw disp hsw) (by omega)
        | succ n => exact ih n _ (lossy_acts n p h hd sw disp hsw) (by omega)
      | misses => exact ih n _ (lossy_misses n p h hd sw disp hsw) (by simpa using hn)
      | busy => exact ih n _ (lossy_busy n p h hd sw disp hsw) (by simpa using hn)

/-! ## Targets -/

theorem trunc_part (q : Rat) : IsIntegerPart q (trunc q) := by
  unfold trunc
  constructor
  · intro h
    rw [if_pos h]
    refine ⟨Rat.floor_le q, ?_⟩
    have := Rat.lt_floor_add_one q
    rwa [Rat.intCast_add] at this
  · intro h
    rw [if_neg (Rat.not_le.2 h)]
    have h1 : q ≤ (q.ceil : Rat) := Rat.le_ceil
    refine ⟨?_, h1⟩
    have h2 : (q.ceil : Rat) < q + 1 := Rat.ceil_lt
    grind

theorem cast_limit (lo hi : Int) (h0 : lo ≤ 0) (h1 : 0 ≤ hi) (q : Rat) :
    (match numericCast lo hi (.fin q) with
     | .ok x => some x | .negOverflow => some lo | .posOverflow => some hi | .bad => none) = some (limit lo hi (trunc q)) := by
  unfold numericCast
  dsimp only
  by_cases ha : q ≤ ((lo - 1 : Int) : Rat)
  · rw [if_pos ha]
    dsimp only
    have hneg : q < 0 := by
      have : ((lo - 1 : Int) : Rat) < ((0 : Int) : Rat) := Rat.intCast_lt_intCast.2 (by omega)
      grind
    have : trunc q ≤ lo - 1 := by
      unfold trunc
      rw [if_neg (Rat.not_le.2 hneg)]
      exact Rat.ceil_le_iff.2 ha
    unfold limit
    rw [if_pos (by omega)]
  · rw [if_neg ha]
    by_cases hb : ((hi + 1 : Int) : Rat) ≤ q
    · rw [if_pos hb]
      dsimp only
      have hpos : 0 ≤ q := by
        have : ((0 : Int) : Rat) < ((hi + 1 : Int) : Rat) := Rat.intCast_lt_intCast.2 (by omega)
        grind
      have : hi + 1 ≤ trunc q := by
        unfold trunc
        rw [if_pos hpos]
        exact Rat.le_floor_iff.2 hb
      unfold limit
      rw [if_neg (by omega), if_pos (by omega)]
    · rw [if_neg hb]
      dsimp only
      have hlo : lo ≤ trunc q := by
        unfold trunc
        split
        · next h =>
          have : (0 : Int) ≤ q.floor := Rat.le_floor_iff.2 (by simpa using h)
          omega
        · have : lo - 1 < q.ceil := Rat.lt_ceil_iff.2 (Rat.not_le.1 ha)
          omega
      have hhi : trunc q ≤ hi := by
        unfold trunc
        split
        · have : q.floor < hi + 1 := Rat.floor_lt_iff.2 (Rat.not_le.1 hb)
          omega
        · next h =>
          have h' : q ≤ 0 := by grind
          have : q.ceil ≤ (0 : Int) := Rat.ceil_le_iff.2 (by simpa using h')
          omega
      unfold limit
      rw [if_neg (by omega), if_neg (by omega)]

/-- a target of a device object -/
structure Target.Ok (t : Target) : Prop where
  lo : t.lo ≤ 0
  hi : 0 ≤ t.hi

theorem target_nan (t : Target) : t.set .nan = (t, false) := rfl

theorem target_set (t : Target) (ht : t.Ok) (v : Dbl) (hv : v ≠ .nan) :
    (t.set v).2 = true ∧ (t.set v).1.has = true ∧ Stored t.lo t.hi v (t.set v).1.target ∧
    (t.set v).1.lo = t.lo ∧ (t.set v).1.hi = t.hi := by
  cases v with
  | nan => exact absurd rfl hv
  | posInf => exact ⟨rfl, rfl, rfl, rfl, rfl⟩
  | negInf => exact ⟨rfl, rfl, rfl, rfl, rfl⟩
  | fin q =>
    have h := cast_limit t.lo t.hi ht.lo ht.hi q
    unfold Target.set
    dsimp only
    revert h
    cases hc : numericCast t.lo t.hi (.fin q) with
    | ok x => intro h; injection h with h; exact ⟨rfl, rfl, ⟨_, trunc_part q, h⟩, rfl, rfl⟩
    | negOverflow => intro h; injection h with h; exact ⟨rfl, rfl, ⟨_, trunc_part q, h⟩, rfl, rfl⟩
    | posOverflow => intro h; injection h with h; exact ⟨rfl, rfl, ⟨_, trunc_part q, h⟩, rfl, rfl⟩
    | bad => intro h; simp at h

theorem target_set_ok (t : Target) (ht : t.Ok) (v : Dbl) : (t.set v).1.Ok := by
  by_cases hv : v = .nan
  · subst hv; exact ht
  · have := target_set t ht v hv
    exact ⟨by rw [this.2.2.2.1]; exact ht.lo, by rw [this.2.2.2.2]; exact ht.hi⟩

/-! ## Profiled position mode -/

theorem prun_append (es fs : List PEv) : ∀ s,
    (prun s (es ++ fs)).1 = (prun (prun s es).1 fs).1 ∧ (prun s (es ++ fs)).2 = (prun s es).2 ++ (prun (prun s es).1 fs).2 := by
  induction es with
  | nil => intro s; exact ⟨rfl, by simp [prun]⟩
  | cons e es ih =>
    intro s
    simp only [List.cons_append, prun]
    refine ⟨(ih _).1, ?_⟩
    rw [(ih _).2, List.append_assoc]

/-- what is kept, in terms of what was observed -/
structure PInv (p : ProfPos) (tr : List PObs) : Prop where
  lo : p.t.lo = -2147483648
  hi : p.t.hi = 2147483647
  sw : p.sw = statusWord tr
  last : p.last = lastSent tr
  has : p.t.has = (inForce tr).isSome
  val : ∀ v, inForce tr = some v → Stored (-2147483648) 2147483647 v p.t.target

theorem PInv.ok {p : ProfPos} {tr : List PObs} (h : PInv p tr) : p.t.Ok := ⟨by rw [h.lo]; decide, by rw [h.hi]; decide⟩

theorem pwrite_last (p : ProfPos) (cw : BitVec 16) :
    (p.write cw).1.t = p.t ∧ (p.write cw).1.sw = p.sw ∧
    (p.write cw).1.last = (match (p.write cw).2.2.2 with | some t => some t | none => p.last) := by
  unfold ProfPos.write
  split
  · split
    · split <;> exact ⟨rfl, rfl, rfl⟩
    · split <;> exact ⟨rfl, rfl, rfl⟩
  · exact ⟨rfl, rfl, rfl⟩

theorem pinv_step {s : ProfPos × BitVec 16} {tr : List PObs} (h : PInv s.1 tr) (e : PEv) :
    PInv (pstep s e).1.1 (tr ++ (pstep s e).2) := by
  cases e with
  | start =>
    refine ⟨h.lo, h.hi, ?_, ?_, ?_, ?_⟩ <;> simp [pstep, ProfPos.start, Target.start, statusWord, lastSent, inForce]
  | other cw => simpa [pstep] using h
  | read sw =>
    refine ⟨h.lo, h.hi, ?_, ?_, ?_, ?_⟩
    · simp [pstep, ProfPos.read, statusWord]
    · have := h.last; simpa [pstep, ProfPos.read, lastSent] using this
    · have := h.has; simpa [pstep, ProfPos.read, inForce] using this
    · have := h.val; simpa [pstep, ProfPos.read, inForce] using this
  | target v =>
    by_cases hv : v = .nan
    · subst hv
      refine ⟨h.lo, h.hi, ?_, ?_, ?_, ?_⟩
      · have := h.sw; simpa [pstep, target_nan, statusWord] using this
      · have := h.last; simpa [pstep, target_nan, lastSent] using this
      · have := h.has; simpa [pstep, target_nan, inForce] using this
      · have := h.val; simpa [pstep, target_nan, inForce] using this
    · have ht := target_set s.1.t h.ok v hv
      refine ⟨?_, ?_, ?_, ?_, ?_, ?_⟩
      · simp only [pstep]; rw [ht.2.2.2.1]; exact h.lo
      · simp only [pstep]; rw [ht.2.2.2.2]; exact h.hi
      · have := h.sw; simpa [pstep, statusWord] using this
      · have := h.last; simpa [pstep, lastSent] using this
      · simp [pstep, inForce, ht.1, ht.2.1]
      · intro v' hv'
        simp [pstep, inForce, ht.1] at hv'
        subst hv'
        have := ht.2.2.1
        rwa [h.lo, h.hi] at this
  | write =>
    have hw := pwrite_last s.1 s.2
    refine ⟨?_, ?_, ?_, ?_, ?_, ?_⟩
    · simp only [pstep]; rw [hw.1]; exact h.lo
    · simp only [pstep]; rw [hw.1]; exact h.hi
    · have := h.sw; simpa [pstep, statusWord, hw.2.1] using this
    · simp only [pstep]
      rw [hw.2.2]
      cases hs : (s.1.write s.2).2.2.2 with
      | none => have := h.last; simpa [lastSent] using this
      | some t => simp [lastSent]
    · have := h.has; simpa [pstep, inForce, hw.1] using this
    · have := h.val; simpa [pstep, inForce, hw.1] using this

theorem pinv_run (es : List PEv) : ∀ (s : ProfPos × BitVec 16) (tr : List PObs), PInv s.1 tr →
    PInv (prun s es).1.1 (tr ++ (prun s es).2) := by
  induction es with
  | nil => intro s tr h; simpa [prun] using h
  | cons e es ih =>
    intro s tr h
    simp only [prun]
    rw [← List.append_assoc]
    exact ih _ _ (pinv_step h e)

theorem pinv_start (p : ProfPos) (hlo : p.t.lo = -2147483648) (hhi : p.t.hi = 2147483647) (cw : BitVec 16) (es : List PEv) :
    PInv (prun (p, cw) (.start :: es)).1.1 (prun (p, cw) (.start :: es)).2 := by
  have : PInv p.start [.started] :=
    ⟨hlo, hhi, rfl, rfl, rfl, by intro v hv; simp [inForce] at hv⟩
  have := pinv_run es (p.start, cw) [.started] this
  simpa [prun, pstep] using this

theorem bit_test (sw : BitVec 16) (i : Nat) (hi : i < 16) : (sw &&& (1#16 <<< i) = 0) ↔ sw.getLsbD i = false := by
  constructor
  · intro h
    have : (sw &&& (1#16 <<< i)).getLsbD i = false := by rw [h]; simp
    rw [BitVec.getLsbD_and] at this
    have h1 : (1#16 <<< i).getLsbD i = true := by
      simp [BitVec.getLsbD_shiftLeft, hi, -BitVec.getLsbD_eq_getElem]
    rw [h1, Bool.and_true] at this
    exact this
  · intro h
    apply BitVec.eq_of_getLsbD_eq
    intro j hj
    rw [BitVec.getLsbD_and]
    by_cases hji : j = i
    · subst hji; rw [h]; simp
    · have h1 : (1#16 <<< i).getLsbD j = false := by
        by_cases hlt : j < i
        · simp [BitVec.getLsbD_shiftLeft, hlt, -BitVec.getLsbD_eq_getElem]
        · have h0 : (1#16).getLsbD (j - i) = false := by
            have : ∀ k, k < 16 → k ≠ 0 → (1#16).getLsbD k = false := by decide
            exact this _ (by omega) (by omega)
          simp only [BitVec.getLsbD_shiftLeft, h0, Bool.and_false]
      rw [h1]; simp

theorem ack_test (sw : BitVec 16) : (sw &&& 0x1000 = 0) ↔ acknowledged sw = false := bit_test sw 12 (by omega)

theorem point_test (cw : BitVec 16) : ((cw ||| 0x20) &&& 0x10 ≠ 0) ↔ newSetPoint cw = true := by
  have h := bit_test (cw ||| 0x20) 4 (by omega)
  have e : (cw ||| 0x20).getLsbD 4 = cw.getLsbD 4 := by
    rw [BitVec.getLsbD_or, show (0x20 : BitVec 16).getLsbD 4 = false by decide, Bool.or_false]
  rw [e] at h
  unfold newSetPoint
  rw [Ne, show ((cw ||| 0x20) &&& 0x10 = 0 ↔ cw.getLsbD 4 = false) from h]
  simp

theorem point_kept (cw : BitVec 16) : newSetPoint ([AccOp.set 5].foldl AccOp.apply cw) = newSetPoint cw := by
  show (cw ||| (opMask &&& (1#16 <<< 5))).getLsbD 4 = _
  rw [BitVec.getLsbD_or, show (opMask &&& (1#16 <<< 5)).getLsbD 4 = false by decide, Bool.or_false]; rfl

theorem point_raised (cw : BitVec 16) : newSetPoint ([AccOp.set 5, .set 4].foldl AccOp.apply cw) = true := by
  show ((cw ||| (opMask &&& (1#16 <<< 5))) ||| (opMask &&& (1#16 <<< 4))).getLsbD 4 = true
  rw [BitVec.getLsbD_or, show (opMask &&& (1#16 <<< 4)).getLsbD 4 = true by decide, Bool.or_true]

theorem point_lowered (cw : BitVec 16) : newSetPoint ([AccOp.set 5, .reset 4].foldl AccOp.apply cw) = false := by
  show ((cw ||| (opMask &&& (1#16 <<< 5))) &&& ~~~ (opMask &&& (1#16 <<< 4))).getLsbD 4 = false
  rw [BitVec.getLsbD_and, show (~~~ (opMask &&& (1#16 <<< 4))).getLsbD 4 = false by decide, Bool.and_false]

/-- one write cycle of the profiled position mode -/
theorem pwrite_cases (p : ProfPos) (cw : BitVec 16) :
    (p.t.has = true ∧ acknowledged p.sw = false ∧ p.last ≠ some p.t.target ∧ newSetPoint cw = true ∧
      newSetPoint ((p.write cw).2.1.foldl AccOp.apply cw) = false ∧ (p.write cw).2.2.2 = none) ∨
    (p.t.has = true ∧ acknowledged p.sw = false ∧ p.last ≠ some p.t.target ∧ newSetPoint cw = false ∧
      newSetPoint ((p.write cw).2.1.foldl AccOp.apply cw) = true ∧ (p.write cw).2.2.2 = some p.t.target) ∨
    (p.t.has = true ∧ acknowledged p.sw = true ∧
      newSetPoint ((p.write cw).2.1.foldl AccOp.apply cw) = false ∧ (p.write cw).2.2.2 = none) ∨
    (p.t.has = true ∧ acknowledged p.sw = false ∧ p.last = some p.t.target ∧
      newSetPoint ((p.write cw).2.1.foldl AccOp.apply cw) = newSetPoint cw ∧ (p.write cw).2.2.2 = none) ∨
    (p.t.has = false ∧ newSetPoint ((p.write cw).2.1.foldl AccOp.apply cw) = newSetPoint cw ∧ (p.write cw).2.2.2 = none) := by
  unfold ProfPos.write
  by_cases hh : p.t.has = true
  · rw [if_pos hh]
    by_cases ha : p.sw &&& 0x1000 = 0
    · have ha' := (ack_test _).1 ha
      by_cases hl : p.last = some p.t.target
      · rw [if_neg (fun h => h.2 hl), if_neg (fun h => h ha)]
        exact Or.inr (Or.inr (Or.inr (Or.inl ⟨hh, ha', hl, point_kept cw, rfl⟩)))
      · rw [if_pos ⟨ha, hl⟩]
        by_cases hc : (cw ||| 0x20) &&& 0x10 ≠ 0
        · rw [if_pos hc]
          exact Or.inl ⟨hh, ha', hl, (point_test cw).1 hc, point_lowered cw, rfl⟩
        · rw [if_neg hc]
          refine Or.inr (Or.inl ⟨hh, ha', hl, ?_, point_raised cw, rfl⟩)
          cases hn : newSetPoint cw
          · rfl
          · exact absurd ((point_test cw).2 hn) hc
    · rw [if_neg (fun h => ha h.1), if_pos ha]
      refine Or.inr (Or.inr (Or.inl ⟨hh, ?_, point_lowered cw, rfl⟩))
      cases hn : acknowledged p.sw
      · exact absurd ((ack_test _).2 hn) ha
      · rfl
  · rw [if_neg hh]
    exact Or.inr (Or.inr (Or.inr (Or.inr ⟨by simpa using hh, point_kept cw, rfl⟩)))

/-! ## Histories of a motor -/

theorem run_append (es fs : List Ev) : ∀ m : Motor,
    (m.run (es ++ fs)).1 = ((m.run es).1.run fs).1 ∧ (m.run (es ++ fs)).2 = (m.run es).2 ++ ((m.run es).1.run fs).2 := by
  induction es with
  | nil => intro m; exact ⟨rfl, by simp [Motor.run]⟩
  | cons e es ih =>
    intro m
    simp only [List.cons_append, Motor.run]
    refine ⟨(ih _).1, ?_⟩
    rw [(ih _).2, List.append_assoc]

theorem run_snoc (m : Motor) (es : List Ev) (e : Ev) : (m.run (es ++ [e])).1 = ((m.run es).1.step e).1 := (run_append es [e] m).1

theorem run_snoc_out (m : Motor) (es : List Ev) (e : Ev) : (m.run (es ++ [e])).2 = (m.run es).2 ++ ((m.run es).1.step e).2 := by
  rw [(run_append es [e] m).2]; simp [Motor.run]

theorem quiet_snoc {m0 : Motor} {a b : List Ev} {k : Nat} {e : Ev} (h : Quiet m0 a b k) (he : LeavesAlone (m0.run (a ++ b)).1 k e) :
    Quiet m0 a (b ++ [e]) k := by
  intro b1 x b2 hb
  rcases snoc_split hb with ⟨h1, h2, h3⟩ | ⟨b', h1, h2⟩
  · subst h2; subst h3; exact he
  · exact h b1 x b' h2

theorem quiet_nil (m0 : Motor) (a : List Ev) (k : Nat) : Quiet m0 a [] k := by
  intro b1 x b2 hb
  cases b1 <;> simp at hb

theorem given_snoc {m0 : Motor} {es : List Ev} {k : Nat} {v : Dbl} {e : Ev} (h : Given m0 es k v) (he : LeavesAlone (m0.run es).1 k e) :
    Given m0 (es ++ [e]) k v := by
  obtain ⟨a, b, h1, h2, h3, h4⟩ := h
  refine ⟨a, b ++ [e], by rw [h1]; simp, h2, h3, quiet_snoc h4 ?_⟩
  have : a ++ [Ev.setTarget v] ++ b = es := by rw [h1]; simp
  rw [this]; exact he

theorem given_now {m0 : Motor} {es : List Ev} {k : Nat} {v : Dbl} (h1 : (m0.run es).1.selected = some k)
    (h2 : ((m0.run es).1.step (.setTarget v)).2 = [.accepted true]) : Given m0 (es ++ [.setTarget v]) k v :=
  ⟨es, [], rfl, h1, h2, quiet_nil _ _ _⟩

theorem homing_snoc {m0 : Motor} {es : List Ev} {k : Nat} {e : Ev} (h : HomingStarted m0 es k) (he : LeavesAlone (m0.run es).1 k e)
    (hx : e ≠ .execute false) : HomingStarted m0 (es ++ [e]) k := by
  obtain ⟨a, b, h1, h2, h3⟩ := h
  refine ⟨a, b ++ [e], by rw [h1]; simp, quiet_snoc h2 ?_, ?_⟩
  · have : a ++ [Ev.execute true] ++ b = es := by rw [h1]; simp
    rw [this]; exact he
  · intro hm
    rcases List.mem_append.1 hm with hm | hm
    · exact h3 hm
    · exact hx (List.mem_singleton.1 hm).symm

/-- what a handler is about to do -/
def goal : Mode → Sum Target Bool
  | .forward _ _ _ t => .inl t
  | .profPos p => .inl p.t
  | .homing h => .inr h.execute

theorem goal_read (h : Mode) (sw : BitVec 16) : goal (h.read sw).1 = goal h := by cases h <;> rfl

theorem goal_write (h : Mode) (cw : BitVec 16) : goal (h.write cw).1 = goal h := by
  cases h with
  | forward o s k t => unfold Mode.write; dsimp only; split <;> rfl
  | profPos p => simp only [Mode.write, goal]; rw [(pwrite_last p cw).1]
  | homing h => rfl

/-- a handler that does not do anything -/
def Still : Sum Target Bool → Prop
  | .inl t => t.has = false
  | .inr b => b = false

theorem goal_start (h : Mode) : Still (goal h.start) := by cases h <;> rfl

/-- the ranges of the targets -/
def GoalOk : Sum Target Bool → Prop
  | .inl t => t.Ok
  | .inr _ => True

theorem goalOk_start (h : Mode) (hg : GoalOk (goal h)) : GoalOk (goal h.start) := by
  cases h with
  | forward o s k t => exact ⟨hg.lo, hg.hi⟩
  | profPos p => exact ⟨hg.lo, hg.hi⟩
  | homing h => trivial

/-- what is known about a handler's intentions -/
def Claim (m0 : Motor) (es : List Ev) (k : Nat) : Sum Target Bool → Prop
  | .inl t => t.has = true → ∃ v, Given m0 es k v ∧ Stored t.lo t.hi v t.target
  | .inr b => b = true → k = 6 ∧ HomingStarted m0 es k

theorem claim_still {m0 : Motor} {es : List Ev} {k : Nat} {g : Sum Target Bool} (h : Still g) : Claim m0 es k g := by
  cases g with
  | inl t => intro ht; rw [show t.has = false from h] at ht; simp at ht
  | inr b => intro ht; rw [show b = false from h] at ht; simp at ht

theorem claim_snoc {m0 : Motor} {es : List Ev} {k : Nat} {g : Sum Target Bool} {e : Ev} (h : Claim m0 es k g)
    (he : LeavesAlone (m0.run es).1 k e) (hx : e ≠ .execute false ∨ k ≠ 6 ∨ ∃ t, g = .inl t) : Claim m0 (es ++ [e]) k g := by
  cases g with
  | inl t =>
    intro ht
    obtain ⟨v, hv, hs⟩ := h ht
    exact ⟨v, given_snoc hv he, hs⟩
  | inr b =>
    intro ht
    obtain ⟨h6, hh⟩ := h ht
    refine ⟨h6, homing_snoc hh he ?_⟩
    rcases hx with hx | hx | ⟨t, hx⟩
    · exact hx
    · exact absurd h6 hx
    · simp at hx

/-- the mode the thread in `switchMode` is about to enter -/
def Phase.mode : Phase → Option Nat
  | .idle => none
  | .toSwitching m => some m
  | .waitMode m => some m
  | .toEnabled m _ => some m

/-- the mode is selected or about to be -/
def Live (m : Motor) (k : Nat) : Prop := m.selected = some k ∨ m.phase.mode = some k

/-- the selection of a mode in the history -/
def WasSelected (m0 : Motor) (es : List Ev) (k : Nat) : Prop :=
  ∃ a t b, es = a ++ .modeDone t :: b ∧ (m0.run a).1.phase = .waitMode k ∧ (m0.run a).1.modeId = k

theorem wasSelected_snoc {m0 : Motor} {es : List Ev} {k : Nat} {e : Ev} (h : WasSelected m0 es k) : WasSelected m0 (es ++ [e]) k := by
  obtain ⟨a, t, b, h1, h2, h3⟩ := h
  exact ⟨a, t, b ++ [e], by rw [h1]; simp, h2, h3⟩

/-- the invariant of the histories of a fresh motor -/
structure MInv (m0 : Motor) (es : List Ev) (m : Motor) : Prop where
  drives : m.drives = m0.drives
  reg : ∀ k, (m.modes k).isSome = (m0.modes k).isSome
  hs : m.hs = ((lastWord es).map decode).getD .unknown
  disp : m.modeId = (lastDisplay es).getD m0.modeId
  ok : ∀ k h, m.modes k = some h → GoalOk (goal h)
  phase : ∀ j k, m.phase.mode = some j → m.selected = some k → j = k ∧ ∃ o, m.phase = .toEnabled j o
  alloc : ∀ k, Live m k → m.canAlloc k = some true
  claim : ∀ k h, Live m k → m.modes k = some h → Claim m0 es k (goal h)
  sel : ∀ k, m.selected = some k → WasSelected m0 es k

theorem canAlloc_congr {m m' : Motor} (hd : m'.drives = m.drives) (hr : ∀ k, (m'.modes k).isSome = (m.modes k).isSome) (k : Nat) :
    m'.canAlloc k = m.canAlloc k := by
  unfold Motor.canAlloc Motor.deviceSupports
  rw [hd, hr]

theorem canAlloc_pos {m : Motor} {k : Nat} (h : m.canAlloc k = some true) : Supported m.drives k ∧ (m.modes k).isSome = true := by
  unfold Motor.canAlloc Motor.deviceSupports at h
  cases hd : m.drives with
  | none => rw [hd] at h; simp at h
  | some d =>
    rw [hd] at h
    simp only [Option.map_some, Option.some.injEq, Bool.and_eq_true, decide_eq_true_eq] at h
    exact ⟨⟨d, rfl, by omega, by omega, h.1.2⟩, h.2⟩

theorem putMode_some {k : Nat} {h0 h : Mode} {modes : Nat → Option Mode} {j : Nat} (hk : modes k = some h0) :
    (putMode k h modes j).isSome = (modes j).isSome := by
  unfold putMode
  split
  · next e => rw [e, hk]; rfl
  · rfl

/-- events that keep what the handlers are about to do and do not make another mode live -/
theorem minv_keep {m0 : Motor} {es : List Ev} {m m' : Motor} {e : Ev} (h : MInv m0 es m) (hm : m = (m0.run es).1)
    (hd : m'.drives = m.drives) (hg : ∀ k, (m'.modes k).map goal = (m.modes k).map goal)
    (hhs : m'.hs = ((lastWord (es ++ [e])).map decode).getD .unknown) (hdp : m'.modeId = (lastDisplay (es ++ [e])).getD m0.modeId)
    (hp : ∀ j k, m'.phase.mode = some j → m'.selected = some k → j = k ∧ ∃ o, m'.phase = .toEnabled j o)
    (hl : ∀ k, Live m' k → Live m k) (hla : ∀ k, Live m' k → LeavesAlone m k e) (hx : e ≠ .execute false)
    (hs : ∀ k, m'.selected = some k → WasSelected m0 (es ++ [e]) k) : MInv m0 (es ++ [e]) m' := by
  have hreg : ∀ k, (m'.modes k).isSome = (m.modes k).isSome := by
    intro k
    have := congrArg Option.isSome (hg k)
    simpa using this
  have hget : ∀ k h', m'.modes k = some h' → ∃ h0, m.modes k = some h0 ∧ goal h0 = goal h' := by
    intro k h' hk
    have := hg k
    rw [hk] at this
    cases hm0 : m.modes k with
    | none => rw [hm0] at this; simp at this
    | some h0 => rw [hm0] at this; simp at this; exact ⟨h0, rfl, this.symm⟩
  refine ⟨by rw [hd, h.drives], fun k => by rw [hreg, h.reg], hhs, hdp, ?_, hp, ?_, ?_, hs⟩
  · intro k h' hk
    obtain ⟨h0, h1, h2⟩ := hget k h' hk
    rw [← h2]; exact h.ok k h0 h1
  · intro k hk
    rw [canAlloc_congr hd hreg]; exact h.alloc k (hl k hk)
  · intro k h' hk hh
    obtain ⟨h0, h1, h2⟩ := hget k h' hh
    rw [← h2]
    exact claim_snoc (h.claim k h0 (hl k hk) h1) (by rw [← hm]; exact hla k hk) (Or.inl hx)

theorem lastWord_snoc (es : List Ev) (e : Ev) :
    lastWord (es ++ [e]) = (match e with | .read sw _ => some sw | _ => lastWord es) := by
  unfold lastWord
  rw [List.foldl_append]
  cases e <;> rfl

theorem lastDisplay_snoc (es : List Ev) (e : Ev) :
    lastDisplay (es ++ [e]) = (match e with | .read _ d => some (d.signExtend 16).toNat | _ => lastDisplay es) := by
  unfold lastDisplay
  rw [List.foldl_append]
  cases e <;> rfl

theorem map_goal_put {k : Nat} {h0 h : Mode} {modes : Nat → Option Mode} (hk : modes k = some h0) (hg : goal h = goal h0) (j : Nat) :
    (putMode k h modes j).map goal = (modes j).map goal := by
  unfold putMode
  split
  · next e => rw [e, hk]; simp [hg]
  · rfl

theorem active_some {m : Motor} {k : Nat} {h : Mode} (ha : m.active k = some h) : m.selected = some k ∧ m.modes k = some h := by
  unfold Motor.active at ha
  split at ha
  · next e => exact ⟨e, ha⟩
  · simp at ha

theorem writeMode_goal (m : Motor) (cw : BitVec 16) (j : Nat) : ((m.writeMode cw).2.1 j).map goal = (m.modes j).map goal := by
  unfold Motor.writeMode
  split
  · next h ha => exact map_goal_put (active_some ha).2 (goal_write h cw) j
  · rfl

/-- restarting the handler of a mode that stays or becomes live -/
theorem minv_start {m0 : Motor} {es : List Ev} {m m' : Motor} {e : Ev} (h : MInv m0 es m) (hm : m = (m0.run es).1) (j : Nat)
    (hd : m'.drives = m.drives) (hmo : m'.modes = startMode j m.modes) (hj : m.canAlloc j = some true)
    (hhs : m'.hs = m.hs) (hdp : m'.modeId = m.modeId) (hr : ∀ sw d, e ≠ .read sw d)
    (hp : ∀ j k, m'.phase.mode = some j → m'.selected = some k → j = k ∧ ∃ o, m'.phase = .toEnabled j o)
    (hl : ∀ k, Live m' k → k ≠ j → Live m k ∧ LeavesAlone m k e) (hx : e ≠ .execute false)
    (hs : ∀ k, m'.selected = some k → m.selected = some k) : MInv m0 (es ++ [e]) m' := by
  have hreg : ∀ k, (m'.modes k).isSome = (m.modes k).isSome := by
    intro k
    rw [hmo]; unfold startMode; split <;> simp
  have hw : lastWord (es ++ [e]) = lastWord es := by
    rw [lastWord_snoc]; cases e <;> first | rfl | exact absurd rfl (hr _ _)
  have hdi : lastDisplay (es ++ [e]) = lastDisplay es := by
    rw [lastDisplay_snoc]; cases e <;> first | rfl | exact absurd rfl (hr _ _)
  refine ⟨by rw [hd, h.drives], fun k => by rw [hreg, h.reg], by rw [hhs, h.hs, hw], by rw [hdp, h.disp, hdi], ?_, hp, ?_, ?_, ?_⟩
  · intro k h' hk
    rw [hmo] at hk
    unfold startMode at hk
    split at hk
    · cases hm0 : m.modes k with
      | none => rw [hm0] at hk; simp at hk
      | some h0 => rw [hm0] at hk; simp at hk; rw [← hk]; exact goalOk_start _ (h.ok k h0 hm0)
    · exact h.ok k h' hk
  · intro k hk
    rw [canAlloc_congr hd hreg]
    by_cases hkj : k = j
    · rw [hkj]; exact hj
    · exact h.alloc k (hl k hk hkj).1
  · intro k h' hk hh
    rw [hmo] at hh
    unfold startMode at hh
    split at hh
    · cases hm0 : m.modes k with
      | none => rw [hm0] at hh; simp at hh
      | some h0 => rw [hm0] at hh; simp at hh; rw [← hh]; exact claim_still (goal_start _)
    · next hkj =>
      obtain ⟨h1, h2⟩ := hl k hk hkj
      exact claim_snoc (h.claim k h' h1 hh) (by rw [← hm]; exact h2) (Or.inl hx)
  · intro k hk
    exact wasSelected_snoc (h.sel k (hs k hk))

theorem goal_setTarget (h : Mode) (v : Dbl) :
    (∃ t, goal h = .inl t ∧ goal (h.setTarget v).1 = .inl (t.set v).1 ∧ (h.setTarget v).2 = (t.set v).2) ∨
    (goal (h.setTarget v).1 = goal h ∧ (h.setTarget v).2 = false ∧ ∃ b, goal h = .inr b) := by
  cases h with
  | forward o s k t => exact Or.inl ⟨t, rfl, rfl, rfl⟩
  | profPos p => exact Or.inl ⟨p.t, rfl, rfl, rfl⟩
  | homing h => exact Or.inr ⟨rfl, rfl, _, rfl⟩

theorem minv_step {m0 : Motor} {es : List Ev} {m : Motor} (h : MInv m0 es m) (hm : m = (m0.run es).1) (e : Ev) :
    MInv m0 (es ++ [e]) (m.step e).1 := by
  cases e with
  | read sw disp =>
    refine minv_keep h hm rfl ?_ ?_ ?_ h.phase (fun k hk => hk) (fun k hk => trivial) (by simp) (fun k hk => wasSelected_snoc (h.sel k hk))
    · intro k
      simp only [Motor.step, Motor.readState]
      cases ha : m.active (BitVec.signExtend 16 disp).toNat with
      | some h0 => exact map_goal_put (active_some ha).2 (goal_read h0 sw) k
      | none => rfl
    · rw [lastWord_snoc]; rfl
    · rw [lastDisplay_snoc]; rfl
  | write =>
    refine minv_keep h hm rfl ?_ ?_ ?_ h.phase (fun k hk => hk) (fun k hk => trivial) (by simp) (fun k hk => wasSelected_snoc (h.sel k hk))
    · intro k
      simp only [Motor.step, Motor.handleWrite]
      split
      · exact writeMode_goal _ _ _
      · rfl
    · rw [lastWord_snoc]; exact h.hs
    · rw [lastDisplay_snoc]; exact h.disp
  | command a b =>
    exact minv_keep h hm rfl (fun k => rfl) (by rw [lastWord_snoc]; exact h.hs) (by rw [lastDisplay_snoc]; exact h.disp) h.phase
      (fun k hk => hk) (fun k hk => trivial) (by simp) (fun k hk => wasSelected_snoc (h.sel k hk))
  | init =>
    exact minv_keep h hm rfl (fun k => rfl) (by rw [lastWord_snoc]; exact h.hs) (by rw [lastDisplay_snoc]; exact h.disp) h.phase
      (fun k hk => hk) (fun k hk => trivial) (by simp) (fun k hk => wasSelected_snoc (h.sel k hk))
  | halt =>
    have e1 : (m.step .halt).1.drives = m.drives ∧ (m.step .halt).1.modes = m.modes ∧ (m.step .halt).1.hs = m.hs ∧
        (m.step .halt).1.modeId = m.modeId ∧ (m.step .halt).1.phase = m.phase ∧ (m.step .halt).1.selected = m.selected := by
      simp only [Motor.step, Motor.handleHalt]
      split
      · exact ⟨rfl, rfl, rfl, rfl, rfl, rfl⟩
      · split <;> exact ⟨rfl, rfl, rfl, rfl, rfl, rfl⟩
    obtain ⟨e1, e2, e3, e4, e5, e6⟩ := e1
    refine minv_keep h hm e1 (fun k => by rw [e2]) (by rw [lastWord_snoc, e3]; exact h.hs) (by rw [lastDisplay_snoc, e4]; exact h.disp)
      (by rw [e5, e6]; exact h.phase) ?_ (fun k hk => trivial) (by simp) (by rw [e6]; exact fun k hk => wasSelected_snoc (h.sel k hk))
    intro k hk
    unfold Live at hk ⊢
    rwa [e5, e6] at hk
  | stateDone ok =>
    have e1 : (m.step (.stateDone ok)).1.drives = m.drives ∧ (m.step (.stateDone ok)).1.modes = m.modes ∧ (m.step (.stateDone ok)).1.hs = m.hs ∧
        (m.step (.stateDone ok)).1.modeId = m.modeId ∧ (m.step (.stateDone ok)).1.selected = m.selected ∧
        ((m.step (.stateDone ok)).1.phase = m.phase ∨ (m.step (.stateDone ok)).1.phase = .idle ∨
          ∃ k, m.phase = .toSwitching k ∧ (m.step (.stateDone ok)).1.phase = .waitMode k) := by
      simp only [Motor.step, Motor.stateDone]
      split
      · next k hk =>
        split
        · exact ⟨rfl, rfl, rfl, rfl, rfl, Or.inr (Or.inr ⟨k, hk, rfl⟩)⟩
        · exact ⟨rfl, rfl, rfl, rfl, rfl, Or.inr (Or.inl rfl)⟩
      · exact ⟨rfl, rfl, rfl, rfl, rfl, Or.inr (Or.inl rfl)⟩
      · exact ⟨rfl, rfl, rfl, rfl, rfl, Or.inl rfl⟩
    obtain ⟨e1, e2, e3, e4, e6, e5⟩ := e1
    refine minv_keep h hm e1 (fun k => by rw [e2]) (by rw [lastWord_snoc, e3]; exact h.hs) (by rw [lastDisplay_snoc, e4]; exact h.disp)
      ?_ ?_ (fun k hk => trivial) (by simp) (by rw [e6]; exact fun k hk => wasSelected_snoc (h.sel k hk))
    · intro j k hj hk
      rw [e6] at hk
      rcases e5 with e5 | e5 | ⟨i, e7, e5⟩
      · rw [e5] at hj ⊢; exact h.phase j k hj hk
      · rw [e5] at hj; simp [Phase.mode] at hj
      · rw [e5] at hj
        have : m.phase.mode = some i := by rw [e7]; rfl
        obtain ⟨_, o, ho⟩ := h.phase i k this hk
        rw [e7] at ho; simp at ho
    · intro k hk
      unfold Live at hk ⊢
      rw [e6] at hk
      rcases hk with hk | hk
      · exact Or.inl hk
      · rcases e5 with e5 | e5 | ⟨i, e7, e5⟩
        · rw [e5] at hk; exact Or.inr hk
        · rw [e5] at hk; simp [Phase.mode] at hk
        · rw [e5] at hk; rw [e7]; exact Or.inr hk
  | exception =>
    have e1 : (m.step .exception).1.drives = m.drives ∧ (m.step .exception).1.modes = m.modes ∧ (m.step .exception).1.hs = m.hs ∧
        (m.step .exception).1.modeId = m.modeId ∧ (m.step .exception).1.selected = m.selected ∧ (m.step .exception).1.phase = .idle := by
      simp only [Motor.step]
      split
      · next hi => exact ⟨rfl, rfl, rfl, rfl, rfl, hi⟩
      · exact ⟨rfl, rfl, rfl, rfl, rfl, rfl⟩
    obtain ⟨e1, e2, e3, e4, e6, e5⟩ := e1
    refine minv_keep h hm e1 (fun k => by rw [e2]) (by rw [lastWord_snoc, e3]; exact h.hs) (by rw [lastDisplay_snoc, e4]; exact h.disp)
      ?_ ?_ (fun k hk => trivial) (by simp) (by rw [e6]; exact fun k hk => wasSelected_snoc (h.sel k hk))
    · intro j k hj hk
      rw [e5] at hj; simp [Phase.mode] at hj
    · intro k hk
      unfold Live at hk ⊢
      rw [e6, e5] at hk
      rcases hk with hk | hk
      · exact Or.inl hk
      · simp [Phase.mode] at hk
  | modeDone t =>
    have hdef : (m.step (.modeDone t)).1 = (m.modeDone t).1 := rfl
    rw [hdef]
    unfold Motor.modeDone
    split
    · next k hk =>
      split
      · next hid =>
        refine minv_keep h hm rfl (fun k => rfl) (by rw [lastWord_snoc]; exact h.hs) (by rw [lastDisplay_snoc]; exact h.disp)
          ?_ ?_ (fun k hk => trivial) (by simp) ?_
        · intro i j hi hj
          simp [Phase.mode] at hi hj
          exact ⟨by omega, true, by rw [hi]⟩
        · intro j hj
          unfold Live at hj ⊢
          right
          rw [hk]
          rcases hj with hj | hj <;> exact hj
        · intro j hj
          dsimp only at hj
          injection hj with hj
          subst hj
          exact ⟨es, t, [], rfl, by rw [← hm]; exact hk, by rw [← hm]; exact hid⟩
      · have hnone : m.selected = none := by
          cases hs : m.selected with
          | none => rfl
          | some i =>
            obtain ⟨_, o, ho⟩ := h.phase k i (by rw [hk]; rfl) hs
            rw [hk] at ho; simp at ho
        split
        · refine minv_keep h hm rfl (fun k => rfl) (by rw [lastWord_snoc]; exact h.hs) (by rw [lastDisplay_snoc]; exact h.disp)
            ?_ ?_ (fun k hk => trivial) (by simp) (fun k hk => wasSelected_snoc (h.sel k hk))
          · intro i j hi hj
            dsimp only at hj
            rw [hnone] at hj; simp at hj
          · intro j hj
            unfold Live at hj ⊢
            rcases hj with hj | hj
            · exact Or.inl hj
            · right; rw [hk]; exact hj
        · exact minv_keep h hm rfl (fun k => rfl) (by rw [lastWord_snoc]; exact h.hs) (by rw [lastDisplay_snoc]; exact h.disp)
            h.phase (fun k hk => hk) (fun k hk => trivial) (by simp) (fun k hk => wasSelected_snoc (h.sel k hk))
    · exact minv_keep h hm rfl (fun k => rfl) (by rw [lastWord_snoc]; exact h.hs) (by rw [lastDisplay_snoc]; exact h.disp)
        h.phase (fun k hk => hk) (fun k hk => trivial) (by simp) (fun k hk => wasSelected_snoc (h.sel k hk))
  | recover =>
    have hdef : (m.step .recover).1 = m.handleRecover := rfl
    rw [hdef]
    unfold Motor.handleRecover
    split
    · next j hj =>
      refine minv_start h hm j rfl rfl (h.alloc j (Or.inl hj)) rfl rfl (by simp) h.phase ?_ (by simp) (fun k hk => hk)
      intro k hk hkj
      refine ⟨hk, ?_⟩
      intro hsel
      rw [hj] at hsel
      injection hsel with hsel
      exact hkj hsel.symm
    · next hnone =>
      refine minv_keep h hm rfl (fun k => rfl) (by rw [lastWord_snoc]; exact h.hs) (by rw [lastDisplay_snoc]; exact h.disp)
        h.phase (fun k hk => hk) ?_ (by simp) (fun k hk => wasSelected_snoc (h.sel k hk))
      intro k hk hsel
      rw [hnone] at hsel; simp at hsel
  | execute x =>
    have hreg : ∀ k, (setExecute x m.modes k).isSome = (m.modes k).isSome := by
      intro k
      unfold setExecute
      split
      · split
        · next h1 => rw [h1]; rfl
        · rfl
      · rfl
    have hg : ∀ k h', setExecute x m.modes k = some h' → m.modes k = some h' ∧ (x = false → k ≠ 6 ∨ ∃ t, goal h' = .inl t) ∨
        (k = 6 ∧ goal h' = .inr x) := by
      intro k h' hk
      unfold setExecute at hk
      split at hk
      · next h6 =>
        split at hk
        · injection hk with hk; right; exact ⟨h6, by rw [← hk]; rfl⟩
        · next o hne =>
          left
          refine ⟨hk, fun _ => Or.inr ?_⟩
          cases h' with
          | forward o s k t => exact ⟨_, rfl⟩
          | profPos p => exact ⟨_, rfl⟩
          | homing hh => exact absurd hk (hne hh)
      · next h6 => left; exact ⟨hk, fun _ => Or.inl h6⟩
    refine ⟨h.drives, fun k => by rw [← h.reg]; exact hreg k, by rw [lastWord_snoc]; exact h.hs, by rw [lastDisplay_snoc]; exact h.disp, ?_, h.phase,
      ?_, ?_, fun k hk => wasSelected_snoc (h.sel k hk)⟩
    · intro k h' hk
      rcases hg k h' hk with ⟨h1, _⟩ | ⟨_, h1⟩
      · exact h.ok k h' h1
      · rw [h1]; trivial
    · intro k hk
      rw [← h.alloc k hk]
      exact canAlloc_congr (m := m) (m' := (m.step (.execute x)).1) rfl hreg k
    · intro k h' hk hh
      rcases hg k h' hh with ⟨h1, h2⟩ | ⟨h6, h1⟩
      · refine claim_snoc (h.claim k h' hk h1) trivial ?_
        cases x
        · exact Or.inr (h2 rfl)
        · left; simp
      · rw [h1]
        intro hx
        refine ⟨h6, es, [], ?_, quiet_nil _ _ _, by simp⟩
        rw [show x = true from hx]
  | setTarget v =>
    have hdef : (m.step (.setTarget v)).1 = (m.setTarget v).1 := rfl
    have hout : (m.step (.setTarget v)).2 = [.accepted (m.setTarget v).2] := rfl
    have hsame : m.setTarget v = (m, false) → MInv m0 (es ++ [.setTarget v]) (m.step (.setTarget v)).1 := by
      intro hst
      rw [hdef, hst]
      refine minv_keep h hm rfl (fun k => rfl) (by rw [lastWord_snoc]; exact h.hs) (by rw [lastDisplay_snoc]; exact h.disp)
        h.phase (fun k hk => hk) ?_ (by simp) (fun k hk => wasSelected_snoc (h.sel k hk))
      intro k hk hsel
      rw [hout, hst]
    by_cases hen : m.hs = .enabled
    · cases hsel : m.selected with
      | none => exact hsame (by unfold Motor.setTarget; rw [if_pos hen, hsel])
      | some j =>
        cases hmj : m.modes j with
        | none => exact hsame (by unfold Motor.setTarget; rw [if_pos hen, hsel]; dsimp only; rw [hmj])
        | some hd =>
          have hst : m.setTarget v = ({ m with modes := putMode j (hd.setTarget v).1 m.modes }, (hd.setTarget v).2) := by
            unfold Motor.setTarget; rw [if_pos hen, hsel]; dsimp only; rw [hmj]
          rw [hdef, hst]
          have hreg : ∀ k, (putMode j (hd.setTarget v).1 m.modes k).isSome = (m.modes k).isSome := fun k => putMode_some hmj
          have hgoalok : GoalOk (goal (hd.setTarget v).1) := by
            rcases goal_setTarget hd v with ⟨t, h1, h2, h3⟩ | ⟨h1, h2, b, h3⟩
            · rw [h2]
              have := h.ok j hd hmj
              rw [h1] at this
              exact target_set_ok t this v
            · rw [h1]; exact h.ok j hd hmj
          refine ⟨h.drives, fun k => by rw [← h.reg]; exact hreg k, by rw [lastWord_snoc]; exact h.hs,
            by rw [lastDisplay_snoc]; exact h.disp, ?_, h.phase, ?_, ?_, fun k hk => wasSelected_snoc (h.sel k hk)⟩
          · intro k h' hk
            simp only [putMode] at hk
            split at hk
            · injection hk with hk; rw [← hk]; exact hgoalok
            · exact h.ok k h' hk
          · intro k hk
            rw [← h.alloc k hk]
            exact canAlloc_congr (m := m) (m' := { m with modes := putMode j (hd.setTarget v).1 m.modes }) rfl hreg k
          · intro k h' hk hh
            simp only [putMode] at hh
            split at hh
            · next hkj =>
              subst hkj
              injection hh with hh
              rw [← hh]
              have hc := h.claim k hd hk hmj
              rcases goal_setTarget hd v with ⟨t, h1, h2, h3⟩ | ⟨h1, h2, b, h3⟩
              · rw [h2]
                rw [h1] at hc
                by_cases hv : v = .nan
                · subst hv
                  rw [target_nan]
                  refine claim_snoc hc ?_ (Or.inl (by simp))
                  intro _
                  rw [← hm, hout, hst, h3]; rfl
                · have hok := h.ok k hd hmj
                  rw [h1] at hok
                  have ht := target_set t hok v hv
                  intro _
                  refine ⟨v, given_now (by rw [← hm]; exact hsel) (by rw [← hm, hout, hst, h3, ht.1]), ?_⟩
                  rw [ht.2.2.2.1, ht.2.2.2.2]; exact ht.2.2.1
              · rw [h1]
                refine claim_snoc hc ?_ (Or.inl (by simp))
                intro _
                rw [← hm, hout, hst, h2]
            · next hkj =>
              refine claim_snoc (h.claim k h' hk hh) ?_ (Or.inl (by simp))
              intro hs'
              rw [← hm, hsel] at hs'
              injection hs' with hs'
              exact absurd hs'.symm hkj
    · exact hsame (by unfold Motor.setTarget; rw [if_neg hen])
  | request j =>
    simp only [Motor.step]
    by_cases hj : j = 0
    · rw [if_pos hj]
      refine minv_keep h hm rfl (fun k => rfl) (by rw [lastWord_snoc]; exact h.hs) (by rw [lastDisplay_snoc]; exact h.disp)
        ?_ ?_ ?_ (by simp) ?_
      · intro i k hi hk; simp at hk
      · intro k hk
        rcases hk with hk | hk
        · simp at hk
        · exact Or.inr hk
      · intro k hk _
        rcases hk with hk | hk
        · simp at hk
        · obtain ⟨⟨_, _, h1, _⟩, _⟩ := canAlloc_pos (h.alloc k (Or.inr hk))
          omega
      · intro k hk; simp at hk
    · rw [if_neg hj]
      by_cases hi : m.phase = .idle
      · rw [if_pos hi]
        unfold Motor.beginSwitch
        have hkeep : m.canAlloc j ≠ some true → MInv m0 (es ++ [.request j]) m := by
          intro hc
          refine minv_keep h hm rfl (fun k => rfl) (by rw [lastWord_snoc]; exact h.hs) (by rw [lastDisplay_snoc]; exact h.disp)
            h.phase (fun k hk => hk) ?_ (by simp) (fun k hk => wasSelected_snoc (h.sel k hk))
          intro k hk _ hjk
          exact hc (by rw [hjk]; exact h.alloc k hk)
        cases hc : m.canAlloc j with
        | none => exact hkeep (by rw [hc]; simp)
        | some b =>
          cases b with
          | false => exact hkeep (by rw [hc]; simp)
          | true =>
            dsimp only
            split
            · next hcond =>
              refine minv_start h hm j rfl rfl hc rfl rfl (by simp) h.phase ?_ (by simp) (fun k hk => hk)
              intro k hk hkj
              exfalso
              rcases hk with hk | hk
              · dsimp only at hk; rw [hcond.2] at hk; injection hk with hk; exact hkj hk.symm
              · dsimp only at hk; rw [hi] at hk; simp [Phase.mode] at hk
            · refine minv_start h hm j rfl rfl hc rfl rfl (by simp) ?_ ?_ (by simp) (by intro k hk; simp at hk)
              · intro i k _ hk; simp at hk
              · intro k hk hkj
                exfalso
                rcases hk with hk | hk
                · simp at hk
                · simp [Phase.mode] at hk; exact hkj hk.symm
      · rw [if_neg hi]
        refine minv_keep h hm rfl (fun k => rfl) (by rw [lastWord_snoc]; exact h.hs) (by rw [lastDisplay_snoc]; exact h.disp)
          h.phase (fun k hk => hk) ?_ (by simp) (fun k hk => wasSelected_snoc (h.sel k hk))
        intro k hk hidle
        exact absurd hidle hi

theorem minv_run {m0 : Motor} (hf : Fresh m0) (es : List Ev) : MInv m0 es (m0.run es).1 := by
  refine snoc_induction (fun es => MInv m0 es (m0.run es).1) ?_ ?_ es
  · refine ⟨rfl, fun k => rfl, hf.hs, rfl, ?_, ?_, ?_, ?_, ?_⟩
    · intro k h hk
      cases h with
      | forward o s w t => exact ⟨(hf.ranges k o s w t hk).1, (hf.ranges k o s w t hk).2⟩
      | profPos p => exact ⟨(hf.ranges' k p hk).1, (hf.ranges' k p hk).2⟩
      | homing h => trivial
    · intro j k hj
      have : m0.phase.mode = some j := hj
      rw [hf.phase] at this; simp [Phase.mode] at this
    · intro k hk
      rcases hk with hk | hk
      · have : m0.selected = some k := hk
        rw [hf.selected] at this; simp at this
      · have : m0.phase.mode = some k := hk
        rw [hf.phase] at this; simp [Phase.mode] at this
    · intro k h hk
      rcases hk with hk | hk
      · have : m0.selected = some k := hk
        rw [hf.selected] at this; simp at this
      · have : m0.phase.mode = some k := hk
        rw [hf.phase] at this; simp [Phase.mode] at this
    · intro k hk
      have : m0.selected = some k := hk
      rw [hf.selected] at this; simp at this
  · intro es e ih
    rw [run_snoc]
    exact minv_step ih rfl e

end Verif.M402

namespace Verif.M402
open Verif Verif.Spec.M402

/-! ## The halt bit and what is written -/

theorem write_moves (h : Mode) (cw : BitVec 16) : (h.write cw).2.2.1 = true ↔ ¬ Still (goal h) := by
  cases h with
  | forward o s k t =>
    unfold Mode.write
    dsimp only
    cases ht : t.has <;> simp [goal, Still, ht]
  | profPos p =>
    simp only [Mode.write, goal, Still, ProfPos.write]
    cases ht : p.t.has
    · simp
    · simp only [if_true]
      split
      · split <;> simp
      · split <;> simp
  | homing h =>
    simp only [Mode.write, goal, Still, Homing.write]
    cases h.execute <;> simp

theorem write_target (h : Mode) (cw : BitVec 16) (t : Int) (ht : (h.write cw).2.2.2 = some t) :
    ∃ g, goal h = .inl g ∧ g.has = true ∧ g.target = t := by
  cases h with
  | forward o s k g =>
    unfold Mode.write at ht
    dsimp only at ht
    cases hg : g.has
    · rw [hg] at ht; simp at ht
    · rw [hg] at ht; simp at ht; exact ⟨g, rfl, hg, ht⟩
  | profPos p =>
    simp only [Mode.write, ProfPos.write] at ht
    cases hg : p.t.has
    · rw [hg] at ht; simp at ht
    · rw [hg] at ht
      simp only [if_true] at ht
      refine ⟨p.t, rfl, hg, ?_⟩
      split at ht
      · split at ht
        · simp at ht
        · simpa using ht
      · split at ht <;> simp at ht
  | homing h => simp [Mode.write] at ht

theorem or_halt_bit (w : BitVec 16) : (w ||| 0x100#16).getLsbD 8 = true := by
  rw [BitVec.getLsbD_or, show (0x100#16).getLsbD 8 = true by decide, Bool.or_true]

theorem clear_halt_bit (w : BitVec 16) : (w &&& ~~~ 0x100#16).getLsbD 8 = false := by
  rw [BitVec.getLsbD_and, show (~~~ 0x100#16).getLsbD 8 = false by decide, Bool.and_false]

/-- the halt bit of the word written -/
theorem word_halt (m : Motor) :
    m.handleWrite.2.1.getLsbD 8 = false ↔ m.hs = .enabled ∧ ∃ h, m.active m.modeId = some h ∧ ¬ Still (goal h) := by
  have hb : m.handleWrite.2.1.getLsbD 8 = m.handleWrite.1.cw.getLsbD 8 := by
    rw [handleWrite_word]
    split
    · exact bit_clear_reset _ _ (by decide)
    · rfl
  rw [hb]
  unfold Motor.handleWrite
  dsimp only
  by_cases he : m.hs = .enabled
  · rw [if_pos he]
    unfold Motor.writeMode
    cases ha : m.active m.modeId with
    | none =>
      dsimp only
      rw [acc_bit _ _ _ (by decide), or_halt_bit]
      simp
    | some h =>
      dsimp only
      by_cases hw : (h.write (m.cw ||| 0x100#16)).2.2.1 = true
      · rw [if_pos hw, clear_halt_bit]
        have := (write_moves h _).1 hw
        simp [he, this]
      · rw [if_neg hw, accs_bit _ _ _ (by decide), or_halt_bit]
        have : Still (goal h) := by
          apply Classical.byContradiction
          intro hn
          exact hw ((write_moves h _).2 hn)
        simp [this]
  · rw [if_neg he, or_halt_bit]
    simp [he]

theorem word_target (m : Motor) (t : Int) (h : m.handleWrite.2.2 = some t) :
    m.hs = .enabled ∧ ∃ hd, m.active m.modeId = some hd ∧ ∃ g, goal hd = .inl g ∧ g.has = true ∧ g.target = t := by
  unfold Motor.handleWrite at h
  dsimp only at h
  by_cases he : m.hs = .enabled
  · rw [if_pos he] at h
    unfold Motor.writeMode at h
    cases ha : m.active m.modeId with
    | none => rw [ha] at h; simp at h
    | some hd =>
      rw [ha] at h
      exact ⟨he, hd, rfl, write_target hd _ t h⟩
  · rw [if_neg he] at h; simp at h

/-- after an accepted request no other mode than the requested one gets selected without a further request -/
theorem only_requested (m : Motor) (k : Nat) (b : List Ev) (hb : ∀ j, Ev.request j ∉ b)
    (hm : (∀ j, m.selected = some j → j = k) ∧ (∀ j, m.phase.mode = some j → j = k)) :
    (∀ j, (m.run b).1.selected = some j → j = k) ∧ (∀ j, (m.run b).1.phase.mode = some j → j = k) := by
  induction b generalizing m with
  | nil => exact hm
  | cons e b ih =>
    have hb' : ∀ j, Ev.request j ∉ b := fun j hj => hb j (List.mem_cons_of_mem _ hj)
    show (∀ j, ((m.step e).1.run b).1.selected = some j → j = k) ∧ _
    refine ih (m.step e).1 hb' ?_
    cases e with
    | request j => exact absurd List.mem_cons_self (hb j)
    | read sw d => exact hm
    | write => exact hm
    | command a b => exact hm
    | init => exact hm
    | execute x => exact hm
    | setTarget v =>
      have : (m.setTarget v).1.selected = m.selected ∧ (m.setTarget v).1.phase = m.phase := by
        unfold Motor.setTarget
        split
        · split
          · exact ⟨rfl, rfl⟩
          · split <;> exact ⟨rfl, rfl⟩
        · exact ⟨rfl, rfl⟩
      show (∀ j, (m.setTarget v).1.selected = some j → j = k) ∧ (∀ j, (m.setTarget v).1.phase.mode = some j → j = k)
      rw [this.1, this.2]; exact hm
    | halt =>
      have : m.handleHalt.selected = m.selected ∧ m.handleHalt.phase = m.phase := by
        unfold Motor.handleHalt
        split
        · exact ⟨rfl, rfl⟩
        · split <;> exact ⟨rfl, rfl⟩
      show (∀ j, m.handleHalt.selected = some j → j = k) ∧ (∀ j, m.handleHalt.phase.mode = some j → j = k)
      rw [this.1, this.2]; exact hm
    | recover =>
      have : m.handleRecover.selected = m.selected ∧ m.handleRecover.phase = m.phase := by
        unfold Motor.handleRecover
        split <;> exact ⟨rfl, rfl⟩
      show (∀ j, m.handleRecover.selected = some j → j = k) ∧ (∀ j, m.handleRecover.phase.mode = some j → j = k)
      rw [this.1, this.2]; exact hm
    | exception =>
      simp only [Motor.step]
      split
      · exact hm
      · exact ⟨hm.1, by intro j hj; simp [Phase.mode] at hj⟩
    | stateDone ok =>
      simp only [Motor.step, Motor.stateDone]
      split
      · next i hi =>
        split
        · refine ⟨hm.1, ?_⟩
          intro j hj
          apply hm.2
          rw [hi]; exact hj
        · exact ⟨hm.1, by intro j hj; simp [Phase.mode] at hj⟩
      · exact ⟨hm.1, by intro j hj; simp [Phase.mode] at hj⟩
      · exact hm
    | modeDone t =>
      simp only [Motor.step, Motor.modeDone]
      split
      · next i hi =>
        have hik : i = k := hm.2 i (by rw [hi]; rfl)
        split
        · refine ⟨?_, ?_⟩
          · intro j hj; simp at hj; omega
          · intro j hj; simp [Phase.mode] at hj; omega
        · split
          · refine ⟨hm.1, ?_⟩
            intro j hj; simp [Phase.mode] at hj; omega
          · exact hm
      · exact hm

/-! ## Staying enabled -/

/-- an enabled drive is being told to stay so -/
def Held (p : Plant) : Prop := p.d = .enabled → (∀ i, i < 4 → p.m.cw.getLsbD i = true) ∧ p.m.cw.getLsbD 7 = false

theorem held_cycle (p : Plant) (hd : p.d = .enabled) (h : Held p) (sw : BitVec 16) (disp : BitVec 8) (a : Answer) (hsw : decode sw = p.d) :
    (cycle p sw disp a).d = .enabled ∧ Held (cycle p sw disp a) := by
  obtain ⟨h4, h7⟩ := h hd
  unfold cycle
  dsimp only
  generalize hm1 : (p.m.step (.read sw disp)).1 = m1
  have e1 : m1.hs = .enabled := by rw [← hm1, ← hd]; exact hsw
  have e2 : m1.cw = p.m.cw := by rw [← hm1]; rfl
  generalize hm2 : (m1.step (.command m1.hs .enabled)).1 = m2
  have e3 : m2.cw = p.m.cw := by
    rw [← hm2]
    show (setTransition m1.cw m1.hs .enabled true).1 = _
    rw [e1, e2]; rfl
  have c4 : ∀ i, i < 4 → (m2.step .write).1.cw.getLsbD i = true := by
    intro i hi
    show m2.handleWrite.1.cw.getLsbD i = true
    rw [handleWrite_cw _ _ (by omega) (by omega), e3, h4 i hi]
  have c7 : (m2.step .write).1.cw.getLsbD 7 = false := by
    show m2.handleWrite.1.cw.getLsbD 7 = false
    rw [handleWrite_cw _ _ (by decide) (by decide), e3, h7]
  have w4 : ∀ i, i < 4 → m2.handleWrite.2.1.getLsbD i = true := by
    intro i hi
    rw [handleWrite_word_bit _ _ (by omega) (by omega) (by omega), e3, h4 i hi]
  have w7 : m2.handleWrite.2.1.getLsbD 7 = false := by rw [handleWrite_word_bit7, e3, h7, Bool.and_false]
  have hdr : drive .enabled p.prev m2.handleWrite.2.1 = .enabled := by
    have hc : command m2.handleWrite.2.1 = .enableOperation := by
      unfold command
      rw [w4 0 (by omega), w4 1 (by omega), w4 2 (by omega), w4 3 (by omega)]; rfl
    simp only [drive, w7, hc]; rfl
  cases a with
  | acts => exact ⟨by dsimp only; rw [hd]; exact hdr, fun _ => ⟨c4, c7⟩⟩
  | misses => exact ⟨hd, fun _ => ⟨c4, c7⟩⟩
  | busy =>
    refine ⟨?_, fun _ => ⟨c4, c7⟩⟩
    dsimp only
    rw [hd, if_neg (by simp)]; exact hdr

theorem arrive_held (p : Plant) (hd : p.d ≠ .enabled) (sw : BitVec 16) (disp : BitVec 8) (a : Answer) (hsw : decode sw = p.d) :
    Held (cycle p sw disp a) := by
  obtain ⟨op, ht⟩ := hop p.d hd
  obtain ⟨m3, w, hs3, hw, hw7, hc7, hc4, e⟩ := cycle_eq p sw disp a hsw hd op ht
  intro harr
  have hsrc : p.d = .switchedOn ∨ p.d = .quickStop := by
    have hdr : drive p.d p.prev w = .enabled := by
      rw [e] at harr
      cases a with
      | acts => exact harr
      | misses => exact absurd harr hd
      | busy =>
        dsimp only at harr
        split at harr
        · exact absurd harr hd
        · exact harr
    by_cases hf : p.d = .fault
    · rw [hf] at hdr
      simp only [drive] at hdr
      split at hdr <;> simp at hdr
    · rw [drive_step p.d op ht hf hd p.m.cw p.prev w hw (by intro h0; rw [hw7, h0, Bool.and_false])] at hdr
      revert hdr hd
      cases p.d <;> simp [nextForEnabling]
  have hop' : op = opEnable := by
    rcases hsrc with h | h <;> rw [h] at ht <;> exact (Option.some.inj ht).symm
  subst hop'
  have hm : (cycle p sw disp a).m = m3 := by rw [e]; cases a <;> rfl
  rw [hm]
  refine ⟨?_, ?_⟩
  · intro i hi
    rw [hc4 i hi, apply_bit _ _ _ (by omega)]
    have : ∀ i, i < 4 → opEnable.toSet.getLsbD i = true := by decide
    rw [this i hi, Bool.or_true]
  · rw [hc7, apply_bit _ _ _ (by omega)]
    rw [show opEnable.toReset.getLsbD 7 = true by decide, show opEnable.toSet.getLsbD 7 = false by decide]; simp

theorem ends_enabled (as : List Answer) : ∀ n p q, WithinLossy n p → Held p → n ≤ as.count .acts → Cycles p as q → q.d = .enabled := by
  induction as with
  | nil =>
    intro n p q h hh hn hc
    cases hc
    simp at hn
    subst hn
    unfold WithinLossy at h
    revert h
    cases p.d <;> intro h <;> simp only at h <;> first | rfl | omega
  | cons a as ih =>
    intro n p q h hh hn hc
    cases hc with
    | @cons _ sw disp _ _ _ hsw hc =>
      by_cases hd : p.d = .enabled
      · obtain ⟨h1, h2⟩ := held_cycle p hd hh sw disp a hsw
        refine ih 0 _ _ ?_ h2 (by omega) hc
        unfold WithinLossy; rw [h1]; trivial
      · have hh' := arrive_held p hd sw disp a hsw
        cases a with
        | acts =>
          simp at hn
          cases n with
          | zero => exact ih 0 _ _ (lossy_acts 0 p (h.mono (by omega)) hd sw disp hsw) hh' (by omega) hc
          | succ n => exact ih n _ _ (lossy_acts n p h hd sw disp hsw) hh' (by omega) hc
        | misses => exact ih n _ _ (lossy_misses n p h hd sw disp hsw) hh' (by simpa using hn) hc
        | busy => exact ih n _ _ (lossy_busy n p h hd sw disp hsw) hh' (by simpa using hn) hc

end Verif.M402
