import Verif.Spec.Driver
import Verif.Spec.Can
import Verif.Model.Bridge

set_option linter.unusedSimpArgs false
namespace Verif.Drv
open Verif Verif.Spec

theorem bit_eq (c : ErrClass) : c.bit = BitVec.twoPow 32 (errBitNo c) := by cases c <;> decide

theorem errBitNo_lt (c : ErrClass) : errBitNo c < 9 := by cases c <;> decide

theorem errBitNo_inj {a b : ErrClass} (h : errBitNo a = errBitNo b) : a = b := by
  revert h; cases a <;> cases b <;> decide

theorem mem_errOrder (c : ErrClass) : c ∈ errOrder := by cases c <;> decide

theorem and_twoPow_ne (x : BitVec 32) (i : Nat) (hi : i < 32) : x &&& BitVec.twoPow 32 i ≠ 0#32 ↔ x.getLsbD i = true := by
  rw [BitVec.and_twoPow]
  cases h : x.getLsbD i
  · simp
  · simp only [if_true, iff_true]
    intro hc
    have := congrArg (fun y => y.getLsbD i) hc
    simp [hi] at this

theorem and_bit_ne (x : BitVec 32) (c : ErrClass) : x &&& c.bit ≠ 0#32 ↔ x.getLsbD (errBitNo c) = true := by
  rw [bit_eq]; exact and_twoPow_ne x _ (by have := errBitNo_lt c; omega)

theorem getLsbD_bit (c : ErrClass) (i : Nat) : c.bit.getLsbD i = decide (i = errBitNo c) := by
  rw [bit_eq, BitVec.getLsbD_twoPow]
  have := errBitNo_lt c
  by_cases h : i = errBitNo c
  · subst h; simp; omega
  · have : ¬ errBitNo c = i := fun e => h e.symm
    simp [h, this]

theorem addBits_bits (st : Settings) (entry : Text) (defaults : BitVec 32) (es : List ErrClass) (m0 m : BitVec 32)
    (h : addBits st entry defaults es m0 = .ok m) (i : Nat) :
    m.getLsbD i = true ↔ m0.getLsbD i = true ∨ ∃ c ∈ es, i = errBitNo c ∧ classSelected st entry defaults c = .ok true := by
  induction es generalizing m0 with
  | nil => simp only [addBits, Outcome.ok.injEq] at h; subst h; simp
  | cons e es ih =>
    unfold addBits at h
    cases hs : classSelected st entry defaults e with
    | ok b =>
      rw [hs] at h
      rw [ih _ h, BitVec.getLsbD_or]
      cases b
      · simp [hs]
      · simp [getLsbD_bit, hs, or_assoc]
    | throws x => rw [hs] at h; cases h
    | ub => rw [hs] at h; cases h

theorem addBits_ok_selected (st : Settings) (entry : Text) (defaults : BitVec 32) (es : List ErrClass) (m0 m : BitVec 32)
    (h : addBits st entry defaults es m0 = .ok m) : ∀ c ∈ es, ∃ b, classSelected st entry defaults c = .ok b := by
  induction es generalizing m0 with
  | nil => simp
  | cons e es ih =>
    unfold addBits at h
    cases hs : classSelected st entry defaults e with
    | ok b =>
      rw [hs] at h
      intro c hc
      rcases List.mem_cons.1 hc with rfl | hc
      · exact ⟨b, hs⟩
      · exact ih _ h c hc
    | throws x => rw [hs] at h; cases h
    | ub => rw [hs] at h; cases h

theorem addBits_ok_of (st : Settings) (entry : Text) (defaults : BitVec 32) (es : List ErrClass) (m0 : BitVec 32)
    (h : ∀ c ∈ es, ∃ b, classSelected st entry defaults c = .ok b) : ∃ m, addBits st entry defaults es m0 = .ok m := by
  induction es generalizing m0 with
  | nil => exact ⟨m0, rfl⟩
  | cons e es ih =>
    obtain ⟨b, hb⟩ := h e (by simp)
    unfold addBits
    rw [hb]
    exact ih _ (fun c hc => h c (by simp [hc]))

theorem parse_bits (st : Settings) (entry : Text) (defaults m : BitVec 32)
    (h : parseErrorMask st entry defaults = .ok m) :
    (∀ c, m.getLsbD (errBitNo c) = true ↔ classSelected st entry defaults c = .ok true) ∧
    (∀ i, m.getLsbD i = true → i < 9) := by
  have key := addBits_bits st entry defaults errOrder 0#32 m h
  constructor
  · intro c
    rw [key]
    simp only [BitVec.getLsbD_zero, Bool.false_eq_true, false_or]
    constructor
    · rintro ⟨c', _, hi, hs⟩
      rw [errBitNo_inj hi]; exact hs
    · intro hs; exact ⟨c, mem_errOrder c, rfl, hs⟩
  · intro i hi
    rw [key] at hi
    simp only [BitVec.getLsbD_zero, Bool.false_eq_true, false_or] at hi
    obtain ⟨c, _, rfl, _⟩ := hi
    exact errBitNo_lt c

theorem selected_iff (st : Settings) (entry : Text) (defaults : BitVec 32) (c : ErrClass) :
    classSelected st entry defaults c = .ok true ↔
      (st (entry ++ '/' :: c.name) = none ∧ defaults.getLsbD (errBitNo c) = true) ∨
      (∃ r, st (entry ++ '/' :: c.name) = some r ∧ lexicalBool r = some true) := by
  unfold classSelected
  cases h : st (entry ++ '/' :: c.name) with
  | none =>
    have := and_bit_ne defaults c
    simp only [Outcome.ok.injEq, bne_iff_ne, true_and, reduceCtorEq, false_and, exists_false, or_false]
    exact this
  | some r =>
    cases h2 : lexicalBool r <;> simp [h2]

theorem fatalDefaults_bit (c : ErrClass) : fatalDefaults.getLsbD (errBitNo c) = fatalByDefault c := by cases c <;> decide

theorem reportDefaults_bit (c : ErrClass) :
    reportDefaults.getLsbD (errBitNo c) = !fatalByDefault c := by cases c <;> decide

theorem masks_ok (st : Settings) (em fm : BitVec 32) (h : masks st = .ok (em, fm)) :
    ∃ m m', parseErrorMask st "fatal_error_mask".toList fatalDefaults = .ok m ∧ fm = m ||| ErrClass.busoff.bit ∧
      parseErrorMask st "error_mask".toList (reportDefaults ||| fm) = .ok m' ∧ em = m' ||| fm := by
  unfold masks at h
  cases h1 : parseErrorMask st "fatal_error_mask".toList fatalDefaults with
  | ok m =>
    rw [h1] at h
    simp only at h
    cases h2 : parseErrorMask st "error_mask".toList (reportDefaults ||| (m ||| ErrClass.busoff.bit)) with
    | ok m' =>
      rw [h2] at h
      simp only [Outcome.ok.injEq, Prod.mk.injEq] at h
      obtain ⟨a, b⟩ := h
      refine ⟨m, m', rfl, b.symm, ?_, ?_⟩
      · rw [← b]; exact h2
      · rw [← a, ← b]
    | throws x => rw [h2] at h; cases h
    | ub => rw [h2] at h; cases h
  | throws x => rw [h1] at h; cases h
  | ub => rw [h1] at h; cases h

/-- the model's update -/
def doUpdate (d : Driver) : Update → Driver
  | .errorCode e => d.setErrorCode e
  | .internalError e => d.setInternalError e
  | .driver x => d.setDriverState x

theorem doUpdate_spec (d : Driver) (u : Update) :
    (doUpdate d u).state = applyUpdate d.state u ∧
    (doUpdate d u).notified = d.notified ++ changes d.state [applyUpdate d.state u] := by
  cases u with
  | errorCode e =>
    simp only [doUpdate, Driver.setErrorCode, applyUpdate, changes]
    by_cases h : d.state.errorCode = e
    · have : ({ d.state with errorCode := e } : State) = d.state := by rw [← h]
      simp [h, this]
    · have : ({ d.state with errorCode := e } : State) ≠ d.state := by
        intro hc; exact h (congrArg State.errorCode hc).symm
      simp [h, this]
  | internalError e =>
    simp only [doUpdate, Driver.setInternalError, applyUpdate, changes]
    by_cases h : d.state.internalError = e
    · have : ({ d.state with internalError := e } : State) = d.state := by rw [← h]
      simp [h, this]
    · have : ({ d.state with internalError := e } : State) ≠ d.state := by
        intro hc; exact h (congrArg State.internalError hc).symm
      simp [h, this]
  | driver e =>
    simp only [doUpdate, Driver.setDriverState, applyUpdate, changes]
    by_cases h : d.state.driver = e
    · have : ({ d.state with driver := e } : State) = d.state := by rw [← h]
      simp [h, this]
    · have : ({ d.state with driver := e } : State) ≠ d.state := by
        intro hc; exact h (congrArg State.driver hc).symm
      simp [h, this]

theorem changes_cons (s t : State) (ts : List State) : changes s (t :: ts) = changes s [t] ++ changes t ts := by
  simp only [changes]
  split
  · rename_i h; subst h; simp
  · simp

theorem updates_spec (us : List Update) (d : Driver) :
    (us.foldl doUpdate d).notified = d.notified ++ changes d.state (states d.state us) ∧
    (us.foldl doUpdate d).state = us.foldl applyUpdate d.state := by
  induction us generalizing d with
  | nil => simp [states, changes]
  | cons u us ih =>
    rw [List.foldl_cons, List.foldl_cons]
    obtain ⟨a, b⟩ := ih (doUpdate d u)
    obtain ⟨c, e⟩ := doUpdate_spec d u
    rw [a, b, c, e]
    refine ⟨?_, rfl⟩
    rw [states, changes_cons d.state (applyUpdate d.state u) (states _ us), List.append_assoc]

/-- the listeners' last view is the recorded state -/
def Synced (d : Driver) : Prop := d.notified.getLast?.getD .initial = d.state

theorem set_synced (d : Driver) (h : Synced d) (u : Update) : Synced (doUpdate d u) := by
  obtain ⟨a, b⟩ := doUpdate_spec d u
  unfold Synced at *
  rw [a, b]
  simp only [changes]
  split
  · rename_i hc; rw [hc]; simpa using h
  · simp

theorem setErrorCode_synced (d : Driver) (h : Synced d) (e : Int) : Synced (d.setErrorCode e) := set_synced d h (.errorCode e)
theorem setInternalError_synced (d : Driver) (h : Synced d) (e : BitVec 32) : Synced (d.setInternalError e) :=
  set_synced d h (.internalError e)
theorem setDriverState_synced (d : Driver) (h : Synced d) (e : DriverState) : Synced (d.setDriverState e) :=
  set_synced d h (.driver e)
theorem setNotReady_synced (d : Driver) (h : Synced d) : Synced d.setNotReady := setDriverState_synced d h _

theorem step_synced (d d' : Driver) (o : Op) (h : Synced d) (hs : d.step o = .ok d') : Synced d' := by
  cases o with
  | init dev l em fm sys =>
    simp only [Driver.step] at hs
    cases hi : d.init dev l em fm sys with
    | ok r =>
      rw [hi] at hs
      simp only [Outcome.ok.injEq] at hs
      subst hs
      unfold Driver.init at hi
      split at hi
      · split at hi
        · cases hi
        · cases sys with
          | fail c =>
            simp only [Outcome.ok.injEq] at hi; subst hi
            refine setErrorCode_synced _ ?_ _
            exact h
          | ok =>
            simp only [Outcome.ok.injEq] at hi; subst hi
            refine setDriverState_synced _ (setInternalError_synced _ (setErrorCode_synced _ ?_ _) _) _
            exact h
      · simp only [Outcome.ok.injEq] at hi; subst hi; exact h
    | throws x => rw [hi] at hs; cases hs
    | ub => rw [hi] at hs; cases hs
  | runBegin =>
    simp only [Driver.step, Outcome.ok.injEq] at hs; subst hs
    unfold Driver.runBegin
    simp only
    split
    · exact setDriverState_synced _ (setNotReady_synced _ h) _
    · simp [Synced]
  | runEnd ec =>
    simp only [Driver.step, Outcome.ok.injEq] at hs; subst hs
    simp [Driver.runEnd, Synced]
  | readOk k =>
    simp only [Driver.step, Outcome.ok.injEq] at hs; subst hs
    unfold Driver.readOk
    simp only
    split
    · refine setNotReady_synced _ (setInternalError_synced _ ?_ _)
      exact h
    · exact h
  | readError e =>
    simp only [Driver.step, Outcome.ok.injEq] at hs; subst hs
    exact setNotReady_synced _ (setErrorCode_synced _ h _)
  | send f ec =>
    simp only [Driver.step] at hs
    cases hi : d.send f ec with
    | ok r =>
      rw [hi] at hs
      simp only [Outcome.ok.injEq] at hs
      subst hs
      unfold Driver.send at hi
      split at hi
      · split at hi
        · split at hi
          · simp only [Outcome.ok.injEq] at hi; subst hi
            exact setNotReady_synced _ (setErrorCode_synced _ h _)
          · simp only [Outcome.ok.injEq] at hi; subst hi; exact h
        · cases hi
        · cases hi
      · simp only [Outcome.ok.injEq] at hi; subst hi; exact h
    | throws x => rw [hi] at hs; cases hs
    | ub => rw [hi] at hs; cases hs
  | shutdown =>
    simp only [Driver.step, Outcome.ok.injEq] at hs; subst hs; exact h

theorem run_synced (os : List Op) (d d' : Driver) (h : Synced d) (hs : d.run os = .ok d') : Synced d' := by
  induction os generalizing d with
  | nil => cases hs; exact h
  | cons o os ih =>
    unfold Driver.run at hs
    cases h1 : d.step o with
    | ok d1 => rw [h1] at hs; exact ih d1 (step_synced d d1 o h h1) hs
    | throws x => rw [h1] at hs; cases hs
    | ub => rw [h1] at hs; cases hs

@[simp] theorem setErrorCode_driver (d : Driver) (e : Int) : (d.setErrorCode e).state.driver = d.state.driver := by
  unfold Driver.setErrorCode; split <;> rfl
@[simp] theorem setInternalError_driver (d : Driver) (e : BitVec 32) :
    (d.setInternalError e).state.driver = d.state.driver := by
  unfold Driver.setInternalError; split <;> rfl
@[simp] theorem setDriverState_driver (d : Driver) (x : DriverState) : (d.setDriverState x).state.driver = x := by
  unfold Driver.setDriverState; split
  · rfl
  · rename_i h; simpa using h
theorem setNotReady_driver (d : Driver) : d.setNotReady.state.driver ≠ .ready := by
  unfold Driver.setNotReady; rw [setDriverState_driver]; split <;> simp
@[simp] theorem setErrorCode_wire (d : Driver) (e : Int) : (d.setErrorCode e).wire = d.wire := by
  unfold Driver.setErrorCode; split <;> rfl
@[simp] theorem setInternalError_wire (d : Driver) (e : BitVec 32) : (d.setInternalError e).wire = d.wire := by
  unfold Driver.setInternalError; split <;> rfl
@[simp] theorem setDriverState_wire (d : Driver) (x : DriverState) : (d.setDriverState x).wire = d.wire := by
  unfold Driver.setDriverState; split <;> rfl
@[simp] theorem setNotReady_wire (d : Driver) : d.setNotReady.wire = d.wire := by simp [Driver.setNotReady]
@[simp] theorem setInternalError_val (d : Driver) (e : BitVec 32) : (d.setInternalError e).state.internalError = e := by
  unfold Driver.setInternalError; split
  · rfl
  · rename_i h; simpa using h
@[simp] theorem setDriverState_ie (d : Driver) (x : DriverState) :
    (d.setDriverState x).state.internalError = d.state.internalError := by
  unfold Driver.setDriverState; split <;> rfl
@[simp] theorem setNotReady_ie (d : Driver) : d.setNotReady.state.internalError = d.state.internalError := by
  simp [Driver.setNotReady]

/-- no step except starting `run` makes the driver ready, and nothing is written by a driver that is not ready -/
theorem step_notReady (d d' : Driver) (o : Op) (ho : o ≠ .runBegin) (h : d.state.driver ≠ .ready) (hs : d.step o = .ok d') :
    d'.state.driver ≠ .ready ∧ d'.wire = d.wire := by
  cases o with
  | init dev l em fm sys =>
    simp only [Driver.step] at hs
    cases hi : d.init dev l em fm sys with
    | ok r =>
      rw [hi] at hs
      simp only [Outcome.ok.injEq] at hs
      subst hs
      unfold Driver.init at hi
      split at hi
      · split at hi
        · cases hi
        · cases sys with
          | fail c =>
            simp only [Outcome.ok.injEq] at hi; subst hi
            simpa using h
          | ok =>
            simp only [Outcome.ok.injEq] at hi; subst hi
            simp
      · simp only [Outcome.ok.injEq] at hi; subst hi; exact ⟨h, rfl⟩
    | throws x => rw [hi] at hs; cases hs
    | ub => rw [hi] at hs; cases hs
  | runBegin => exact absurd rfl ho
  | runEnd ec =>
    simp only [Driver.step, Outcome.ok.injEq] at hs; subst hs
    refine ⟨setNotReady_driver _, ?_⟩
    simp [Driver.runEnd]
  | readOk k =>
    simp only [Driver.step, Outcome.ok.injEq] at hs; subst hs
    unfold Driver.readOk
    simp only
    split
    · exact ⟨setNotReady_driver _, by simp⟩
    · exact ⟨h, rfl⟩
  | readError e =>
    simp only [Driver.step, Outcome.ok.injEq] at hs; subst hs
    exact ⟨setNotReady_driver _, by simp [Driver.readError]⟩
  | send f ec =>
    simp only [Driver.step, Driver.send, if_neg h, Outcome.ok.injEq] at hs
    subst hs; exact ⟨h, rfl⟩
  | shutdown =>
    simp only [Driver.step, Outcome.ok.injEq] at hs; subst hs; exact ⟨h, rfl⟩

theorem run_notReady (os : List Op) (d d' : Driver) (ho : ∀ o ∈ os, o ≠ .runBegin) (h : d.state.driver ≠ .ready)
    (hs : d.run os = .ok d') : d'.state.driver ≠ .ready ∧ d'.wire = d.wire := by
  induction os generalizing d with
  | nil => cases hs; exact ⟨h, rfl⟩
  | cons o os ih =>
    unfold Driver.run at hs
    cases h1 : d.step o with
    | ok d1 =>
      rw [h1] at hs
      obtain ⟨a, b⟩ := step_notReady d d1 o (ho o (by simp)) h h1
      obtain ⟨c, e⟩ := ih d1 (fun o ho' => ho o (by simp [ho'])) a hs
      exact ⟨c, by rw [e, b]⟩
    | throws x => rw [h1] at hs; cases hs
    | ub => rw [h1] at hs; cases hs

/-! identifier words -/

theorem ERR_FLAG_eq : CAN_ERR_FLAG = BitVec.twoPow 32 29 := by decide
theorem RTR_FLAG_eq : CAN_RTR_FLAG = BitVec.twoPow 32 30 := by decide
theorem EFF_FLAG_eq : CAN_EFF_FLAG = BitVec.twoPow 32 31 := by decide

theorem EFF_MASK_getLsbD (i : Nat) : CAN_EFF_MASK.getLsbD i = decide (i < 29) := by
  by_cases h : i < 32
  · have : ∀ i : Fin 32, CAN_EFF_MASK.getLsbD i.val = decide (i.val < 29) := by decide
    exact this ⟨i, h⟩
  · rw [BitVec.getLsbD_of_ge _ _ (by omega)]; simp; omega

theorem SFF_MASK_getLsbD (i : Nat) : CAN_SFF_MASK.getLsbD i = decide (i < 11) := by
  by_cases h : i < 32
  · have : ∀ i : Fin 32, CAN_SFF_MASK.getLsbD i.val = decide (i.val < 11) := by decide
    exact this ⟨i, h⟩
  · rw [BitVec.getLsbD_of_ge _ _ (by omega)]; simp; omega

theorem word_getLsbD (id : BitVec 29) (e r : Bool) (i : Nat) :
    (id.setWidth 32 ||| (if e then CAN_EFF_FLAG else 0#32) ||| (if r then CAN_RTR_FLAG else 0#32)).getLsbD i =
      (id.getLsbD i || (e && decide (i = 31)) || (r && decide (i = 30))) := by
  have h1 : CAN_EFF_FLAG.getLsbD i = decide (i = 31) := by
    rw [EFF_FLAG_eq, BitVec.getLsbD_twoPow]
    by_cases h : i = 31
    · subst h; simp
    · have : ¬ 31 = i := fun e => h e.symm
      simp [h, this]
  have h2 : CAN_RTR_FLAG.getLsbD i = decide (i = 30) := by
    rw [RTR_FLAG_eq, BitVec.getLsbD_twoPow]
    by_cases h : i = 30
    · subst h; simp
    · have : ¬ 30 = i := fun e => h e.symm
      simp [h, this]
  have h3 : (id.setWidth 32).getLsbD i = id.getLsbD i := by
    rw [BitVec.getLsbD_setWidth]
    by_cases h : i < 32
    · simp [h]
    · rw [BitVec.getLsbD_of_ge id i (by omega)]; simp
  rw [BitVec.getLsbD_or, BitVec.getLsbD_or, h3]
  cases e <;> cases r <;> simp [h1, h2]

theorem getLsbD_of_small (id : BitVec 29) (h : id.toNat < 2048) (i : Nat) (hi : 11 ≤ i) : id.getLsbD i = false := by
  rw [BitVec.getLsbD]
  apply Nat.testBit_lt_two_pow
  calc id.toNat < 2 ^ 11 := by omega
    _ ≤ 2 ^ i := Nat.pow_le_pow_right (by omega) hi

/-! delivery of received frames, and the masks in use -/

theorem fromKernel_received (old : Frame) (k : KFrame) : Received k (fromKernel old k) := by
  unfold fromKernel Received
  by_cases hE : k.canId &&& CAN_ERR_FLAG ≠ 0#32
  · have b29 : k.canId.getLsbD 29 = true := by
      rw [ERR_FLAG_eq, and_twoPow_ne _ _ (by omega)] at hE; exact hE
    simp only [if_pos hE, b29]
    refine ⟨trivial, trivial, ?_, ?_, by simp⟩
    · intro i h8 hi; simp [hi]
    · intro i
      simp only [BitVec.getLsbD_setWidth, BitVec.getLsbD_and, EFF_MASK_getLsbD]
      by_cases h : i < 29 <;> simp [h]
  · have b29 : k.canId.getLsbD 29 = false := by
      rw [ERR_FLAG_eq, and_twoPow_ne _ _ (by omega)] at hE; simpa using hE
    have hX : (k.canId &&& CAN_EFF_FLAG != 0#32) = k.canId.getLsbD 31 := by
      rw [Bool.eq_iff_iff, bne_iff_ne, EFF_FLAG_eq, and_twoPow_ne _ _ (by omega)]
    have hR : (k.canId &&& CAN_RTR_FLAG != 0#32) = k.canId.getLsbD 30 := by
      rw [Bool.eq_iff_iff, bne_iff_ne, RTR_FLAG_eq, and_twoPow_ne _ _ (by omega)]
    simp only [if_neg hE, b29, hX, hR]
    refine ⟨trivial, trivial, ?_, ?_, by simp⟩
    · intro i h8 hi; simp [hi]
    · intro i
      simp only [BitVec.getLsbD_setWidth, BitVec.getLsbD_and]
      cases hx : k.canId.getLsbD 31
      · simp only [Bool.false_eq_true, if_false, SFF_MASK_getLsbD, Bool.or_self]
        by_cases h : i < 11
        · simp [h]; omega
        · simp [h]
      · simp only [if_true, EFF_MASK_getLsbD, Bool.or_true]
        by_cases h : i < 29 <;> simp [h]

@[simp] theorem setErrorCode_disp (d : Driver) (e : Int) : (d.setErrorCode e).dispatched = d.dispatched := by
  unfold Driver.setErrorCode; split <;> rfl
@[simp] theorem setInternalError_disp (d : Driver) (e : BitVec 32) : (d.setInternalError e).dispatched = d.dispatched := by
  unfold Driver.setInternalError; split <;> rfl
@[simp] theorem setDriverState_disp (d : Driver) (x : DriverState) : (d.setDriverState x).dispatched = d.dispatched := by
  unfold Driver.setDriverState; split <;> rfl
@[simp] theorem setNotReady_disp (d : Driver) : d.setNotReady.dispatched = d.dispatched := by simp [Driver.setNotReady]
@[simp] theorem setErrorCode_fm (d : Driver) (e : Int) : (d.setErrorCode e).fatalMask = d.fatalMask := by
  unfold Driver.setErrorCode; split <;> rfl
@[simp] theorem setInternalError_fm (d : Driver) (e : BitVec 32) : (d.setInternalError e).fatalMask = d.fatalMask := by
  unfold Driver.setInternalError; split <;> rfl
@[simp] theorem setDriverState_fm (d : Driver) (x : DriverState) : (d.setDriverState x).fatalMask = d.fatalMask := by
  unfold Driver.setDriverState; split <;> rfl
@[simp] theorem setNotReady_fm (d : Driver) : d.setNotReady.fatalMask = d.fatalMask := by simp [Driver.setNotReady]
@[simp] theorem setErrorCode_so (d : Driver) (e : Int) : (d.setErrorCode e).socketOpen = d.socketOpen := by
  unfold Driver.setErrorCode; split <;> rfl
@[simp] theorem setInternalError_so (d : Driver) (e : BitVec 32) : (d.setInternalError e).socketOpen = d.socketOpen := by
  unfold Driver.setInternalError; split <;> rfl
@[simp] theorem setDriverState_so (d : Driver) (x : DriverState) : (d.setDriverState x).socketOpen = d.socketOpen := by
  unfold Driver.setDriverState; split <;> rfl
@[simp] theorem setErrorCode_ec (d : Driver) (e : Int) : (d.setErrorCode e).state.errorCode = e := by
  unfold Driver.setErrorCode; split
  · rfl
  · rename_i h; simpa using h
@[simp] theorem setInternalError_ec (d : Driver) (e : BitVec 32) : (d.setInternalError e).state.errorCode = d.state.errorCode := by
  unfold Driver.setInternalError; split <;> rfl
@[simp] theorem setDriverState_ec (d : Driver) (x : DriverState) : (d.setDriverState x).state.errorCode = d.state.errorCode := by
  unfold Driver.setDriverState; split <;> rfl
@[simp] theorem setNotReady_ec (d : Driver) : d.setNotReady.state.errorCode = d.state.errorCode := by simp [Driver.setNotReady]
@[simp] theorem setErrorCode_ie (d : Driver) (e : Int) : (d.setErrorCode e).state.internalError = d.state.internalError := by
  unfold Driver.setErrorCode; split <;> rfl
@[simp] theorem setNotReady_so (d : Driver) : d.setNotReady.socketOpen = d.socketOpen := by simp [Driver.setNotReady]
theorem setNotReady_drv (d : Driver) : d.setNotReady.state.driver = if d.socketOpen then .opened else .closed := by
  simp [Driver.setNotReady]

theorem readOk_disp (d : Driver) (k : KFrame) : (d.readOk k).dispatched = d.dispatched ++ [fromKernel d.input k] := by
  unfold Driver.readOk; simp only; split <;> simp

theorem step_disp (d d' : Driver) (o : Op) (hs : d.step o = .ok d') :
    ∃ fs, d'.dispatched = d.dispatched ++ fs ∧ Pointwise Received (kernelReads [o]) fs ∧
      ((∀ dev l em fm sys, o ≠ .init dev l em fm sys) → d'.fatalMask = d.fatalMask) := by
  cases o with
  | init dev l em fm sys =>
    simp only [Driver.step] at hs
    refine ⟨[], ?_, trivial, fun h => absurd rfl (h dev l em fm sys)⟩
    cases hi : d.init dev l em fm sys with
    | ok r =>
      rw [hi] at hs
      simp only [Outcome.ok.injEq] at hs
      subst hs
      unfold Driver.init at hi
      split at hi
      · split at hi
        · cases hi
        · cases sys with
          | fail c => simp only [Outcome.ok.injEq] at hi; subst hi; simp
          | ok => simp only [Outcome.ok.injEq] at hi; subst hi; simp
      · simp only [Outcome.ok.injEq] at hi; subst hi; simp
    | throws x => rw [hi] at hs; cases hs
    | ub => rw [hi] at hs; cases hs
  | runBegin =>
    simp only [Driver.step, Outcome.ok.injEq] at hs; subst hs
    refine ⟨[], ?_, trivial, fun _ => ?_⟩ <;> unfold Driver.runBegin <;> simp only <;> split <;> simp
  | runEnd ec =>
    simp only [Driver.step, Outcome.ok.injEq] at hs; subst hs
    exact ⟨[], by simp [Driver.runEnd], trivial, fun _ => by simp [Driver.runEnd]⟩
  | readOk k =>
    simp only [Driver.step, Outcome.ok.injEq] at hs; subst hs
    refine ⟨[fromKernel d.input k], readOk_disp d k, ⟨fromKernel_received _ _, trivial⟩, fun _ => ?_⟩
    unfold Driver.readOk; simp only; split <;> simp
  | readError e =>
    simp only [Driver.step, Outcome.ok.injEq] at hs; subst hs
    exact ⟨[], by simp [Driver.readError], trivial, fun _ => by simp [Driver.readError]⟩
  | send f ec =>
    simp only [Driver.step] at hs
    refine ⟨[], ?_, trivial, fun _ => ?_⟩ <;>
    · cases hi : d.send f ec with
      | ok r =>
        rw [hi] at hs
        simp only [Outcome.ok.injEq] at hs
        subst hs
        unfold Driver.send at hi
        split at hi
        · split at hi
          · split at hi
            · simp only [Outcome.ok.injEq] at hi; subst hi; simp
            · simp only [Outcome.ok.injEq] at hi; subst hi; simp
          · cases hi
          · cases hi
        · simp only [Outcome.ok.injEq] at hi; subst hi; simp
      | throws x => rw [hi] at hs; cases hs
      | ub => rw [hi] at hs; cases hs
  | shutdown =>
    simp only [Driver.step, Outcome.ok.injEq] at hs; subst hs
    exact ⟨[], by simp [Driver.shutdown], trivial, fun _ => rfl⟩

theorem pointwise_append {α β : Type} {R : α → β → Prop} {a b : List α} {c d : List β}
    (h : Pointwise R a c) (h' : Pointwise R b d) : Pointwise R (a ++ b) (c ++ d) := by
  induction a generalizing c with
  | nil => cases c with
    | nil => exact h'
    | cons _ _ => cases h
  | cons x a ih => cases c with
    | nil => cases h
    | cons y c => exact ⟨h.1, ih h.2⟩

theorem kernelReads_cons (o : Op) (os : List Op) : kernelReads (o :: os) = kernelReads [o] ++ kernelReads os := by
  cases o <;> rfl

theorem run_disp (os : List Op) (d d' : Driver) (hs : d.run os = .ok d') :
    ∃ fs, d'.dispatched = d.dispatched ++ fs ∧ Pointwise Received (kernelReads os) fs ∧
      ((∀ o ∈ os, ∀ dev l em fm sys, o ≠ .init dev l em fm sys) → d'.fatalMask = d.fatalMask) := by
  induction os generalizing d with
  | nil => cases hs; exact ⟨[], by simp, trivial, fun _ => rfl⟩
  | cons o os ih =>
    unfold Driver.run at hs
    cases h1 : d.step o with
    | ok d1 =>
      rw [h1] at hs
      obtain ⟨f1, a1, b1, c1⟩ := step_disp d d1 o h1
      obtain ⟨f2, a2, b2, c2⟩ := ih d1 hs
      refine ⟨f1 ++ f2, by rw [a2, a1, List.append_assoc], ?_, fun h => ?_⟩
      · rw [kernelReads_cons]; exact pointwise_append b1 b2
      · rw [c2 (fun o ho => h o (by simp [ho])), c1 (h o (by simp))]
    | throws x => rw [h1] at hs; cases hs
    | ub => rw [h1] at hs; cases hs

theorem init_ok (d d1 : Driver) (dev : Text) (l : Bool) (em fm : BitVec 32) (r : Bool) (hc : d.state.driver = .closed)
    (h : d.init dev l em fm .ok = .ok (r, d1)) :
    r = true ∧ d1.state.driver = .opened ∧ d1.state.errorCode = 0 ∧ d1.state.internalError = 0 ∧ d1.socketOpen = true ∧
      d1.fatalMask = fm := by
  unfold Driver.init at h
  rw [if_pos hc] at h
  split at h
  · cases h
  · simp only [Outcome.ok.injEq, Prod.mk.injEq] at h
    obtain ⟨rfl, rfl⟩ := h
    simp

theorem all_zero (l : Text) : l.all (· == '0') = true ↔ l = List.replicate l.length '0' := by
  rw [List.eq_replicate_iff]
  simp

theorem lexicalBool_snoc (front : Text) (last : Char) (b : Bool) :
    lexicalBool (front ++ [last]) = some b ↔
      (last = if b then '1' else '0') ∧ ((skipSign b front).all (· == '0') = true) := by
  unfold lexicalBool
  rw [List.getLast?_append]
  simp only [List.getLast?_singleton, Option.or_some, Option.some_or, List.dropLast_concat]
  by_cases h1 : last = '1'
  · subst h1
    cases b <;> simp
  · by_cases h0 : last = '0'
    · subst h0
      cases b <;> simp
    · cases b <;> simp [h1, h0]

theorem skipSign_other (b : Bool) (c : Char) (r : Text) (hp : c ≠ '+') (hm : c ≠ '-') : skipSign b (c :: r) = c :: r := by
  unfold skipSign
  split
  · rename_i heq; cases heq; exact absurd rfl hp
  · rename_i heq; cases heq; exact absurd rfl hm
  · rfl

theorem lexicalBool_iff (s : Text) (b : Bool) : lexicalBool s = some b ↔ BoolText s b := by
  rcases List.eq_nil_or_concat s with rfl | ⟨front, last, rfl⟩
  · constructor
    · intro h; cases h
    · rintro ⟨sign, z, h, _⟩
      have := congrArg List.length h
      simp at this
  · rw [List.concat_eq_append, lexicalBool_snoc]
    constructor
    · rintro ⟨h1, h2⟩
      cases front with
      | nil => exact ⟨[], 0, by simp [h1], Or.inl rfl⟩
      | cons c r =>
        by_cases hp : c = '+'
        · subst hp
          simp only [skipSign] at h2
          refine ⟨['+'], r.length, ?_, Or.inr (Or.inl rfl)⟩
          rw [← (all_zero r).1 h2, h1]; rfl
        · by_cases hm : c = '-'
          · subst hm
            cases b
            · simp only [skipSign, Bool.false_eq_true, if_false] at h2
              refine ⟨['-'], r.length, ?_, Or.inr (Or.inr ⟨rfl, rfl⟩)⟩
              rw [← (all_zero r).1 h2, h1]; rfl
            · simp [skipSign] at h2
          · rw [skipSign_other b c r hp hm] at h2
            refine ⟨[], (c :: r).length, ?_, Or.inl rfl⟩
            rw [List.nil_append, ← (all_zero (c :: r)).1 h2, h1]
    · rintro ⟨sign, z, h, hs⟩
      have h' := List.append_inj' h rfl
      obtain ⟨hf, hl⟩ := h'
      refine ⟨by simpa using hl, ?_⟩
      subst hf
      rcases hs with rfl | rfl | ⟨rfl, rfl⟩
      · cases z with
        | zero => rfl
        | succ z =>
          rw [List.replicate_succ, List.nil_append, skipSign_other b _ _ (by decide) (by decide)]
          simp
      · simp [skipSign]
      · simp [skipSign]

end Verif.Drv
