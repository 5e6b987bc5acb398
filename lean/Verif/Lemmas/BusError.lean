import Verif.Spec.BusError
import Verif.Lemmas.Driver
import Verif.Props.Filter

namespace Verif.BErr
open Verif Verif.Drv Verif.Spec.BErr

theorem hear_eq (s : Sys) (f : Frame) : s.hear f = if s.listening && f.isError then { s with last := f } else s := by
  have : (f.key == (Header.err 0#32).key) = f.isError := by
    rw [Bool.eq_iff_iff, beq_iff_eq]
    constructor
    · intro h
      exact (Props.C04_key_error (Header.err 0#32) f.toHeader rfl).1 h.symm
    · intro h
      exact (Props.C04_key_error f.toHeader (Header.err 0#32) h).2 rfl
  unfold Sys.hear
  rw [this]

/-- the error frame that will be kept when all frames waiting have been delivered -/
def Sys.pend (s : Sys) : Frame := ((s.strand.filter (·.isError)).getLast?).getD s.last

theorem hear_strand (s : Sys) (f : Frame) : (s.hear f).strand = s.strand ∧ (s.hear f).d = s.d ∧ (s.hear f).listening = s.listening := by
  rw [hear_eq]
  split <;> exact ⟨rfl, rfl, rfl⟩

theorem getLast_cons_getD {α : Type} (x : α) (l : List α) (d : α) : ((x :: l).getLast?).getD d = (l.getLast?).getD x := by
  cases l with
  | nil => rfl
  | cons y l => rw [List.getLast?_cons_cons]; simp [List.getLast?_cons]

theorem deliver_pend (s : Sys) (h : s.listening = true) : (s.step .deliver).pend = s.pend ∧ (s.step .deliver).listening = true := by
  simp only [Sys.step]
  cases hs : s.strand with
  | nil => exact ⟨rfl, h⟩
  | cons f fs =>
    simp only [hear_eq, h, Bool.true_and]
    cases hf : f.isError with
    | true =>
      simp only [if_true]
      refine ⟨?_, trivial⟩
      simp only [Sys.pend, hs, List.filter_cons, hf, if_true]
      rw [getLast_cons_getD]
    | false =>
      simp only [Bool.false_eq_true, if_false]
      refine ⟨?_, trivial⟩
      simp [Sys.pend, hs, hf]

theorem set_err (d : Driver) (e : Int) : (d.setErrorCode e).state.internalError = d.state.internalError ∧ (d.setErrorCode e).input = d.input := by
  unfold Driver.setErrorCode; split <;> exact ⟨rfl, rfl⟩
theorem set_drv (d : Driver) (x : DriverState) : (d.setDriverState x).state.internalError = d.state.internalError ∧ (d.setDriverState x).input = d.input := by
  unfold Driver.setDriverState; split <;> exact ⟨rfl, rfl⟩
theorem set_not (d : Driver) : d.setNotReady.state.internalError = d.state.internalError ∧ d.setNotReady.input = d.input := set_drv _ _
theorem set_int (d : Driver) (e : BitVec 32) : (d.setInternalError e).state.internalError = e ∧ (d.setInternalError e).input = d.input := by
  unfold Driver.setInternalError
  by_cases h : d.state.internalError = e
  · simp [h]
  · simp [h]

theorem err_iff (k : KFrame) : k.canId &&& CAN_ERR_FLAG ≠ 0#32 ↔ IsErrorFrame k := by
  rw [ERR_FLAG_eq, and_twoPow_ne _ _ (by omega)]
  rfl

theorem fatal_and (mask : BitVec 32) (k : KFrame) (h : Fatal mask k) : k.canId &&& mask ≠ 0#32 := by
  obtain ⟨i, hi, h1, h2⟩ := h
  intro h0
  have := congrArg (fun b => b.getLsbD i) h0
  simp only [BitVec.getLsbD_and, h1, h2] at this
  simp at this

/-- what a read frame is for the listeners -/
theorem input_of (d : Driver) (k : KFrame) : (d.readOk k).input = fromKernel d.input k := by
  unfold Driver.readOk
  simp only
  split
  · exact (set_not _).2.trans (set_int _ _).2
  · rfl

theorem fromKernel_err (old : Frame) (k : KFrame) : (fromKernel old k).isError = true ↔ IsErrorFrame k := by
  unfold fromKernel
  by_cases h : k.canId &&& CAN_ERR_FLAG ≠ 0#32
  · simp only [if_pos h, true_iff]
    exact (err_iff k).1 h
  · simp only [if_neg h]
    simp only [Bool.false_eq_true, false_iff]
    exact fun h' => h ((err_iff k).2 h')

theorem fromKernel_dlc (old : Frame) (k : KFrame) : (fromKernel old k).dlc = k.dlc := by
  unfold fromKernel
  split <;> rfl

theorem fromKernel_bytes (old : Frame) (k : KFrame) (h : k.dlc.toNat ≤ 8) : (fromKernel old k).data.toList.take (fromKernel old k).dlc.toNat = payload k := by
  rw [fromKernel_dlc]
  unfold payload
  apply List.ext_getElem
  · simp
  · intro i h1 h2
    simp only [List.length_take, Vector.length_toList] at h1
    simp only [List.getElem_take]
    have hi : i < k.dlc.toNat := by omega
    have hd : (fromKernel old k).data = Vector.ofFn fun i : Fin 8 => if i.val < k.dlc.toNat then k.data[i] else old.data[i] := by
      unfold fromKernel; split <;> rfl
    simp only [Vector.getElem_toList, hd, Vector.getElem_ofFn, hi, if_true]
    rfl

theorem fromKernel_id (old : Frame) (k : KFrame) (h : IsErrorFrame k) : ((fromKernel old k).id.setWidth 32).toNat = k.canId.toNat % 2 ^ 29 := by
  unfold fromKernel
  rw [if_pos ((err_iff k).2 h)]
  simp only [BitVec.toNat_setWidth, BitVec.toNat_and, CAN_EFF_MASK]
  have : k.canId.toNat &&& (0x1FFFFFFF#32).toNat = k.canId.toNat % 2 ^ 29 := Nat.and_two_pow_sub_one_eq_mod _ 29
  rw [this]
  omega

/-- what a step keeps while nothing disturbs -/
theorem calm_step (s : Sys) (e : Ev) (hc : Calm e) (hl : s.listening = true) :
    (s.step e).pend = s.pend ∧ (s.step e).listening = true ∧ (s.step e).d.state.internalError = s.d.state.internalError := by
  cases e with
  | listen => exact ⟨rfl, rfl, rfl⟩
  | unlisten => exact absurd hc id
  | deliver =>
    obtain ⟨a, b⟩ := deliver_pend s hl
    refine ⟨a, b, ?_⟩
    simp only [Sys.step]
    split
    · rw [(hear_strand _ _).2.1]
    · rfl
  | op o =>
    cases o with
    | init _ _ _ _ _ => exact absurd hc id
    | readOk k =>
      have hne : ¬ IsErrorFrame k := hc
      have hi := input_of s.d k
      simp only [Sys.step, Driver.step]
      refine ⟨?_, hl, ?_⟩
      · have hf : (s.d.readOk k).input.isError = false := by
          rw [hi]
          cases h : (fromKernel s.d.input k).isError with
          | false => rfl
          | true => exact absurd ((fromKernel_err _ _).1 h) hne
        simp [Sys.pend, List.filter_append, hf]
      · unfold Driver.readOk
        simp only
        rw [if_neg (fun h => hne ((err_iff k).1 h.1))]
    | runBegin =>
      refine ⟨by simp [Sys.step, Driver.step, Sys.pend], hl, ?_⟩
      simp only [Sys.step, Driver.step, Driver.runBegin]
      split
      · exact (set_drv _ _).1.trans (set_not _).1
      · exact (set_not _).1
    | runEnd ec => exact ⟨by simp [Sys.step, Driver.step, Sys.pend], hl, (set_not _).1.trans (set_err _ _).1⟩
    | readError x => exact ⟨by simp [Sys.step, Driver.step, Sys.pend], hl, (set_not _).1.trans (set_err _ _).1⟩
    | shutdown => exact ⟨by simp [Sys.step, Driver.step, Sys.pend], hl, rfl⟩
    | send f ec =>
      simp only [Sys.step, Driver.step, Driver.send]
      split
      · rename_i d hd
        split at hd
        · rename_i x d' he
          cases hd
          split at he
          · split at he
            · split at he
              · cases he
                exact ⟨by simp [Sys.pend], hl, (set_not _).1.trans (set_err _ _).1⟩
              · cases he
                exact ⟨by simp [Sys.pend], hl, rfl⟩
            · cases he
            · cases he
          · cases he
            exact ⟨by simp [Sys.pend], hl, rfl⟩
        · cases hd
        · cases hd
      · exact ⟨rfl, hl, rfl⟩

theorem calm_run (es : List Ev) : ∀ s : Sys, (∀ e ∈ es, Calm e) → s.listening = true →
    (s.run es).pend = s.pend ∧ (s.run es).listening = true ∧ (s.run es).d.state.internalError = s.d.state.internalError := by
  induction es with
  | nil => intro s _ hl; exact ⟨rfl, hl, rfl⟩
  | cons e es ih =>
    intro s hc hl
    obtain ⟨a, b, c⟩ := calm_step s e (hc e (by simp)) hl
    obtain ⟨a', b', c'⟩ := ih (s.step e) (fun x hx => hc x (List.mem_cons_of_mem _ hx)) b
    exact ⟨a'.trans a, b', c'.trans c⟩

/-- where a frame comes from: from the constructor, or from an error frame that was read -/
def From (R : KFrame → Prop) (f : Frame) : Prop := ∃ k, R k ∧ f.dlc = k.dlc ∧ (k.dlc.toNat ≤ 8 → f.data.toList.take f.dlc.toNat = payload k) ∧ (f.isError = true ↔ IsErrorFrame k)

/-- what is known of everything in the system, if `R` holds for all frames that were read -/
structure Inv (R : KFrame → Prop) (junk : Vector Byte 8) (s : Sys) : Prop where
  strand : ∀ f ∈ s.strand, From R f
  last : s.last = Frame.ofHeader junk Header.default' ∨ (From R s.last ∧ s.last.isError = true)
  int : s.d.state.internalError = 0 ∨ ∃ k, R k ∧ IsErrorFrame k ∧ s.d.state.internalError.toNat = k.canId.toNat % 2 ^ 29

theorem step_inv (R : KFrame → Prop) (junk : Vector Byte 8) (s : Sys) (e : Ev) (h : Inv R junk s) (hr : ∀ k, e = .op (.readOk k) → R k) : Inv R junk (s.step e) := by
  cases e with
  | listen => exact ⟨h.strand, h.last, h.int⟩
  | unlisten => exact ⟨h.strand, h.last, h.int⟩
  | deliver =>
    simp only [Sys.step]
    cases hs : s.strand with
    | nil => exact h
    | cons f fs =>
      have h1 := h.strand
      rw [hs] at h1
      have h2 : ∀ g ∈ fs, From R g := fun g hg => h1 g (List.mem_cons_of_mem _ hg)
      simp only [hear_eq]
      split
      · rename_i hc
        simp only [Bool.and_eq_true] at hc
        exact ⟨h2, Or.inr ⟨h1 f (by simp), hc.2⟩, h.int⟩
      · exact ⟨h2, h.last, h.int⟩
  | op o =>
    have keep : ∀ d : Driver, d.state.internalError = s.d.state.internalError → Inv R junk { s with d := d } := fun d hd => ⟨h.strand, h.last, by rw [show ({ s with d := d } : Sys).d = d from rfl, hd]; exact h.int⟩
    cases o with
    | init dev lb em fm sys =>
      simp only [Sys.step, Driver.step, Driver.init]
      split
      · rename_i d hd
        simp only [List.append_nil]
        split at hd
        · rename_i x d' he
          cases hd
          split at he
          · split at he
            · cases he
            · split at he
              · cases he
                exact keep _ (set_err _ _).1
              · cases he
                refine ⟨h.strand, h.last, Or.inl ?_⟩
                exact (set_drv _ _).1.trans (set_int _ _).1
          · cases he
            exact h
        · cases hd
        · cases hd
      · exact h
    | readOk k =>
      have hk := hr k rfl
      simp only [Sys.step, Driver.step]
      refine ⟨?_, h.last, ?_⟩
      · intro f hf
        rcases List.mem_append.1 hf with hf | hf
        · exact h.strand f hf
        · simp only [List.mem_singleton] at hf
          subst hf
          rw [input_of]
          exact ⟨k, hk, fromKernel_dlc _ _, fromKernel_bytes _ _, fromKernel_err _ _⟩
      · unfold Driver.readOk
        simp only
        split
        · rename_i hc
          right
          refine ⟨k, hk, (err_iff k).1 hc.1, ?_⟩
          rw [(set_not _).1, (set_int _ _).1]
          exact fromKernel_id _ _ ((err_iff k).1 hc.1)
        · exact h.int
    | runBegin =>
      simp only [Sys.step, Driver.step, Driver.runBegin, List.append_nil]
      split
      · exact keep _ ((set_drv _ _).1.trans (set_not _).1)
      · exact keep _ (set_not _).1
    | runEnd ec =>
      simp only [Sys.step, Driver.step, List.append_nil]
      exact keep _ ((set_not _).1.trans (set_err _ _).1)
    | readError x =>
      simp only [Sys.step, Driver.step, List.append_nil]
      exact keep _ ((set_not _).1.trans (set_err _ _).1)
    | shutdown =>
      simp only [Sys.step, Driver.step, List.append_nil]
      exact keep _ rfl
    | send f ec =>
      simp only [Sys.step, Driver.step, Driver.send]
      split
      · rename_i d hd
        simp only [List.append_nil]
        split at hd
        · rename_i x d' he
          cases hd
          split at he
          · split at he
            · split at he
              · cases he
                exact keep _ ((set_not _).1.trans (set_err _ _).1)
              · cases he
                exact keep _ rfl
            · cases he
            · cases he
          · cases he
            exact keep _ rfl
        · cases hd
        · cases hd
      · exact h

theorem run_inv (R : KFrame → Prop) (junk : Vector Byte 8) (es : List Ev) : ∀ s, Inv R junk s → (∀ k, Ev.op (.readOk k) ∈ es → R k) → Inv R junk (s.run es) := by
  induction es with
  | nil => intro s h _; exact h
  | cons e es ih =>
    intro s h hr
    exact ih _ (step_inv R junk s e h (fun k hk => hr k (by rw [hk]; simp))) (fun k hk => hr k (List.mem_cons_of_mem _ hk))

theorem fresh_inv (R : KFrame → Prop) (junk : Vector Byte 8) : Inv R junk (Sys.fresh junk) := ⟨fun _ h => (nomatch h), Or.inl rfl, Or.inl rfl⟩

end Verif.BErr
