import Verif.Spec.HandleCycle

namespace Verif.Cyc
open Verif.Lay Verif.Rob
open Verif.M402 (Dbl)

theorem addHandle_limits (h : Handle) (k : Kind) : (h.addHandle k).limits = h.limits := by
  unfold Handle.addHandle; split <;> rfl

theorem registerAll_limits (h : Handle) : h.registerAll.limits = h.limits := by
  unfold Handle.registerAll; simp only [addHandle_limits]

theorem select_limits (h : Handle) (m : Mode) : (h.select m).1.limits = h.limits := by
  unfold Handle.select; split <;> rfl

theorem hstep_limits (s : HState) (e : HEv) : (hstep s e).1.h.limits = s.h.limits := by
  cases e with
  | register => exact registerAll_limits _
  | begin m => unfold hstep; dsimp only; repeat' split
               all_goals simp [select_limits]
  | finish a => unfold hstep; dsimp only; repeat' split
                all_goals simp [select_limits]
  | forward m => unfold hstep Handle.forwardForMode; dsimp only; split <;> rfl
  | drop b => rfl
  | write st => rfl

theorem run_append (conv) (s : St) (as bs : List Ev) :
    run conv s (as ++ bs) = ((run conv (run conv s as).1 bs).1, (run conv s as).2 ++ (run conv (run conv s as).1 bs).2) := by
  induction as generalizing s with
  | nil => simp [run]
  | cons e es ih => simp [run, ih]

/-- while the controller manager runs and limits are enabled, the commands are limited whenever they can be sent -/
structure LimInv (A : Kind → Dbl → Prop) (s : St) : Prop where
  cm : s.cm = true
  cmSt : LayerState.shutdown.toNat < s.cmSt.toNat
  lim : s.hs.h.limits = true
  mid : s.pc = .mid → ∀ k, A k (s.cmd k)
  seen : ∀ f, s.pc = .seen f → ∀ k, A k (s.cmd k)

theorem LimInv.step {A} (conv) {s : St} (h : LimInv A s) (e : Ev) (he : LimitsHold A e) :
    LimInv A (step conv s e).1 ∧ ∀ k v, Out.sent k v ∈ (step conv s e).2 → ∃ c, A k c ∧ v = conv k c := by
  obtain ⟨h1, h2, h3, h4, h5⟩ := h
  cases e <;> simp only [Cyc.step] <;> repeat' split
  all_goals (constructor; constructor)
  all_goals grind [LimitsHold, hstep_limits]

theorem LimInv.run {A} (conv) (es : List Ev) : ∀ {s : St}, LimInv A s → (∀ e ∈ es, LimitsHold A e) →
    ∀ k v, Out.sent k v ∈ (run conv s es).2 → ∃ c, A k c ∧ v = conv k c := by
  induction es with
  | nil => intro s _ _ k v h; simp [Cyc.run] at h
  | cons e es ih =>
    intro s h he k v hm
    have hs := h.step conv e (he e (by simp))
    simp only [Cyc.run, List.mem_append] at hm
    rcases hm with hm | hm
    · exact hs.2 k v hm
    · exact ih hs.1 (fun e' h' => he e' (by simp [h'])) k v hm

/-- after the limits were enforced nothing changes the commands before the next `act` or `begin` -/
theorem within_run (conv) (es : List Ev) : ∀ {s : St}, (∀ r, s.pc ≠ .upd r) → (∀ e ∈ es, WithinCycle e) →
    (run conv s es).1.cmd = s.cmd ∧ (∀ r, (run conv s es).1.pc ≠ .upd r) := by
  induction es with
  | nil => intro s h _; exact ⟨rfl, h⟩
  | cons e es ih =>
    intro s h he
    have h1 : (step conv s e).1.cmd = s.cmd ∧ ∀ r, (step conv s e).1.pc ≠ .upd r := by
      have := he e (by simp)
      cases e <;> simp only [Cyc.step] <;> repeat' split
      all_goals grind [WithinCycle]
    have h2 := ih h1.2 (fun e' h' => he e' (by simp [h']))
    exact ⟨by simp only [run]; rw [h2.1, h1.1], by simp only [run]; exact h2.2⟩

theorem leaves_run (conv) (k : Kind) (es : List Ev) : ∀ {s : St}, (∀ e ∈ es, LeavesCommand k e) →
    (run conv s es).1.cmd k = s.cmd k := by
  induction es with
  | nil => intro s _; rfl
  | cons e es ih =>
    intro s he
    have h1 : (step conv s e).1.cmd k = s.cmd k := by
      have := he e (by simp)
      cases e <;> simp only [Cyc.step] <;> repeat' split
      all_goals grind [LeavesCommand]
    have h2 := ih (s := (step conv s e).1) (fun e' h' => he e' (by simp [h']))
    simp only [run]; rw [h2, h1]

/-- the handle layer is not ready -/
structure QuietInv (s : St) : Prop where
  st : s.st ≠ .ready
  seen : ∀ f, s.pc ≠ .seen f

theorem QuietInv.step (conv) {s : St} (h : QuietInv s) (e : Ev) (he : NotReady e) :
    QuietInv (step conv s e).1 ∧ ∀ k v, Out.sent k v ∉ (step conv s e).2 := by
  obtain ⟨h1, h2⟩ := h
  cases e <;> simp only [Cyc.step] <;> repeat' split
  all_goals (constructor; constructor)
  all_goals grind [NotReady]

theorem QuietInv.run (conv) (es : List Ev) : ∀ {s : St}, QuietInv s → (∀ e ∈ es, NotReady e) →
    ∀ k v, Out.sent k v ∉ (run conv s es).2 := by
  induction es with
  | nil => intro s _ _ k v h; simp [Cyc.run] at h
  | cons e es ih =>
    intro s h he k v hm
    have hs := h.step conv e (he e (by simp))
    simp only [Cyc.run, List.mem_append] at hm
    rcases hm with hm | hm
    · exact hs.2 k v hm
    · exact ih hs.1 (fun e' h' => he e' (by simp [h'])) k v hm

/-- the request to restart the controllers is kept until the next update -/
theorem recover_run (conv) (es : List Ev) : ∀ {s : St}, s.cm = true → (∀ e ∈ es, NoUpdate e) →
    (run conv s es).1.cm = true ∧
    ((run conv s es).1.recover = true ↔ s.recover = true ∨ Ev.cmRecover ∈ es) := by
  induction es with
  | nil => intro s h _; simp [run, h]
  | cons e es ih =>
    intro s h he
    have h1 : (step conv s e).1.cm = true ∧
        ((step conv s e).1.recover = true ↔ s.recover = true ∨ e = .cmRecover) := by
      have := he e (by simp)
      cases e <;> simp only [Cyc.step] <;> repeat' split
      all_goals grind [NoUpdate]
    have h2 := ih h1.1 (fun e' h' => he e' (by simp [h']))
    refine ⟨h2.1, ?_⟩
    simp only [run]
    rw [h2.2, h1.2]
    simp only [List.mem_cons, or_assoc]
    grind

end Verif.Cyc
