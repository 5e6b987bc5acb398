import Verif.Lemmas.Dispatcher

/-!
# C09: dispatching
-/

namespace Verif.Props
open Verif.Disp Verif.Spec

variable {K ι : Type} [DecidableEq K] [DecidableEq ι]

/-- C09.  After any history, dispatching `key` calls, in this order: the live listeners created for `key` in creation order,
then the live listeners created for all messages in creation order – and nobody else. -/
theorem C09_dispatch_calls (h : List (Op K ι)) (w : WellFormed h) (key : K) :
    (Filtered.run h).dispatch key =
      ((liveAfter h).filter (fun x => x.2 = some key)).map Prod.fst ++
      ((liveAfter h).filter (fun x => x.2 = none)).map Prod.fst := by
  obtain ⟨h1, h2⟩ := run_correct h w
  have e : ∀ b : Base ι, b.dispatchNolock none = b.listeners := by
    intro b; simp [Base.dispatchNolock]
  unfold Filtered.dispatch
  rw [e, h1]
  have h2 := h2 key
  cases hf : (Filtered.run h).filtered key with
  | none => rw [hf] at h2; simp at h2; simp only [withGuard] at *; rw [← h2]
  | some b =>
    rw [hf] at h2; simp only [Option.getD_some] at h2; simp only [withGuard] at *; rw [← h2, e]

/-- a general listener and two for a key; creation order within each kind -/
example : WellFormed ([.create none 11, .create (some 1) 10, .create (some 1) 13] : List (Op Nat Nat)) ∧
    (Filtered.run ([.create none 11, .create (some 1) 10, .create (some 1) 13] : List (Op Nat Nat))).dispatch 1 = [10, 13, 11] := by
  constructor
  · intro pre op post e
    match pre, e with
    | [], e => cases e; simp [liveAfter, OpOk]
    | [_], e => cases e; simp [liveAfter, liveStep, OpOk]
    | [_, _], e => cases e; simp [liveAfter, liveStep, OpOk]
    | _ :: _ :: _ :: _, e => simp at e
  · decide

/-- C09.  Each call happens exactly once, and a listener is called exactly if it is alive and was created for this key
or for all messages. -/
theorem C09_exactly_once (h : List (Op K ι)) (w : WellFormed h) (key : K) :
    ((Filtered.run h).dispatch key).Nodup ∧
    ∀ l, l ∈ (Filtered.run h).dispatch key ↔ (l, some key) ∈ liveAfter h ∨ (l, none) ∈ liveAfter h := by
  rw [C09_dispatch_calls h w key]
  have nd := live_nodup h w
  constructor
  · rw [List.nodup_append]
    refine ⟨List.Nodup.sublist (List.Sublist.map _ List.filter_sublist) nd,
      List.Nodup.sublist (List.Sublist.map _ List.filter_sublist) nd, ?_⟩
    intro a ha b hb
    rintro rfl
    simp only [List.mem_map, List.mem_filter, decide_eq_true_eq] at ha hb
    obtain ⟨⟨a1, g1⟩, ⟨m1, rfl⟩, rfl⟩ := ha
    obtain ⟨⟨a2, g2⟩, ⟨m2, rfl⟩, e⟩ := hb
    simp only at e; subst e
    exact absurd (mem_live_unique w m1 m2) (by simp)
  · intro l
    simp only [List.mem_append, List.mem_map, List.mem_filter, decide_eq_true_eq]
    constructor
    · rintro (⟨⟨a, g⟩, ⟨m, rfl⟩, rfl⟩ | ⟨⟨a, g⟩, ⟨m, rfl⟩, rfl⟩)
      · exact .inl m
      · exact .inr m
    · rintro (m | m)
      · exact .inl ⟨_, ⟨m, rfl⟩, rfl⟩
      · exact .inr ⟨_, ⟨m, rfl⟩, rfl⟩

/-- a listener of another key is not called -/
example : WellFormed ([.create (some 2) 10, .create none 11] : List (Op Nat Nat)) ∧
    (Filtered.run ([.create (some 2) 10, .create none 11] : List (Op Nat Nat))).dispatch 1 = [11] := by
  constructor
  · intro pre op post e
    match pre, e with
    | [], e => cases e; simp [liveAfter, OpOk]
    | [_], e => cases e; simp [liveAfter, liveStep, OpOk]
    | _ :: _ :: _, e => simp at e
  · decide

/-- C09.  A destroyed listener is not alive any more, whatever follows that does not create it anew. -/
theorem C09_destroyed_not_called (h post : List (Op K ι)) (g : Option K) (l : ι) (key : K)
    (w : WellFormed (h ++ .destroy g l :: post))
    (hp : ∀ g', Op.create g' l ∉ post) :
    l ∉ (Filtered.run (h ++ .destroy g l :: post)).dispatch key := by
  have key' : ∀ p : List (Op K ι), (∀ g', Op.create g' l ∉ p) →
      ∀ g', (l, g') ∉ liveAfter (h ++ .destroy g l :: p) := by
    intro p
    induction p using List.reverseRecOn with
    | nil =>
      intro _ g'
      rw [liveAfter_snoc]
      simp [liveStep]
    | append_singleton p op ih =>
      intro hp g'
      have ih := ih (fun g' hm => hp g' (by simp [hm])) 
      rw [show h ++ Op.destroy g l :: (p ++ [op]) = (h ++ Op.destroy g l :: p) ++ [op] by simp, liveAfter_snoc]
      cases op with
      | create g2 l2 =>
        simp only [liveStep, List.mem_append, List.mem_singleton, Prod.mk.injEq, not_or, not_and]
        refine ⟨ih g', ?_⟩
        rintro rfl
        exact absurd (by simp) (hp g2)
      | destroy g2 l2 =>
        intro hm
        exact ih g' (List.mem_filter.1 hm).1
      | dispatch k => exact ih g'
  rw [(C09_exactly_once _ w key).2 l]
  rintro (m | m)
  · exact key' post hp _ m
  · exact key' post hp _ m

/-- a history with two keys, a general listener and a destruction meets the hypothesis -/
example : WellFormed ([.create (some 1) 10, .create none 11, .create (some 2) 12, .create (some 1) 13,
    .destroy (some 1) 10, .dispatch 1] : List (Op Nat Nat)) ∧
    (Filtered.run ([.create (some 1) 10, .create none 11, .create (some 2) 12, .create (some 1) 13,
    .destroy (some 1) 10, .dispatch 1] : List (Op Nat Nat))).dispatch 1 = [13, 11] := by
  constructor
  · intro pre op post e
    match pre, e with
    | [], e => cases e; simp [liveAfter, OpOk]
    | [_], e => cases e; simp [liveAfter, liveStep, OpOk]
    | [_, _], e => cases e; simp [liveAfter, liveStep, OpOk]
    | [_, _, _], e => cases e; simp [liveAfter, liveStep, OpOk]
    | [_, _, _, _], e => cases e; simp [liveAfter, liveStep, OpOk]
    | [_, _, _, _, _], e => cases e; trivial
    | _ :: _ :: _ :: _ :: _ :: _ :: _, e => simp at e
  · decide

/-- `dispatch_filtered` calls every live listener except the given one (used by the bus, see C10). -/
theorem C09_dispatch_filtered (h : List (Op K ι)) (w : WellFormed h) (without : ι) :
    (Filtered.run h).dispatchFiltered (some without) =
      (((liveAfter h).filter (fun x => x.2 = none)).map Prod.fst).filter (· ≠ without) := by
  obtain ⟨h1, _⟩ := run_correct h w
  simp only [withGuard] at h1
  unfold Filtered.dispatchFiltered Base.dispatchNolock
  rw [h1]
  apply List.filter_congr
  intro x _
  simp only [ne_eq, Option.some.injEq, decide_eq_decide]
  exact ⟨fun h e => h e.symm, fun h e => h e.symm⟩

example : WellFormed ([.create none 10, .create none 11, .create (some 1) 12] : List (Op Nat Nat)) ∧
    (Filtered.run ([.create none 10, .create none 11, .create (some 1) 12] : List (Op Nat Nat))).dispatchFiltered (some 10) = [11] := by
  constructor
  · intro pre op post e
    match pre, e with
    | [], e => cases e; simp [liveAfter, OpOk]
    | [_], e => cases e; simp [liveAfter, liveStep, OpOk]
    | [_, _], e => cases e; simp [liveAfter, liveStep, OpOk]
    | _ :: _ :: _ :: _, e => simp at e
  · decide

end Verif.Props
