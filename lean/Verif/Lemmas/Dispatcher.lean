import Verif.Spec.Dispatcher
import Mathlib.Data.List.Induction

set_option linter.unusedSimpArgs false
set_option linter.unusedSectionVars false
set_option linter.unusedDecidableInType false
namespace Verif.Disp
open Verif.Spec

variable {K ι : Type} [DecidableEq K] [DecidableEq ι]

theorem liveAfter_snoc (h : List (Op K ι)) (op : Op K ι) :
    liveAfter (h ++ [op]) = liveStep (liveAfter h) op := by
  simp [liveAfter, List.foldl_append]

theorem run_snoc (h : List (Op K ι)) (op : Op K ι) :
    Filtered.run (h ++ [op]) = (Filtered.run h).step op := by
  simp [Filtered.run, List.foldl_append]

theorem wf_prefix {h : List (Op K ι)} {op : Op K ι} (w : WellFormed (h ++ [op])) : WellFormed h := by
  intro pre o post e
  exact w pre o (post ++ [op]) (by simp [e])

theorem wf_last {h : List (Op K ι)} {op : Op K ι} (w : WellFormed (h ++ [op])) :
    OpOk (liveAfter h) op := w h op [] rfl

/-- addresses of the live listeners with a given guard -/
def withGuard (live : List (ι × Option K)) (g : Option K) : List ι :=
  (live.filter (fun x => x.2 = g)).map Prod.fst

theorem withGuard_append (a b : List (ι × Option K)) (g : Option K) :
    withGuard (a ++ b) g = withGuard a g ++ withGuard b g := by simp [withGuard]

theorem withGuard_single (l : ι) (g g' : Option K) :
    withGuard [(l, g)] g' = if g = g' then [l] else [] := by
  by_cases h : g = g' <;> simp [withGuard, h]

theorem withGuard_remove (live : List (ι × Option K)) (g : Option K) (l : ι) :
    withGuard (live.filter (fun x => x.1 ≠ l)) g = (withGuard live g).filter (· ≠ l) := by
  unfold withGuard
  induction live with
  | nil => rfl
  | cons x xs ih =>
    by_cases h1 : x.1 = l <;> by_cases h2 : x.2 = g <;> simp_all [List.filter_cons]

/-- live addresses are distinct -/
theorem live_nodup (h : List (Op K ι)) (w : WellFormed h) : ((liveAfter h).map Prod.fst).Nodup := by
  induction h using List.reverseRecOn with
  | nil => simp [liveAfter]
  | append_singleton h op ih =>
    have hw := wf_last w
    have ih := ih (wf_prefix w)
    rw [liveAfter_snoc]
    cases op with
    | create g l =>
      simp only [liveStep, List.map_append, List.map_cons, List.map_nil]
      rw [List.nodup_append]
      refine ⟨ih, by simp, ?_⟩
      intro a ha b hb
      simp at hb; subst hb
      rintro rfl
      simp at ha
      obtain ⟨g', hg'⟩ := ha
      exact hw g' hg'
    | destroy g l =>
      exact (List.Nodup.sublist (List.Sublist.map _ List.filter_sublist) ih)
    | dispatch k => exact ih

theorem mem_live_unique {h : List (Op K ι)} (w : WellFormed h) {l : ι} {g g' : Option K}
    (h1 : (l, g) ∈ liveAfter h) (h2 : (l, g') ∈ liveAfter h) : g = g' := by
  have nd := live_nodup h w
  generalize liveAfter h = L at *
  induction L with
  | nil => simp at h1
  | cons x xs ih =>
    simp only [List.map_cons, List.nodup_cons] at nd
    simp only [List.mem_cons] at h1 h2
    rcases h1 with h1 | h1 <;> rcases h2 with h2 | h2
    · rw [← h2] at h1; exact (Prod.mk.inj h1).2
    · subst h1; exact absurd (List.mem_map.2 ⟨_, h2, rfl⟩) nd.1
    · subst h2; exact absurd (List.mem_map.2 ⟨_, h1, rfl⟩) nd.1
    · exact ih h1 h2 nd.2

/-- the concrete dispatcher holds exactly the live listeners -/
theorem run_correct (h : List (Op K ι)) (w : WellFormed h) :
    (Filtered.run h).dispatcher.listeners = withGuard (liveAfter h) none ∧
    ∀ k, (((Filtered.run h).filtered k).getD ⟨[]⟩).listeners = withGuard (liveAfter h) (some k) := by
  induction h using List.reverseRecOn with
  | nil => exact ⟨rfl, fun k => rfl⟩
  | append_singleton h op ih =>
    have hw := wf_last w
    have w' := wf_prefix w
    obtain ⟨ih1, ih2⟩ := ih w'
    rw [run_snoc, liveAfter_snoc]
    cases op with
    | create g l =>
      simp only [liveStep]
      cases g with
      | none =>
        refine ⟨?_, fun k => ?_⟩
        · simp [Filtered.step, Filtered.createListener, Base.createListener, ih1, withGuard_append, withGuard_single]
        · simp only [Filtered.step, Filtered.createListener, withGuard_append, withGuard_single]
          rw [ih2]; simp
      | some key =>
        refine ⟨?_, fun k => ?_⟩
        · simp [Filtered.step, Filtered.createKeyed, ih1, withGuard_append, withGuard_single]
        · simp only [Filtered.step, Filtered.createKeyed, withGuard_append, withGuard_single]
          by_cases hk : k = key
          · subst hk
            simp [Base.createListener, ih2]
          · have : ¬ (some key = some k) := fun e => hk (Option.some.inj e).symm
            simp [hk, this, ih2]
    | destroy g l =>
      have other : ∀ g', g' ≠ g → (withGuard (liveAfter h) g').filter (· ≠ l) = withGuard (liveAfter h) g' := by
        intro g' hg'
        rw [List.filter_eq_self]
        intro a ha
        simp only [withGuard, List.mem_map, List.mem_filter, decide_eq_true_eq] at ha
        obtain ⟨⟨a', g''⟩, ⟨hm, rfl⟩, rfl⟩ := ha
        simp only [ne_eq, decide_eq_true_eq]
        rintro rfl
        exact hg' (mem_live_unique w' hm hw)
      simp only [Filtered.step, liveStep]
      cases g with
      | none =>
        refine ⟨?_, fun k => ?_⟩
        · simp only [Filtered.destroy, Base.remove, ih1]
          rw [withGuard_remove]
        · simp only [Filtered.destroy]
          rw [withGuard_remove, other _ (by simp), ih2]
      | some key =>
        refine ⟨?_, fun k => ?_⟩
        · simp only [Filtered.destroy]
          rw [withGuard_remove, other _ (by simp), ih1]
        · simp only [Filtered.destroy]
          rw [withGuard_remove]
          by_cases hk : k = key
          · subst hk
            rw [← ih2]
            simp only [if_true]
            cases (Filtered.run h).filtered k <;> simp [Base.remove]
          · rw [if_neg hk, ih2, other _ (fun e => hk (Option.some.inj e))]
    | dispatch k => exact ⟨ih1, ih2⟩

end Verif.Disp
