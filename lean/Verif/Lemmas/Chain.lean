import Verif.Spec.Chain
import Verif.Props.Layer

set_option linter.unusedSimpArgs false
set_option linter.unusedVariables false

namespace Verif.Chain
open Verif Verif.Lay Verif.Spec Verif.Props

variable {σ : Type}

theorem bounded_atMost (s : Status) : s.boundedWarn = true ↔ AtMostWarn s := by
  unfold Status.boundedWarn AtMostWarn
  cases s.sev <;> simp [Sev.toNat]

/-- the tree of a chain between calls -/
def Good (s : LayerState) (t : Tree σ) : Prop := IsGroup t ∧ Settled s ∧ Uniform s t

theorem good_state {s : LayerState} {t : Tree σ} (h : Good s t) : t.state = s := uniform_state _ _ h.2.2

theorem good_call {s : LayerState} {t : Tree σ} (h : Good s t) (m : Method) (e : Env σ) :
    Good (nextGroup s m (t.call m e).2.status.boundedWarn) (t.call m e).1 :=
  ⟨isGroup_call t h.1 m e, nextGroup_settled s h.2.1 m _,
    C19_group_life_cycle t h.1 s h.2.1 h.2.2 m e _ (bounded_atMost _)⟩

theorem good_init {t : Tree σ} (h : Good .off t) (e : Env σ) :
    Good (if (t.init e).2.status.boundedWarn then .ready else .off) (t.init e).1 := good_call h .init e
theorem good_diag {s : LayerState} {t : Tree σ} (h : Good s t) (e : Env σ) : Good s (t.diag e).1 := by
  have := good_call h .diag e
  have hs := h.2.1
  rcases hs with rfl | rfl | rfl <;> exact this
theorem good_shutdown {s : LayerState} {t : Tree σ} (h : Good s t) (e : Env σ) : Good .off (t.shutdown e).1 := by
  have := good_call h .shutdown e
  have hs := h.2.1
  rcases hs with rfl | rfl | rfl <;> exact this
theorem good_halt {s : LayerState} {t : Tree σ} (h : Good s t) (e : Env σ) :
    Good (if s = .ready then .error else s) (t.halt e).1 := by
  have := good_call h .halt e
  have hs := h.2.1
  rcases hs with rfl | rfl | rfl <;> exact this
theorem good_recover {s : LayerState} {t : Tree σ} (h : Good s t) (e : Env σ) :
    Good (if s = .error ∧ (t.recover e).2.status.boundedWarn then .ready else s) (t.recover e).1 := by
  have := good_call h .recover e
  have hs := h.2.1
  rcases hs with rfl | rfl | rfl
  · exact this
  · change Good (if (t.recover e).2.status.boundedWarn then _ else _) _ at this
    simp only [true_and]
    exact this
  · exact this
theorem good_read {s : LayerState} {t : Tree σ} (h : Good s t) (e : Env σ) :
    Good (if s = .ready ∧ (t.read e).2.status.boundedWarn = false then .error else s) (t.read e).1 := by
  have := good_call h .read e
  have hs := h.2.1
  rcases hs with rfl | rfl | rfl
  · exact this
  · exact this
  · change Good (if (t.read e).2.status.boundedWarn then _ else _) _ at this
    cases hb : (t.read e).2.status.boundedWarn <;> rw [hb] at this <;> exact this
theorem good_write {s : LayerState} {t : Tree σ} (h : Good s t) (e : Env σ) :
    Good (if s = .ready ∧ (t.write e).2.status.boundedWarn = false then .error else s) (t.write e).1 := by
  have := good_call h .write e
  have hs := h.2.1
  rcases hs with rfl | rfl | rfl
  · exact this
  · exact this
  · change Good (if (t.write e).2.status.boundedWarn then _ else _) _ at this
    cases hb : (t.write e).2.status.boundedWarn <;> rw [hb] at this <;> exact this

/-! status -/

theorem call_bounded_diag (t : Tree σ) (e : Env σ) (h : e.status.boundedWarn = false) : (t.diag e).2.status.boundedWarn = false := by
  have h1 : 1 < sv e := (not_bounded_iff e).1 (by simp [h])
  have := Nat.lt_of_lt_of_le h1 (diag_mono t e)
  have := (not_bounded_iff _).2 this
  simpa using this

/-! the effect of each service on the tree -/

theorem stop_tree (c : Chain σ) : c.stopThread.tree = c.tree := by
  unfold Chain.stopThread
  dsimp only
  split
  · split
    · rfl
    · split <;> rfl
    · rfl
  · rfl

theorem stop_timer (c : Chain σ) : c.stopThread.timer = false := by
  unfold Chain.stopThread
  dsimp only
  split
  · split
    · rfl
    · split <;> rfl
    · rfl
  · rfl

theorem shutdownLayer_good {s : LayerState} (c : Chain σ) (e : Env σ) (h : Good s c.tree) : Good .off (c.shutdownLayer e).1.tree := by
  unfold Chain.shutdownLayer
  dsimp only
  split
  · exact good_shutdown h e
  · rename_i hs
    have hs : c.tree.state = .off := Decidable.not_not.1 hs
    rw [good_state h] at hs
    subst hs
    exact h

theorem initLayer_tree (c : Chain σ) (e : Env σ) : (c.initLayer e).1.tree = (c.tree.init e).1 ∧ (c.initLayer e).2 = (c.tree.init e).2 := by
  unfold Chain.initLayer
  dsimp only
  split <;> exact ⟨rfl, rfl⟩

theorem newThread_tree (c : Chain σ) (b : Bool) : (c.newThread b).tree = c.tree := rfl

theorem handleInit_off (c : Chain σ) (e : Env σ) (b : Bool) (h : Good .off c.tree) :
    ((c.tree.init (start e)).2.status.boundedWarn = true → Good .ready (c.handleInit e b).1.tree ∧
      (c.handleInit e b).2.1.status = (c.tree.init (start e)).2.status ∧
      (c.handleInit e b).2.2 = ⟨decide ((c.tree.init (start e)).2.status.sev = .ok), (c.tree.init (start e)).2.status.reason⟩) ∧
    ((c.tree.init (start e)).2.status.boundedWarn = false → Good .off (c.handleInit e b).1.tree ∧
      (c.handleInit e b).2.2.success = false) := by
  have hst : ¬ c.tree.state.toNat > LayerState.off.toNat := by rw [good_state h]; decide
  have hi := good_init h (start e)
  obtain ⟨ht, he⟩ := initLayer_tree (c.newThread b) (start e)
  rw [newThread_tree] at ht he
  unfold Chain.handleInit
  rw [if_neg hst]
  dsimp only
  rw [he]
  constructor
  · intro hb
    rw [hb] at hi
    rw [if_neg (by simp [hb])]
    refine ⟨?_, rfl, rfl⟩
    show Good .ready ((c.newThread b).initLayer (start e)).1.tree
    rw [ht]; exact hi
  · intro hb
    rw [hb] at hi
    rw [if_pos (by simp [hb])]
    refine ⟨?_, rfl⟩
    apply shutdownLayer_good (s := .off)
    show Good .off (((c.newThread b).initLayer (start e)).1.tree.diag _).1
    rw [ht]
    exact good_diag hi _

theorem handleInit_on (c : Chain σ) (e : Env σ) (b : Bool) (h : c.tree.state ≠ .off) :
    c.handleInit e b = (c, e, ⟨true, "already initialized".toList⟩) := by
  have hst : c.tree.state.toNat > LayerState.off.toNat := by
    revert h
    cases c.tree.state <;> simp [LayerState.toNat]
  unfold Chain.handleInit
  rw [if_pos hst]

theorem handleInit_fail_eq (c : Chain σ) (e : Env σ) (b : Bool) (h : Good .off c.tree)
    (hb : (c.tree.init (start e)).2.status.boundedWarn = false) :
    (c.handleInit e b).1 = { (c.newThread b).stopThread with tree := ((c.tree.init (start e)).1.diag (c.tree.init (start e)).2).1 } := by
  have hst : ¬ c.tree.state.toNat > LayerState.off.toNat := by rw [good_state h]; decide
  have hi := good_init h (start e)
  rw [hb] at hi
  replace hi : Good .off (c.tree.init (start e)).1 := hi
  have hil : (c.newThread b).initLayer (start e) = ({ (c.newThread b).stopThread with tree := (c.tree.init (start e)).1 }, (c.tree.init (start e)).2) := by
    unfold Chain.initLayer
    dsimp only
    rw [newThread_tree, if_pos (good_state hi)]
  unfold Chain.handleInit
  rw [if_neg hst, hil]
  dsimp only
  rw [if_pos (by simp [hb])]
  unfold Chain.shutdownLayer
  dsimp only
  rw [if_neg (by simpa using good_state (good_diag hi (c.tree.init (start e)).2))]

theorem resetAll_mono (ok : Bool) (fs : List (Resetter σ)) (e : Env σ) : sv e ≤ sv (resetAll ok fs e).1 := by
  induction fs generalizing e with
  | nil => exact Nat.le_refl _
  | cons f fs ih =>
    have hm : sv e ≤ sv ({ e with world := (f e.world e.status).1, status := (f e.world e.status).2.1.foldl Status.report e.status } : Env σ) :=
      reports_mono _ _
    unfold resetAll
    dsimp only
    split
    · exact hm
    · split
      · exact hm
      · exact Nat.le_trans hm (ih _)

/-- complete and without exception: all resets in order -/
theorem resetAll_done (ok : Bool) (fs : List (Resetter σ)) (e : Env σ) (h1 : (resetAll ok fs e).2.1 = none) (h2 : (resetAll ok fs e).2.2 = true) :
    AllReset fs e (resetAll ok fs e).1 := by
  induction fs generalizing e with
  | nil => exact .nil e
  | cons f fs ih =>
    revert h1 h2
    unfold resetAll
    dsimp only
    cases hx : (f e.world e.status).2.2 with
    | some t => simp
    | none =>
      dsimp only
      split
      · simp
      · intro h1 h2
        refine .cons f fs e (f e.world e.status).1 (f e.world e.status).2.1 _ ?_ (ih _ h1 h2)
        rw [← hx]

/-- stopped early without exception: the status is worse than a warning -/
theorem resetAll_stopped (ok : Bool) (fs : List (Resetter σ)) (e : Env σ) (h1 : (resetAll ok fs e).2.1 = none) (h2 : (resetAll ok fs e).2.2 = false) :
    (resetAll ok fs e).1.status.boundedWarn = false := by
  induction fs generalizing e with
  | nil => simp [resetAll] at h2
  | cons f fs ih =>
    revert h1 h2
    unfold resetAll
    dsimp only
    cases hx : (f e.world e.status).2.2 with
    | some t => simp
    | none =>
      dsimp only
      split
      · rename_i hb
        simp only [Bool.and_eq_true, Bool.not_eq_true'] at hb
        intro _ _; exact hb.2
      · intro h1 h2
        exact ih _ h1 h2

theorem resetErrors_stopped (c : Chain σ) (e : Env σ) (h1 : (c.resetErrors e).2.1 = none) (h2 : (c.resetErrors e).2.2 = false) :
    (c.resetErrors e).1.status.boundedWarn = false := by
  unfold Chain.resetErrors at *
  split at h2
  · rename_i hr; rw [if_pos hr] at h1 ⊢; exact resetAll_stopped _ _ _ h1 h2
  · cases h2

theorem handleRecover_good {s : LayerState} (c : Chain σ) (e : Env σ) (h : Good s c.tree) :
    ∃ s', Good s' (c.handleRecover e).1.tree ∧ (s = .off → s' = .off) ∧ (s = .ready → s' = .ready) ∧
      (s = .error → s' = if (c.handleRecover e).2.2.success then .ready else .error) ∧
      (c.handleRecover e).1 = { c with tree := (c.handleRecover e).1.tree } ∧
      (s = .off → c.handleRecover e = (c, e, ⟨false, "not running".toList⟩)) := by
  rcases h.2.1 with rfl | rfl | rfl
  · have hst : ¬ c.tree.state.toNat > LayerState.init.toNat := by rw [good_state h]; decide
    have heq : c.handleRecover e = (c, e, ⟨false, "not running".toList⟩) := by unfold Chain.handleRecover; rw [if_neg hst]
    rw [heq]
    exact ⟨.off, h, fun _ => rfl, (fun hx => by cases hx), (fun hx => by cases hx), rfl, fun _ => rfl⟩
  all_goals
    have hst : c.tree.state.toNat > LayerState.init.toNat := by rw [good_state h]; decide
    have hstop := resetErrors_stopped c (start e)
    unfold Chain.handleRecover
    rw [if_pos hst]
    revert hstop
    generalize c.resetErrors (start e) = q
    obtain ⟨e1, o, b⟩ := q
    intro hstop
    cases o with
    | some t => exact ⟨_, h, (fun hx => by cases hx), (fun hx => by first | rfl | cases hx), (fun hx => by simp at hx ⊢), by first | rfl | trivial, fun hx => by cases hx⟩
    | none =>
      dsimp only
      cases b with
      | false =>
        have hb : e1.status.boundedWarn = false := hstop rfl rfl
        simp only [Bool.false_eq_true, if_false]
        rw [if_pos (by simp [hb])]
        have hd := call_bounded_diag c.tree _ hb
        refine ⟨_, good_diag h _, (fun hx => by cases hx), (fun hx => by first | rfl | cases hx), (fun hx => ?_), by first | rfl | trivial, fun hx => by cases hx⟩
        simp [hd] at hx ⊢
      | true =>
        simp only [if_true]
        have hr := good_recover h e1
        cases hb : (c.tree.recover e1).2.status.boundedWarn with
        | true =>
          rw [hb] at hr
          rw [if_neg (by simp)]
          refine ⟨_, hr, (fun hx => by cases hx), (fun hx => ?_), (fun hx => ?_), by first | rfl | trivial, fun hx => by cases hx⟩
          · simp at hx ⊢
          · simp [hb] at hx ⊢
        | false =>
          rw [hb] at hr
          rw [if_pos (by simp)]
          have hd := call_bounded_diag (c.tree.recover e1).1 _ hb
          refine ⟨_, good_diag hr _, (fun hx => by cases hx), (fun hx => ?_), (fun hx => ?_), by first | rfl | trivial, fun hx => by cases hx⟩
          · simp at hx ⊢
          · simp [hd] at hx ⊢

theorem handleShutdown_good {s : LayerState} (c : Chain σ) (e : Env σ) (h : Good s c.tree) :
    Good .off (c.handleShutdown e).1.tree ∧ (c.handleShutdown e).2.2.success = true ∧
      (s = .off → c.handleShutdown e = (c, e, ⟨true, "not running".toList⟩)) := by
  unfold Chain.handleShutdown
  split
  · rename_i hst
    refine ⟨shutdownLayer_good _ _ (good_halt h (start e)), rfl, ?_⟩
    rintro rfl
    rw [good_state h] at hst
    exact absurd hst (by decide)
  · rename_i hst
    have : s = .off := by
      rw [good_state h] at hst
      rcases h.2.1 with rfl | rfl | rfl
      · rfl
      · exact absurd (by decide) hst
      · exact absurd (by decide) hst
    subst this
    exact ⟨h, rfl, fun _ => rfl⟩

theorem handleHalt_good {s : LayerState} (c : Chain σ) (e : Env σ) (h : Good s c.tree) :
    Good (if s = .ready then .error else s) (c.handleHalt e).1.tree ∧ (c.handleHalt e).2.2.success = true ∧
      (c.handleHalt e).1 = { c with tree := (c.handleHalt e).1.tree } ∧
      (s = .off → c.handleHalt e = (c, e, ⟨true, "not running".toList⟩)) := by
  unfold Chain.handleHalt
  by_cases hst : c.tree.state.toNat > LayerState.init.toNat
  · rw [if_pos hst]
    refine ⟨good_halt h (start e), rfl, rfl, ?_⟩
    rintro rfl
    rw [good_state h] at hst
    exact absurd hst (by decide)
  · rw [if_neg hst]
    have : s = .off := by
      rw [good_state h] at hst
      rcases h.2.1 with rfl | rfl | rfl
      · rfl
      · exact absurd (by decide) hst
      · exact absurd (by decide) hst
    subst this
    exact ⟨h, rfl, rfl, fun _ => rfl⟩

theorem cycle_good {s : LayerState} (c : Chain σ) (e : Env σ) (h : Good s c.tree) :
    ∃ s', Good s' (c.cycle e).1.tree ∧ (s' = .off ↔ s = .off) ∧ (c.cycle e).1 = { c with tree := (c.cycle e).1.tree } := by
  unfold Chain.cycle Chain.writeLayer
  dsimp only
  have h1 := good_read h (start e)
  have h2 := good_write h1 (c.tree.read (start e)).2
  refine ⟨_, h2, ?_, rfl⟩
  rcases h.2.1 with rfl | rfl | rfl <;> simp <;> (repeat' split) <;> simp_all

/-! the threads -/

/-- the chain after a history in which threads begin in time -/
def Neat (c : Chain σ) : Prop :=
  c.leftNew = 0 ∧ c.leftLooping = 0 ∧ c.blocked = false ∧ c.bad = false ∧
  ((Good .off c.tree ∧ c.running = false ∧ c.owned = none ∧ c.timer = false) ∨
   ((Good .error c.tree ∨ Good .ready c.tree) ∧ c.running = true ∧ c.owned = some true ∧ c.timer = true))

theorem good_of_neat {c : Chain σ} (h : Neat c) : ∃ s, Good s c.tree := by
  obtain ⟨_, _, _, _, ⟨h, _⟩ | ⟨h | h, _⟩⟩ := h <;> exact ⟨_, h⟩

theorem neat_tree {c : Chain σ} (t : Tree σ) {s s' : LayerState} (h : Neat c) (hg : Good s c.tree) (hg' : Good s' t) (hs : s' = .off ↔ s = .off) :
    Neat { c with tree := t } := by
  obtain ⟨a1, a2, a3, a4, h⟩ := h
  refine ⟨a1, a2, a3, a4, ?_⟩
  have hst := good_state hg
  rcases h with ⟨h, h2, h3, h4⟩ | ⟨h, h2, h3, h4⟩
  · have : s = .off := by rw [← hst]; exact good_state h
    have hs' := hs.2 this
    subst hs'
    exact Or.inl ⟨hg', h2, h3, h4⟩
  · have : s ≠ .off := by
      rw [← hst]
      rcases h with h | h <;> rw [good_state h] <;> decide
    have hs' : s' ≠ .off := fun hx => this (hs.1 hx)
    refine Or.inr ⟨?_, h2, h3, h4⟩
    rcases hg'.2.1 with rfl | rfl | rfl
    · exact absurd rfl hs'
    · exact Or.inl hg'
    · exact Or.inr hg'

theorem step_neat (c : Chain σ) (e : Env σ) (v : Ev) (hv : Timely v) (h : Neat c) : Neat (c.step e v).1 := by
  obtain ⟨s, hg⟩ := good_of_neat h
  have hbl : c.blocked = false := h.2.2.1
  cases v with
  | begin left =>
    obtain ⟨a1, a2, a3, a4, h⟩ := h
    have : c.begin left = c := by
      unfold Chain.begin
      have : c.owned ≠ some false := by
        rcases h with ⟨_, _, h3, _⟩ | ⟨_, _, h3, _⟩ <;> rw [h3] <;> simp
      cases left <;> simp [a1, this]
    show Neat (c.begin left)
    rw [this]
    exact ⟨a1, a2, a3, a4, h⟩
  | cycle =>
    obtain ⟨s', hg', hs, heq⟩ := cycle_good c e hg
    unfold Chain.step
    dsimp only
    split
    · dsimp only
      rw [heq]; exact neat_tree _ h hg hg' hs
    · exact h
  | recover =>
    obtain ⟨s', hg', h1, h2, h3, heq, _⟩ := handleRecover_good c e hg
    have hst : (c.step e .recover).1 = (c.handleRecover e).1 := by simp [Chain.step, hbl]
    rw [hst, heq]
    refine neat_tree _ h hg hg' ?_
    rcases hg.2.1 with rfl | rfl | rfl
    · simp [h1 rfl]
    · rw [h3 rfl]; split <;> simp
    · simp [h2 rfl]
  | halt =>
    obtain ⟨hg', _, heq, _⟩ := handleHalt_good c e hg
    have hst : (c.step e .halt).1 = (c.handleHalt e).1 := by simp [Chain.step, hbl]
    rw [hst, heq]
    refine neat_tree _ h hg hg' ?_
    rcases hg.2.1 with rfl | rfl | rfl <;> simp
  | shutdown =>
    obtain ⟨hg', _, hoff⟩ := handleShutdown_good c e hg
    have hst : (c.step e .shutdown).1 = (c.handleShutdown e).1 := by simp [Chain.step, hbl]
    rw [hst]
    obtain ⟨a1, a2, a3, a4, hh⟩ := h
    rcases hh with ⟨h, h2, h3, h4⟩ | ⟨h, h2, h3, h4⟩
    · have : s = .off := by rw [← good_state hg]; exact good_state h
      rw [hoff this]; exact ⟨a1, a2, a3, a4, Or.inl ⟨h, h2, h3, h4⟩⟩
    · have hne : c.tree.state.toNat > LayerState.init.toNat := by
        rcases h with h | h <;> rw [good_state h] <;> decide
      have hne' : (c.tree.halt (start e)).1.state ≠ .off := by
        rcases h with h | h
        · rw [good_state (good_halt h (start e))]; decide
        · rw [good_state (good_halt h (start e))]; decide
      revert hg'
      unfold Chain.handleShutdown Chain.shutdownLayer Chain.stopThread
      rw [if_pos hne]
      simp only [hne', ne_eq, not_false_eq_true, if_true, h2, h3]
      intro hg'
      exact ⟨a1, rfl, a3, a4, Or.inl ⟨hg', rfl, rfl, rfl⟩⟩
  | init b =>
    have hb : b = true := hv
    subst hb
    have hst : (c.step e (.init true)).1 = (c.handleInit e true).1 := by simp [Chain.step, hbl]
    rw [hst]
    obtain ⟨a1, a2, a3, a4, hh⟩ := h
    rcases hh with ⟨h, h2, h3, h4⟩ | ⟨h, h2, h3, h4⟩
    · obtain ⟨k1, k2⟩ := handleInit_off c e true h
      have hnot : ¬ c.tree.state.toNat > LayerState.off.toNat := by rw [good_state h]; decide
      have hi := good_init h (start e)
      cases hb : (c.tree.init (start e)).2.status.boundedWarn with
      | true =>
        have kg := (k1 hb).1
        rw [hb] at hi
        have hsr : (c.tree.init (start e)).1.state = .ready := good_state hi
        revert kg
        unfold Chain.handleInit Chain.initLayer Chain.newThread
        rw [if_neg hnot]
        simp only [hsr, hb]
        intro kg
        refine ⟨by simpa [h3] using a1, by simpa [h3] using a2, a3, a4, Or.inr ⟨Or.inr kg, by simp, rfl, rfl⟩⟩
      | false =>
        have kg := (k2 hb).1
        rw [hb] at hi
        rw [handleInit_fail_eq c e true h hb] at kg ⊢
        unfold Chain.stopThread Chain.newThread at kg ⊢
        simp only [Bool.or_true, if_true] at kg ⊢
        refine ⟨by simpa [h3] using a1, rfl, a3, a4, Or.inl ⟨kg, rfl, rfl, rfl⟩⟩
    · have hne : c.tree.state ≠ .off := by
        rcases h with h | h <;> rw [good_state h] <;> decide
      rw [handleInit_on c e true hne]
      exact ⟨a1, a2, a3, a4, Or.inr ⟨h, h2, h3, h4⟩⟩

theorem run_neat (evs : List Ev) (hv : ∀ v ∈ evs, Timely v) (c : Chain σ) (e : Env σ) (h : Neat c) : Neat (c.run e evs).1 := by
  induction evs generalizing c e with
  | nil => exact h
  | cons v vs ih => exact ih (fun x hx => hv x (by simp [hx])) _ _ (step_neat c e v (hv v (by simp)) h)

theorem fresh_good (ms : List (Tree σ)) (rf : Bool) (em : List (Resetter σ)) (pubs : List (Publisher σ)) (sync : Bool)
    (hms : ∀ t ∈ ms, Uniform .off t) : Good .off (Chain.fresh ms rf em pubs sync).tree :=
  ⟨trivial, Or.inl rfl, by rw [Chain.fresh, uniform_group]; exact ⟨rfl, hms⟩⟩

theorem fresh_neat (ms : List (Tree σ)) (rf : Bool) (em : List (Resetter σ)) (pubs : List (Publisher σ)) (sync : Bool)
    (hms : ∀ t ∈ ms, Uniform .off t) : Neat (Chain.fresh ms rf em pubs sync) :=
  ⟨rfl, rfl, rfl, rfl, Or.inl ⟨fresh_good ms rf em pubs sync hms, rfl, rfl, rfl⟩⟩

/-! any history -/

/-- what holds after every history: the tree is uniform, the thread object exists unless the chain is off, no null pointer was used -/
def Sound (c : Chain σ) : Prop := (∃ s, Good s c.tree ∧ (s ≠ .off → c.owned ≠ none)) ∧ c.bad = false

theorem sound_tree {c : Chain σ} (t : Tree σ) {s s' : LayerState} (h : Sound c) (hg : Good s c.tree) (hg' : Good s' t) (hs : s' = .off ↔ s = .off) :
    Sound { c with tree := t } := by
  obtain ⟨⟨s0, h1, h2⟩, h3⟩ := h
  have : s0 = s := by rw [← good_state h1]; exact good_state hg
  subst this
  exact ⟨⟨s', hg', fun hx => h2 fun hy => hx (hs.2 hy)⟩, h3⟩

theorem stop_sound (c : Chain σ) (t : Tree σ) (hg : Good .off t) (ho : c.owned ≠ none) (hb : c.bad = false) :
    Sound { c.stopThread with tree := t } := by
  refine ⟨⟨.off, hg, fun h => absurd rfl h⟩, ?_⟩
  show c.stopThread.bad = false
  unfold Chain.stopThread
  dsimp only
  split
  · split
    · exact hb
    · split <;> exact hb
    · rename_i hx; exact absurd hx ho
  · exact hb

theorem step_sound (c : Chain σ) (e : Env σ) (v : Ev) (h : Sound c) : Sound (c.step e v).1 := by
  have hS := h
  obtain ⟨⟨s, hg, ho⟩, hbad⟩ := h
  cases v with
  | begin left =>
    show Sound (c.begin left)
    unfold Chain.begin
    (repeat' split) <;> first | exact hS | exact ⟨⟨s, hg, fun hx => ho hx⟩, hbad⟩ | exact ⟨⟨s, hg, fun _ => by simp⟩, hbad⟩
  | cycle =>
    obtain ⟨s', hg', hs, heq⟩ := cycle_good c e hg
    unfold Chain.step
    dsimp only
    split
    · dsimp only
      rw [heq]; exact sound_tree _ hS hg hg' hs
    · exact hS
  | recover =>
    unfold Chain.step
    dsimp only
    split
    · exact hS
    · dsimp only
      obtain ⟨s', hg', h1, h2, h3, heq, _⟩ := handleRecover_good c e hg
      rw [heq]
      refine sound_tree _ hS hg hg' ?_
      rcases hg.2.1 with rfl | rfl | rfl
      · simp [h1 rfl]
      · rw [h3 rfl]; split <;> simp
      · simp [h2 rfl]
  | halt =>
    unfold Chain.step
    dsimp only
    split
    · exact hS
    · dsimp only
      obtain ⟨hg', _, heq, _⟩ := handleHalt_good c e hg
      rw [heq]
      refine sound_tree _ hS hg hg' ?_
      rcases hg.2.1 with rfl | rfl | rfl <;> simp
  | shutdown =>
    unfold Chain.step
    dsimp only
    split
    · exact hS
    · dsimp only
      obtain ⟨hg', _, hoff⟩ := handleShutdown_good c e hg
      by_cases hs : s = .off
      · rw [hoff hs]; exact hS
      · have hne : c.tree.state.toNat > LayerState.init.toNat := by
          rw [good_state hg]
          rcases hg.2.1 with rfl | rfl | rfl <;> first | exact absurd rfl hs | decide
        have hne' : (c.tree.halt (start e)).1.state ≠ .off := by
          rw [good_state (good_halt hg (start e))]
          split
          · decide
          · exact hs
        revert hg'
        unfold Chain.handleShutdown Chain.shutdownLayer
        rw [if_pos hne]
        simp only [hne', ne_eq, not_false_eq_true, if_true]
        intro hg'
        exact stop_sound _ _ hg' (ho hs) hbad
  | init b =>
    unfold Chain.step
    dsimp only
    split
    · exact hS
    · dsimp only
      by_cases hs : s = .off
      · subst hs
        obtain ⟨k1, k2⟩ := handleInit_off c e b hg
        have hnot : ¬ c.tree.state.toNat > LayerState.off.toNat := by rw [good_state hg]; decide
        have hi := good_init hg (start e)
        cases hb : (c.tree.init (start e)).2.status.boundedWarn with
        | true =>
          have kg := (k1 hb).1
          rw [hb] at hi
          have hsr : (c.tree.init (start e)).1.state = .ready := good_state hi
          revert kg
          unfold Chain.handleInit Chain.initLayer
          rw [if_neg hnot]
          simp only [newThread_tree, hsr, hb]
          intro kg
          exact ⟨⟨.ready, kg, fun _ => by simp [Chain.newThread]⟩, hbad⟩
        | false =>
          have kg := (k2 hb).1
          rw [hb] at hi
          rw [handleInit_fail_eq c e b hg hb] at kg ⊢
          exact stop_sound _ _ kg (by simp [Chain.newThread]) hbad
      · rw [handleInit_on c e b (by rw [good_state hg]; exact hs)]
        exact hS

theorem run_sound (evs : List Ev) (c : Chain σ) (e : Env σ) (h : Sound c) : Sound (c.run e evs).1 := by
  induction evs generalizing c e with
  | nil => exact h
  | cons v vs ih => exact ih _ _ (step_sound c e v h)

theorem fresh_sound (ms : List (Tree σ)) (rf : Bool) (em : List (Resetter σ)) (pubs : List (Publisher σ)) (sync : Bool)
    (hms : ∀ t ∈ ms, Uniform .off t) : Sound (Chain.fresh ms rf em pubs sync) :=
  ⟨⟨.off, fresh_good ms rf em pubs sync hms, fun h => absurd rfl h⟩, rfl⟩

theorem reached_good {c : Chain σ} (h : ReachedChain c) : ∃ s, Good s c.tree := by
  obtain ⟨ms, rf, em, pubs, sync, e, evs, hms, rfl⟩ := h
  obtain ⟨⟨s, h, _⟩, _⟩ := run_sound evs _ e (fresh_sound ms rf em pubs sync hms)
  exact ⟨s, h⟩

/-! initialisation during cycles -/

/-- members of a stack being initialised: the first `i` are done, the others off -/
def Part (clean : Bool) (i : Nat) (ms : List (Tree σ)) : Prop :=
  ∀ j (h : j < ms.length), (i ≤ j → Uniform .off ms[j]) ∧
    (j < i → Uniform .ready ms[j] ∨ (clean = false ∧ Uniform .error ms[j]))

/-- what one call leaves of a member -/
def Keeps (okay : Bool) (t t' : Tree σ) : Prop :=
  (Uniform .off t → Uniform .off t') ∧ (Uniform .error t → Uniform .error t') ∧
  (Uniform .ready t → Uniform .ready t' ∨ (okay = false ∧ Uniform .error t'))

theorem keeps_trans {a b : Bool} {t t' t'' : Tree σ} (h : Keeps a t t') (h' : Keeps b t' t'') : Keeps (a && b) t t'' := by
  refine ⟨fun hu => h'.1 (h.1 hu), fun hu => h'.2.1 (h.2.1 hu), fun hu => ?_⟩
  rcases h.2.2 hu with hu | ⟨ha, hu⟩
  · rcases h'.2.2 hu with hu | ⟨hb, hu⟩
    · exact Or.inl hu
    · exact Or.inr ⟨by simp [hb], hu⟩
  · exact Or.inr ⟨by simp [ha], h'.2.1 hu⟩

theorem keeps_weaken {a b : Bool} {t t' : Tree σ} (h : Keeps a t t') (hab : a = false → b = false) : Keeps b t t' :=
  ⟨h.1, h.2.1, fun hu => (h.2.2 hu).imp id fun ⟨x, y⟩ => ⟨hab x, y⟩⟩

/-- member by member -/
def KeepsAll (okay : Bool) : List (Tree σ) → List (Tree σ) → Prop
  | [], [] => True
  | t :: ts, t' :: ts' => Keeps okay t t' ∧ KeepsAll okay ts ts'
  | _, _ => False

theorem keepsAll_weaken {a b : Bool} (hab : a = false → b = false) : ∀ {ts ts' : List (Tree σ)}, KeepsAll a ts ts' → KeepsAll b ts ts'
  | [], [], _ => trivial
  | _ :: _, _ :: _, h => ⟨keeps_weaken h.1 hab, keepsAll_weaken hab h.2⟩
  | [], _ :: _, h => h.elim
  | _ :: _, [], h => h.elim

theorem keepsAll_trans {a b : Bool} : ∀ {ts ts' ts'' : List (Tree σ)}, KeepsAll a ts ts' → KeepsAll b ts' ts'' → KeepsAll (a && b) ts ts''
  | [], [], [], _, _ => trivial
  | _ :: _, _ :: _, _ :: _, h, h' => ⟨keeps_trans h.1 h'.1, keepsAll_trans h.2 h'.2⟩
  | [], _ :: _, _, h, _ => h.elim
  | _ :: _, [], _, h, _ => h.elim
  | [], [], _ :: _, _, h => h.elim
  | _ :: _, _ :: _, [], _, h => h.elim

theorem keepsAll_refl : ∀ (ts : List (Tree σ)), KeepsAll true ts ts
  | [] => trivial
  | t :: ts => ⟨⟨id, id, Or.inl⟩, keepsAll_refl ts⟩

theorem keepsAll_length {a : Bool} : ∀ {ts ts' : List (Tree σ)}, KeepsAll a ts ts' → ts'.length = ts.length
  | [], [], _ => rfl
  | _ :: _, _ :: _, h => by simp [keepsAll_length h.2]
  | [], _ :: _, h => h.elim
  | _ :: _, [], h => h.elim

theorem keepsAll_get {a : Bool} : ∀ {ts ts' : List (Tree σ)}, KeepsAll a ts ts' → ∀ j (h : j < ts.length) (h' : j < ts'.length), Keeps a ts[j] ts'[j]
  | _ :: _, _ :: _, h, 0, _, _ => h.1
  | t :: ts, t' :: ts', h, j + 1, h1, h2 => by
    simp only [List.getElem_cons_succ]
    exact keepsAll_get h.2 j _ _
  | [], [], _, _, h, _ => absurd h (Nat.not_lt_zero _)
  | [], _ :: _, h, _, _, _ => h.elim
  | _ :: _, [], h, _, _, _ => h.elim

theorem bw (e : Env σ) : decide (sv e ≤ 1) = e.status.boundedWarn := by
  cases h : e.status.boundedWarn
  · have := mt (bounded_iff e).2 (by simp [h])
    simp [this]
  · simp [(bounded_iff e).1 h]

theorem read_keeps (t : Tree σ) (e : Env σ) : Keeps (decide (sv (t.read e).2 ≤ 1)) t (t.read e).1 := by
  refine ⟨fun hu => ?_, fun hu => ?_, fun hu => ?_⟩
  · rw [off_read t e (uniform_state _ _ hu)]; exact hu
  · obtain ⟨p, q, _⟩ := read_uniform .error (Or.inl rfl) t e hu
    by_cases h : sv (t.read e).2 ≤ 1
    · exact p h
    · rcases q (by omega) with h | h <;> exact h
  · obtain ⟨p, q, _⟩ := read_uniform .ready (Or.inr rfl) t e hu
    by_cases h : sv (t.read e).2 ≤ 1
    · exact Or.inl (p h)
    · rcases q (by omega) with h' | h'
      · exact Or.inr ⟨by simp [h], h'⟩
      · exact Or.inl h'

theorem write_keeps (t : Tree σ) (e : Env σ) : Keeps (decide (sv (t.write e).2 ≤ 1)) t (t.write e).1 := by
  refine ⟨fun hu => ?_, fun hu => ?_, fun hu => ?_⟩
  · rw [off_write t e (uniform_state _ _ hu)]; exact hu
  · obtain ⟨p, q, _⟩ := write_uniform .error (Or.inl rfl) t e hu
    by_cases h : sv (t.write e).2 ≤ 1
    · exact p h
    · rcases q (by omega) with h | h <;> exact h
  · obtain ⟨p, q, _⟩ := write_uniform .ready (Or.inr rfl) t e hu
    by_cases h : sv (t.write e).2 ≤ 1
    · exact Or.inl (p h)
    · rcases q (by omega) with h' | h'
      · exact Or.inr ⟨by simp [h], h'⟩
      · exact Or.inl h'

theorem halt_keeps (t : Tree σ) (e : Env σ) : Keeps false t (t.halt e).1 := by
  refine ⟨fun hu => ?_, fun hu => ?_, fun hu => ?_⟩
  · exact halt_uniform .off t e hu
  · exact halt_uniform .error t e hu
  · exact Or.inr ⟨rfl, halt_uniform .ready t e hu⟩

theorem seqF_keeps (f : Meth σ) (hm : ∀ t e, sv e ≤ sv (f t e).2) (hk : ∀ t e, Keeps (decide (sv (f t e).2 ≤ 1)) t (f t e).1)
    (ts : List (Tree σ)) (e : Env σ) : KeepsAll (decide (sv (seqF f ts e).2 ≤ 1)) ts (seqF f ts e).1 := by
  induction ts generalizing e with
  | nil => trivial
  | cons t ts ih =>
    refine ⟨keeps_weaken (hk t e) ?_, ih (f t e).2⟩
    intro h
    have h := of_decide_eq_false h
    refine decide_eq_false fun h' => ?_
    exact h (Nat.le_trans (seqF_mono f ts (fun t _ => hm t) _) h')

theorem seqR_keeps (f : Meth σ) (hm : ∀ t e, sv e ≤ sv (f t e).2) (hk : ∀ t e, Keeps (decide (sv (f t e).2 ≤ 1)) t (f t e).1)
    (ts : List (Tree σ)) (e : Env σ) : KeepsAll (decide (sv (seqR f ts e).2 ≤ 1)) ts (seqR f ts e).1 := by
  induction ts generalizing e with
  | nil => trivial
  | cons t ts ih =>
    refine ⟨hk t _, keepsAll_weaken ?_ (ih e)⟩
    intro h
    have h := of_decide_eq_false h
    refine decide_eq_false fun h' => ?_
    exact h (Nat.le_trans (hm t _) h')

theorem haltList_keeps (ts : List (Tree σ)) (e : Env σ) : KeepsAll false ts (haltList ts e).1 := by
  induction ts generalizing e with
  | nil => rw [haltList]; trivial
  | cons t ts ih => rw [haltList]; exact ⟨halt_keeps t e, ih _⟩

theorem haltRev_keeps (ts : List (Tree σ)) (e : Env σ) : KeepsAll false ts (haltRev ts e).1 := by
  induction ts generalizing e with
  | nil => rw [haltRev]; trivial
  | cons t ts ih => rw [haltRev]; exact ⟨halt_keeps t _, ih _⟩

theorem failTail_init (rev : Bool) (ms : List (Tree σ)) (e : Env σ) :
    ∃ ms', (failTail rev true .init ms e).1 = .group true .init ms' ∧ KeepsAll e.status.boundedWarn ms ms' ∧
      (failTail rev true .init ms e).2.status.boundedWarn = e.status.boundedWarn := by
  have hm := failTail_mono rev true .init ms e
  unfold failTail at hm ⊢
  cases hb : e.status.boundedWarn with
  | true => exact ⟨ms, rfl, keepsAll_refl ms, hb⟩
  | false =>
    have h1 : 1 < sv e := (not_bounded_iff e).1 (by simp [hb])
    rw [hb] at hm
    simp only [Bool.not_false, if_true] at hm ⊢
    have hh : ∀ (ms : List (Tree σ)) (e : Env σ), (Tree.group true .init ms).halt e = (.group true .init ms, e) := by
      intro ms e; rw [Tree.halt, if_neg (by decide)]
    rw [hh] at hm ⊢
    refine ⟨_, rfl, ?_, ?_⟩
    · cases rev
      · exact haltList_keeps ms e
      · exact haltRev_keeps ms e
    · have := (not_bounded_iff _).2 (Nat.lt_of_lt_of_le h1 hm)
      simpa using this

theorem cycleCall_keeps (ms : List (Tree σ)) (w : σ) (log : List (Nat × Method)) (rd : Bool) :
    KeepsAll (cycleCall ms w log rd).2.status.boundedWarn ms (cycleCall ms w log rd).1 := by
  unfold cycleCall
  dsimp only
  cases rd with
  | true =>
    simp only [if_true]
    rw [Tree.read, if_pos (by decide)]
    dsimp only
    rw [readList_eq]
    have hk := seqF_keeps Tree.read read_mono read_keeps ms (⟨w, .initial, log⟩ : Env σ)
    rw [bw] at hk
    obtain ⟨ms', h1, h2, h3⟩ := failTail_init false (seqF Tree.read ms (⟨w, .initial, log⟩ : Env σ)).1 (seqF Tree.read ms (⟨w, .initial, log⟩ : Env σ)).2
    rw [h1, h3]
    have := keepsAll_trans hk h2
    rwa [Bool.and_self] at this
  | false =>
    simp only [Bool.false_eq_true, if_false]
    rw [Tree.write, if_pos (by decide)]
    simp only [if_true]
    rw [writeRev_eq]
    have hk := seqR_keeps Tree.write write_mono write_keeps ms (⟨w, .initial, log⟩ : Env σ)
    rw [bw] at hk
    obtain ⟨ms', h1, h2, h3⟩ := failTail_init true (seqR Tree.write ms (⟨w, .initial, log⟩ : Env σ)).1 (seqR Tree.write ms (⟨w, .initial, log⟩ : Env σ)).2
    rw [h1, h3]
    have := keepsAll_trans hk h2
    rwa [Bool.and_self] at this

theorem cycleCalls_keeps (bs : List Bool) (ms : List (Tree σ)) (e : Env σ) :
    KeepsAll (cycleCalls bs ms e).2.2 ms (cycleCalls bs ms e).1 ∧ (cycleCalls bs ms e).2.1.status = e.status := by
  induction bs generalizing ms e with
  | nil => exact ⟨keepsAll_refl ms, rfl⟩
  | cons b bs ih =>
    unfold cycleCalls
    dsimp only
    obtain ⟨i1, i2⟩ := ih (cycleCall ms e.world e.log b).1 { e with world := (cycleCall ms e.world e.log b).2.world, log := (cycleCall ms e.world e.log b).2.log }
    exact ⟨keepsAll_trans (cycleCall_keeps ms e.world e.log b) i1, i2⟩

theorem part_keeps {clean okay : Bool} {i : Nat} {ms ms' : List (Tree σ)} (h : Part clean i ms) (hk : KeepsAll okay ms ms') :
    Part (clean && okay) i ms' := by
  intro j hj
  have hl := keepsAll_length hk
  have hk := keepsAll_get hk j (by omega) hj
  obtain ⟨p, q⟩ := h j (by omega)
  refine ⟨fun hx => hk.1 (p hx), fun hx => ?_⟩
  rcases q hx with hu | ⟨hc, hu⟩
  · rcases hk.2.2 hu with hu | ⟨ho, hu⟩
    · exact Or.inl hu
    · exact Or.inr ⟨by simp [ho], hu⟩
  · exact Or.inr ⟨by simp [hc], hk.2.1 hu⟩

theorem raceInit_part (sched : Nat → List Bool) (n i : Nat) (ms : List (Tree σ)) (e : Env σ) (clean : Bool) (h : Part clean i ms)
    (hn : n + i = ms.length) (hb : e.status.boundedWarn = true) :
    (raceInit sched n i ms e).1.length = ms.length ∧
    ((raceInit sched n i ms e).2.1.status.boundedWarn = true →
      Part (clean && (raceInit sched n i ms e).2.2) ms.length (raceInit sched n i ms e).1) ∧
    (∀ t ∈ (raceInit sched n i ms e).1, ∃ s, Uniform s t) := by
  have any : ∀ {clean : Bool} {i : Nat} {ms : List (Tree σ)}, Part clean i ms → ∀ t ∈ ms, ∃ s, Uniform s t := by
    intro clean i ms hp t ht
    obtain ⟨j, hj, rfl⟩ := List.getElem_of_mem ht
    obtain ⟨p, q⟩ := hp j hj
    by_cases hij : i ≤ j
    · exact ⟨_, p hij⟩
    · rcases q (by omega) with hu | ⟨_, hu⟩ <;> exact ⟨_, hu⟩
  induction n generalizing i ms e clean with
  | zero =>
    have : i = ms.length := by omega
    subst this
    simp only [raceInit, Bool.and_true]
    exact ⟨by trivial, fun _ => h, any h⟩
  | succ n ih =>
    obtain ⟨hk, hs⟩ := cycleCalls_keeps (sched i) ms e
    have hl := keepsAll_length hk
    have hp := part_keeps h hk
    unfold raceInit
    dsimp only
    generalize hq : cycleCalls (sched i) ms e = q at hk hs hl hp ⊢
    obtain ⟨ms1, e1, ok1⟩ := q
    dsimp only at hk hs hl hp ⊢
    have hi : i < ms1.length := by omega
    rw [List.getElem?_eq_getElem hi]
    dsimp only
    have hoff := (hp i hi).1 (Nat.le_refl i)
    obtain ⟨u1, u2⟩ := init_uniform ms1[i] e1 hoff
    cases hb' : (ms1[i].init e1).2.status.boundedWarn with
    | false =>
      have h1 : 1 < sv (ms1[i].init e1).2 := (not_bounded_iff _).1 (by simp [hb'])
      simp only [Bool.not_false, if_true]
      refine ⟨by simp [hl], (fun hx => absurd (hb'.symm.trans hx) (by simp)), ?_⟩
      intro t ht
      rcases List.mem_or_eq_of_mem_set ht with ht | rfl
      · exact any hp t ht
      · exact ⟨_, u2 h1⟩
    | true =>
      have h1 : sv (ms1[i].init e1).2 ≤ 1 := (bounded_iff _).1 hb'
      have hready := u1 h1
      simp only [Bool.not_true, Bool.false_eq_true, if_false]
      have hp' : Part (clean && ok1) (i + 1) (ms1.set i (ms1[i].init e1).1) := by
        intro j hj
        rw [List.length_set] at hj
        obtain ⟨p, q⟩ := hp j hj
        by_cases hij : i = j
        · subst hij
          rw [List.getElem_set_self]
          exact ⟨fun hx => by omega, fun _ => Or.inl hready⟩
        · rw [List.getElem_set_ne hij]
          exact ⟨fun hx => p (by omega), fun hx => q (by omega)⟩
      obtain ⟨z1, z2, z3⟩ := ih (i + 1) (ms1.set i (ms1[i].init e1).1) (ms1[i].init e1).2 (clean && ok1) hp' (by simp; omega) hb'
      rw [List.length_set] at z1 z2
      refine ⟨by rw [z1, hl], fun hx => ?_, z3⟩
      have := z2 hx
      rw [hl] at this
      rwa [Bool.and_assoc] at this

theorem publishAll_spec (fs : List (Publisher σ)) : ∀ e : Env σ, ∃ o, Published fs e.world (publishAll fs e).world o ∧ (publishAll fs e).log = e.log ∧
    (o = none → (publishAll fs e).status = e.status) ∧ (∀ t, o = some t → ¬ AtMostWarn (publishAll fs e).status ∧ t <:+ (publishAll fs e).status.reason) := by
  induction fs with
  | nil => exact fun e => ⟨none, .nil _, rfl, fun _ => rfl, fun t h => nomatch h⟩
  | cons f fs ih =>
    intro e
    cases hf : f e.world with
    | mk w o =>
      cases o with
      | some t =>
        simp only [publishAll, hf]
        refine ⟨some t, .fails _ _ _ _ _ hf, trivial, (fun h => nomatch h), fun t' h => ?_⟩
        injection h with h; subst h
        constructor
        · unfold AtMostWarn Status.set
          cases hs : e.status.sev <;> simp [Sev.toNat]
        · unfold Status.set
          dsimp only
          split
          · split
            · exact List.suffix_refl _
            · exact List.suffix_append _ _
          · rename_i hne
            rw [Decidable.not_not.mp hne]; exact List.nil_suffix
      | none =>
        simp only [publishAll, hf]
        obtain ⟨o, h1, h2, h3, h4⟩ := ih { e with world := w }
        exact ⟨o, .cons _ _ _ _ _ _ hf h1, h2, h3, h4⟩

/-- threads that were created and have not ended -/
def Chain.threads (c : Chain σ) : Nat := c.leftNew + c.leftLooping + (if c.owned.isSome then 1 else 0)

theorem looping_threads (c : Chain σ) : c.looping ≤ c.threads := by
  unfold Chain.looping Chain.threads
  cases c.owned with
  | none => simp
  | some b => cases b <;> simp <;> omega

theorem stopThread_threads (c : Chain σ) : c.stopThread.threads ≤ c.threads ∧ c.stopThread.looping ≤ c.looping := by
  unfold Chain.stopThread
  dsimp only
  split
  · split <;> (try split) <;> rename_i h <;> simp_all [Chain.threads, Chain.looping] <;> omega
  · exact ⟨Nat.le_refl _, Nat.le_refl _⟩

theorem tree_threads (c : Chain σ) (t) : ({ c with tree := t } : Chain σ).threads = c.threads ∧ ({ c with tree := t } : Chain σ).looping = c.looping := ⟨rfl, rfl⟩

theorem initLayer_threads (c : Chain σ) (e : Env σ) : (c.initLayer e).1.threads ≤ c.threads ∧ (c.initLayer e).1.looping ≤ c.looping := by
  unfold Chain.initLayer
  dsimp only
  split
  · exact stopThread_threads c
  · exact ⟨Nat.le_refl _, Nat.le_refl _⟩

theorem shutdownLayer_threads (c : Chain σ) (e : Env σ) : (c.shutdownLayer e).1.threads ≤ c.threads ∧ (c.shutdownLayer e).1.looping ≤ c.looping := by
  unfold Chain.shutdownLayer
  dsimp only
  split
  · exact stopThread_threads c
  · exact ⟨Nat.le_refl _, Nat.le_refl _⟩

theorem newThread_threads (c : Chain σ) (b : Bool) : (c.newThread b).threads = c.threads + 1 ∧ (c.newThread b).looping = c.looping + (if b then 1 else 0) := by
  unfold Chain.newThread Chain.threads Chain.looping
  cases c.owned with
  | none => cases b <;> simp
  | some x => cases x <;> cases b <;> simp <;> omega

theorem handleInit_threads (c : Chain σ) (e : Env σ) (b : Bool) :
    (c.handleInit e b).1.threads ≤ c.threads + 1 ∧ (c.handleInit e b).1.looping ≤ c.looping + (if b then 1 else 0) := by
  unfold Chain.handleInit
  split
  · exact ⟨Nat.le_succ _, Nat.le_add_right _ _⟩
  · have h1 := initLayer_threads (c.newThread b) (start e)
    rw [(newThread_threads c b).1, (newThread_threads c b).2] at h1
    dsimp only
    split
    · have h2 := shutdownLayer_threads ({ ((c.newThread b).initLayer (start e)).1 with tree := (((c.newThread b).initLayer (start e)).1.tree.diag ((c.newThread b).initLayer (start e)).2).1 })
        (((c.newThread b).initLayer (start e)).1.tree.diag ((c.newThread b).initLayer (start e)).2).2
      rw [(tree_threads _ _).1, (tree_threads _ _).2] at h2
      exact ⟨Nat.le_trans h2.1 h1.1, Nat.le_trans h2.2 h1.2⟩
    · exact h1

theorem step_threads (c : Chain σ) (e : Env σ) (v : Ev) :
    (c.step e v).1.threads ≤ c.threads + (if v = .init true ∨ v = .init false then 1 else 0) ∧
    ((c.step e v).1.looping ≤ c.looping ∨ v = .init true ∨ ∃ l, v = .begin l) := by
  cases v with
  | init b =>
    simp only [Chain.step]
    split
    · exact ⟨Nat.le_add_right _ _, .inl (Nat.le_refl _)⟩
    · have := handleInit_threads c e b
      cases b <;> simp_all
  | recover =>
    simp only [Chain.step]
    split
    · exact ⟨Nat.le_add_right _ _, .inl (Nat.le_refl _)⟩
    · unfold Chain.handleRecover
      split
      · dsimp only
        split
        · exact ⟨Nat.le_add_right _ _, .inl (Nat.le_refl _)⟩
        · exact ⟨Nat.le_add_right _ _, .inl (Nat.le_refl _)⟩
      · exact ⟨Nat.le_add_right _ _, .inl (Nat.le_refl _)⟩
  | halt =>
    simp only [Chain.step]
    split
    · exact ⟨Nat.le_add_right _ _, .inl (Nat.le_refl _)⟩
    · unfold Chain.handleHalt
      split
      · exact ⟨Nat.le_add_right _ _, .inl (Nat.le_refl _)⟩
      · exact ⟨Nat.le_add_right _ _, .inl (Nat.le_refl _)⟩
  | shutdown =>
    simp only [Chain.step]
    split
    · exact ⟨Nat.le_add_right _ _, .inl (Nat.le_refl _)⟩
    · unfold Chain.handleShutdown
      split
      · have := shutdownLayer_threads ({ c with tree := (c.tree.halt (start e)).1 }) (c.tree.halt (start e)).2
        exact ⟨Nat.le_trans this.1 (Nat.le_add_right _ _), .inl this.2⟩
      · exact ⟨Nat.le_add_right _ _, .inl (Nat.le_refl _)⟩
  | begin l =>
    refine ⟨?_, .inr (.inr ⟨l, rfl⟩)⟩
    show (c.begin l).threads ≤ _
    unfold Chain.begin Chain.threads
    split
    · split
      · dsimp only; omega
      · omega
    · split <;> rename_i h <;> simp_all
  | cycle =>
    simp only [Chain.step]
    split
    · exact ⟨Nat.le_add_right _ _, .inl (Nat.le_refl _)⟩
    · exact ⟨Nat.le_add_right _ _, .inl (Nat.le_refl _)⟩

theorem threads_run (evs : List Ev) : ∀ (c : Chain σ) (e : Env σ),
    (c.run e evs).1.threads ≤ c.threads + evs.countP (fun v => v = .init true || v = .init false) := by
  induction evs with
  | nil => exact fun _ _ => Nat.le_refl _
  | cons v vs ih =>
    intro c e
    have h1 := (step_threads c e v).1
    have h2 := ih (c.step e v).1 (c.step e v).2.1
    have : c.run e (v :: vs) = (c.step e v).1.run (c.step e v).2.1 vs := rfl
    rw [this, List.countP_cons]
    simp only [Bool.or_eq_true, decide_eq_true_eq] at h2 ⊢
    omega

theorem looping_none (evs : List Ev) : ∀ (c : Chain σ) (e : Env σ), c.looping = 0 → .init true ∉ evs → (∀ l, .begin l ∉ evs) → (c.run e evs).1.looping = 0 := by
  induction evs with
  | nil => exact fun _ _ h _ _ => h
  | cons v vs ih =>
    intro c e h h1 h2
    refine ih _ _ ?_ (fun hx => h1 (List.mem_cons_of_mem _ hx)) (fun l hx => h2 l (List.mem_cons_of_mem _ hx))
    rcases (step_threads c e v).2 with hle | rfl | ⟨l, rfl⟩
    · omega
    · exact absurd (List.mem_cons_self ..) h1
    · exact absurd (List.mem_cons_self ..) (h2 l)

end Verif.Chain
