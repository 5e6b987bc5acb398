import Verif.Spec.ShutDown
import Verif.Lemmas.Restart

/-! # Shutting down a chain (C126) -/

namespace Verif.SUp
open Verif Verif.Lay Verif.Spec Verif.Spec.SUp

/-! one motor -/

/-- a motor that is being shut down -/
def Going (s : Hand.Sys) : Prop := s.m.selected = none ∧ (Spec.Hand.job s.pc = some .shutdown ∨ s.pc = .finished true ∨ s.pc = .threw)

theorem going_step (s : Hand.Sys) (e : Hand.HEv) (hc : ∀ c, e ≠ .call c) (h : Going s) : Going (s.step e) := by
  obtain ⟨h1, h2⟩ := h
  have hw : s.m.handleWrite.1.selected = s.m.selected := by
    simp only [M402.Motor.handleWrite]
    repeat' split
    all_goals rfl
  have hr : ∀ a b, (s.m.readState a b).selected = s.m.selected := by
    intro a b
    simp only [M402.Motor.readState]
    repeat' split
    all_goals rfl
  have ht : ∀ v, (s.m.setTarget v).1.selected = s.m.selected := by
    intro v
    simp only [M402.Motor.setTarget]
    repeat' split
    all_goals rfl
  cases e with
  | call c => exact absurd rfl (hc c)
  | tick now =>
    have hret : ∀ (v : Hand.Sys) ok, v.m.selected = none → Going (v.ret .shutdown ok) := fun v ok hv => ⟨hv, Or.inr (Or.inl rfl)⟩
    simp only [Hand.Sys.step, Hand.Sys.tick]
    cases hp : s.pc with
    | enter j g =>
      simp only [hp, Spec.Hand.job, Option.some.injEq, reduceCtorEq, or_false] at h2
      exact ⟨h1, Or.inl (by simp [Spec.Hand.job, h2])⟩
    | assign j g d st =>
      simp only [hp, Spec.Hand.job, Option.some.injEq, reduceCtorEq, or_false] at h2
      exact ⟨h1, Or.inl (by simp [Spec.Hand.job, h2])⟩
    | test j g d st =>
      simp only [hp, Spec.Hand.job, Option.some.injEq, reduceCtorEq, or_false] at h2
      subst h2
      dsimp only
      split
      · exact hret _ _ h1
      · exact ⟨h1, Or.inl rfl⟩
    | cmd j g d st =>
      simp only [hp, Spec.Hand.job, Option.some.injEq, reduceCtorEq, or_false] at h2
      subst h2
      dsimp only [Hand.Sys.command]
      split
      · split
        · exact ⟨h1, Or.inl rfl⟩
        · exact ⟨h1, Or.inl rfl⟩
      · exact hret _ _ h1
    | wait j g d st =>
      simp only [hp, Spec.Hand.job, Option.some.injEq, reduceCtorEq, or_false] at h2
      subst h2
      dsimp only
      split
      · exact ⟨h1, Or.inl rfl⟩
      · split
        · exact hret _ _ h1
        · exact ⟨h1, Or.inl (by rw [hp]; rfl)⟩
    | _ => simp_all [Going, Spec.Hand.job]
  | haltAct =>
    simp only [Hand.Sys.step, Hand.Sys.haltAct]
    repeat' split
    all_goals simp_all [Going]
  | _ =>
    simp only [Hand.Sys.step]
    repeat' split
    all_goals simp_all [Going, Spec.Hand.job]

theorem going_run (es : List Hand.HEv) : ∀ s : Hand.Sys, Spec.Hand.NoCall es → Going s → Going (s.run es) := by
  induction es with
  | nil => intro s _ h; exact h
  | cons e es ih =>
    intro s hc h
    exact ih _ (fun c hx => hc c (List.mem_cons_of_mem _ hx)) (going_step s e (fun c hx => hc c (by simp [hx])) h)

theorem noHalt_motorEvs (i : Nat) (es : List Ev) (h : Ev.motor i .haltAct ∉ es) : Spec.Hand.NoHalt (motorEvs i es) := by
  intro hc
  simp only [motorEvs, List.mem_filterMap] at hc
  obtain ⟨e, hm, he⟩ := hc
  cases e with
  | motor j x =>
    cases x <;> simp at he
    obtain ⟨rfl, -⟩ := he
    exact h hm
  | _ => simp at he

/-! one node -/

theorem nodeStop_ends (i : Nat) (cl : List Nmt.SEv) (w : World) (es : List Ev) (h : (w.begin (.nodeStop i cl)).ends (.nodeStop i cl) es = true) : es = [] := by
  cases es with
  | nil => rfl
  | cons e es => simp [World.ends, busy, World.begin, stopNode] at h

theorem stopNode_fine (x : Nmt.Initing) (cl : List Nmt.SEv) (hp : x.node.phase = .idle) (h : (stopNode x cl).pc = .done .fine) : NodeDown (stopNode x cl) := by
  generalize hes : cl ++ List.replicate 4 (Nmt.SEv.next none false) = es
  have hd : (x.node.beginShutdown.run es).pc = .done .fine := by
    simp only [stopNode, hes] at h
    cases hq : (x.node.beginShutdown.run es).pc <;> simp [hq] at h ⊢
    exact h
  obtain ⟨h1, h2, h3, -⟩ := Props.C89_shutdown x.node hp es hd
  have hinv := Nmt.close_run x.node _ es (Nmt.close_begin x.node hp)
  refine ⟨?_, ?_, ?_, ?_, _, rfl⟩
  · simp only [stopNode, hes, h1, hinv.id, List.map]
  · simp only [stopNode, hes, h2]
  · simp only [stopNode, hes, h3]
  · simp only [stopNode, hes, hinv.phase]

/-! one layer -/

/-- what is kept of a node that is not this layer, and what is known of this one -/
theorem layer_down (k : Kind) (r : Rest) (hnh : NotHalted r) (st : LayerState) (w : World) (s : Status) (hq : Steady w [k])
    (hx : ((layer k r).run .shutdown st w s).2.2 = none) (hr : ∀ x ∈ ((layer k r).run .shutdown st w s).2.1, IsError x = false) :
    Passes w ((layer k r).run .shutdown st w s).1 (down k) ∧ ((layer k r).run .shutdown st w s).1.bus.pc = .idle ∧
    (∀ j, Kind.node j ≠ k → (Rested (w.node j) → Rested (((layer k r).run .shutdown st w s).1.node j)) ∧
      (Stopped (w.node j) → Stopped (((layer k r).run .shutdown st w s).1.node j))) ∧
    ∀ j, Kind.node j = k → Stopped (((layer k r).run .shutdown st w s).1.node j) := by
  have hi := hq.1
  cases k with
  | can =>
    simp only [layer, starts] at hx hr ⊢
    by_cases he : (w.begin (.can .shutdown)).ends (.can .shutdown) (r.sched .shutdown w) = true
    · simp only [he, if_true] at hx hr ⊢
      have hc := ends_completed .shutdown w _ hi he
      have hb : ((w.begin (.can .shutdown)).run (r.sched .shutdown w)).bus = (CanL.Sys.fresh true).run (w.can ++ .call .shutdown :: canEvs (r.sched .shutdown w)) := by
        rw [bus_run]
        simp [World.bus, World.begin, CanL.Sys.run]
      refine ⟨⟨_, later_call w _ _, ?_, later_refl _⟩, idle_end _ w _ hi he, fun j _ => ⟨fun h => settled_kept _ _ j h, fun h => stopped_kept _ _ j h⟩, fun j hj => nomatch hj⟩
      show BusClosed _
      rw [hb]
      obtain ⟨h1, h2, h3, -, h5, -⟩ := Props.C85_shutdown true _ _ hc
      exact ⟨h3, h1, h2, h5⟩
    · simp only [he] at hx
      cases hx
  | node i =>
    simp only [layer, starts] at hx hr ⊢
    generalize r.closing w = cl at *
    by_cases he : (w.begin (.nodeStop i cl)).ends (.nodeStop i cl) (r.sched .shutdown w) = true
    · simp only [he, if_true] at hx hr ⊢
      rw [nodeStop_ends i cl w _ he] at hx hr ⊢
      have hn : (w.begin (.nodeStop i cl)).node i = stopNode (w.node i) cl := by simp [World.begin]
      have hrun : ((w.begin (.nodeStop i cl)).run []) = w.begin (.nodeStop i cl) := rfl
      rw [hrun] at hx hr ⊢
      have hfine : (stopNode (w.node i) cl).pc = .done .fine := by
        simp only [result, hn] at hx hr
        have hd : ∃ r, (stopNode (w.node i) cl).pc = .done r := ⟨_, rfl⟩
        obtain ⟨x, hp⟩ := hd
        cases x with
        | fine => exact hp
        | error => simp [hp, IsError] at hr
        | exception => simp [hp] at hx
      have hdown := stopNode_fine (w.node i) cl (hq.2 i (by simp)).1 hfine
      refine ⟨⟨_, later_call w (.nodeStop i cl) [], ?_, later_refl _⟩, hi, fun j hj => ?_, fun j hj => ?_⟩
      · show NodeDown (((w.begin _).run []).node i)
        rw [hrun, hn]; exact hdown
      · have : j ≠ i := fun h => hj (by rw [h])
        simp [World.begin, this]
      · cases hj
        rw [hn]; exact hdown.2
    · simp only [he] at hx
      cases hx
  | motor i =>
    simp only [layer, starts] at hx hr ⊢
    by_cases he : (w.begin (.motor i .shutdown)).ends (.motor i .shutdown) (r.sched .shutdown w) = true
    · simp only [he, if_true] at hx hr ⊢
      have hn : (w.begin (.motor i .shutdown)).motor i = (w.motor i).begin .shutdown := by simp [World.begin]
      have hrun : ((w.begin (.motor i .shutdown)).run (r.sched .shutdown w)).motor i = ((w.motor i).begin .shutdown).run (motorEvs i (r.sched .shutdown w)) := by rw [run_motor, hn]
      have hno := noCall_motorEvs i (r.sched .shutdown w)
      have hnh' := noHalt_motorEvs i (r.sched .shutdown w) (hnh w i)
      have hb := ends_busy _ _ _ he
      simp only [busy, Bool.not_eq_false'] at hb
      have hm : (((w.begin (.motor i .shutdown)).run (r.sched .shutdown w)).motor i).msgs = [] := by
        simp only [result] at hr
        cases hl : (((w.begin (.motor i .shutdown)).run (r.sched .shutdown w)).motor i).msgs with
        | nil => rfl
        | cons x l =>
          exfalso
          split at hr <;> simp [hl, IsError] at hr
      have hg := going_run _ _ hno (show Going ((w.motor i).begin .shutdown) from ⟨rfl, Or.inl rfl⟩)
      rw [← hrun] at hg
      have hp : (((w.begin (.motor i .shutdown)).run (r.sched .shutdown w)).motor i).pc = .finished true := by
        rcases hg.2 with h | h | h
        · exfalso
          revert h hb
          simp only [Spec.Hand.job, Hand.Sys.free]
          cases (((w.begin (.motor i .shutdown)).run (r.sched .shutdown w)).motor i).pc <;> simp
        · exact h
        · simp [result, h] at hx
      have hf : Spec.Hand.Fine (((w.begin (.motor i .shutdown)).run (r.sched .shutdown w)).motor i) := ⟨hm, true, hp⟩
      rw [hrun] at hf
      obtain ⟨v, hv, hen⟩ := Props.C91_shutdown_partial (w.motor i) _ hno hnh' hf
      rw [← hn] at hv
      obtain ⟨p, q, hpq, hpv⟩ := visited_motor i _ _ v hv
      refine ⟨⟨_, later_call w (.motor i .shutdown) p, ?_, _, ?_, ?_, later_refl _⟩, idle_end _ w _ hi he,
        fun j _ => ⟨fun h => settled_kept _ _ j h, fun h => stopped_kept _ _ j h⟩, fun j hj => nomatch hj⟩
      · show (((w.begin _).run p).motor i).m.hs = .disabled
        rw [hpv]; exact hen
      · have := later_run ((w.begin (.motor i .shutdown)).run p) q
        have h2 : ((w.begin (.motor i .shutdown)).run p).run q = (w.begin (.motor i .shutdown)).run (r.sched .shutdown w) := by
          rw [hpq]; simp [World.run]
        rw [← h2]; exact this
      · exact ⟨hp, hm, hg.1⟩
    · simp only [he] at hx
      cases hx
  | other i =>
    simp only [layer, starts] at hx hr ⊢
    exact ⟨later_run _ _, idle_kept w _ hi, fun j _ => ⟨settled_kept w _ j, stopped_kept w _ j⟩, fun j hj => nomatch hj⟩

/-! trees of layers -/

/-- what is kept and reached when `ks` are shut down between `w` and `w'` -/
structure Closed (w w' : World) (ks : List Kind) : Prop where
  passes : Passes w w' (ks.flatMap down)
  idle : w'.bus.pc = .idle
  rested : ∀ j, Kind.node j ∉ ks → Rested (w.node j) → Rested (w'.node j)
  stays : ∀ j, Kind.node j ∉ ks → Stopped (w.node j) → Stopped (w'.node j)
  stopped : ∀ j, Kind.node j ∈ ks → Stopped (w'.node j)

theorem closed_append {u v w : World} {a b : List Kind} (hd : (a ++ b).Nodup) (h1 : Closed u v a) (h2 : Closed v w b) : Closed u w (a ++ b) := by
  rw [List.nodup_append] at hd
  refine ⟨?_, h2.idle, fun j hj h => ?_, fun j hj h => ?_, fun j hj => ?_⟩
  · rw [List.flatMap_append]; exact passes_append _ h1.passes h2.passes
  · rw [List.mem_append, not_or] at hj
    exact h2.rested j hj.2 (h1.rested j hj.1 h)
  · rw [List.mem_append, not_or] at hj
    exact h2.stays j hj.2 (h1.stays j hj.1 h)
  · rcases List.mem_append.1 hj with hj | hj
    · exact h2.stays j (fun hx => hd.2.2 _ hj _ hx rfl) (h1.stopped j hj)
    · exact h2.stopped j hj

/-- what `tree_down` says of a tree -/
def Down (t : Tree World) : Prop := ∀ (e : Env World) (st : LayerState) (ks : List Kind), st ≠ .off → Uniform st t → Closes t ks → ks.Nodup → Steady e.world ks →
  sv (t.shutdown e).2 ≤ 1 → Closed e.world (t.shutdown e).2.world ks

theorem seqF_mono (ts : List (Tree World)) : ∀ e : Env World, sv e ≤ sv (seqF Tree.shutdown ts e).2 := by
  induction ts with
  | nil => intro e; exact Nat.le_refl _
  | cons t ts ih => intro e; exact Nat.le_trans (shutdown_mono t e) (ih _)

theorem listF_down (ts : List (Tree World)) (hts : ∀ t ∈ ts, Down t) : ∀ (e : Env World) (st : LayerState) (ks : List Kind), st ≠ .off →
    (∀ t ∈ ts, Uniform st t) → ClosesAll false ts ks → ks.Nodup → Steady e.world ks → sv (seqF Tree.shutdown ts e).2 ≤ 1 →
    Closed e.world (seqF Tree.shutdown ts e).2.world ks := by
  induction ts with
  | nil =>
    intro e st ks _ _ hc _ hq _
    rw [ClosesAll] at hc
    subst hc
    exact ⟨later_refl _, hq.1, fun j _ h => h, fun j _ h => h, fun j h => nomatch h⟩
  | cons t ts ih =>
    intro e st ks hst hu hc hd hq hs
    rw [ClosesAll] at hc
    obtain ⟨a, b, ha, hb, rfl⟩ := hc
    simp only [Bool.false_eq_true, if_false] at hd hq ⊢
    have hle : sv (t.shutdown e).2 ≤ 1 := Nat.le_trans (seqF_mono ts _) hs
    have hd' := List.nodup_append.1 hd
    have h1 := hts t (by simp) e st a hst (hu t (by simp)) ha hd'.1 ⟨hq.1, fun i hi => hq.2 i (List.mem_append_left _ hi)⟩ hle
    have h2 := ih (fun x hx => hts x (List.mem_cons_of_mem _ hx)) (t.shutdown e).2 st b hst (fun x hx => hu x (List.mem_cons_of_mem _ hx)) hb hd'.2.1
      ⟨h1.idle, fun i hi => h1.rested i (fun hx => hd'.2.2 _ hx _ hi rfl) (hq.2 i (List.mem_append_right _ hi))⟩ hs
    exact closed_append hd h1 h2

theorem listR_down (ts : List (Tree World)) (hts : ∀ t ∈ ts, Down t) : ∀ (e : Env World) (st : LayerState) (ks : List Kind), st ≠ .off →
    (∀ t ∈ ts, Uniform st t) → ClosesAll true ts ks → ks.Nodup → Steady e.world ks → sv (seqR Tree.shutdown ts e).2 ≤ 1 →
    Closed e.world (seqR Tree.shutdown ts e).2.world ks := by
  induction ts with
  | nil =>
    intro e st ks _ _ hc _ hq _
    rw [ClosesAll] at hc
    subst hc
    exact ⟨later_refl _, hq.1, fun j _ h => h, fun j _ h => h, fun j h => nomatch h⟩
  | cons t ts ih =>
    intro e st ks hst hu hc hd hq hs
    rw [ClosesAll] at hc
    obtain ⟨a, b, ha, hb, rfl⟩ := hc
    simp only [if_true] at hd hq ⊢
    have hle : sv (seqR Tree.shutdown ts e).2 ≤ 1 := Nat.le_trans (shutdown_mono t _) hs
    have hd' := List.nodup_append.1 hd
    have h1 := ih (fun x hx => hts x (List.mem_cons_of_mem _ hx)) e st b hst (fun x hx => hu x (List.mem_cons_of_mem _ hx)) hb hd'.1
      ⟨hq.1, fun i hi => hq.2 i (List.mem_append_left _ hi)⟩ hle
    have h2 := hts t (by simp) (seqR Tree.shutdown ts e).2 st a hst (hu t (by simp)) ha hd'.2.1
      ⟨h1.idle, fun i hi => h1.rested i (fun hx => hd'.2.2 _ hx _ hi rfl) (hq.2 i (List.mem_append_right _ hi))⟩ hs
    exact closed_append hd h1 h2

theorem tree_down (t : Tree World) : Down t := by
  induction t using Tree.induct with
  | leaf id st h tr =>
    intro e st' ks hst hu hc hd hq hs
    rw [uniform_leaf] at hu
    subst hu
    rw [Closes] at hc
    obtain ⟨k, r, rfl, hnh, rfl⟩ := hc
    unfold Tree.shutdown at hs ⊢
    rw [if_pos hst] at hs ⊢
    obtain ⟨h3, h4⟩ := call_fine _ _ _ _ _ hs
    obtain ⟨g1, g2, g3, g4⟩ := layer_down k r hnh .shutdown e.world e.status hq h3 h4
    refine ⟨?_, g2, fun j hj => (g3 j (fun h => hj (by simp [h]))).1, fun j hj => (g3 j (fun h => hj (by simp [h]))).2, fun j hj => g4 j (by simpa using hj)⟩
    simpa [callHandler] using g1
  | group stack st ms ih =>
    intro e st' ks hst hu hc hd hq hs
    rw [uniform_group] at hu
    obtain ⟨rfl, hu⟩ := hu
    rw [Closes] at hc
    unfold Tree.shutdown at hs ⊢
    rw [if_pos hst] at hs ⊢
    dsimp only at hs ⊢
    cases stack with
    | true =>
      simp only [if_true, shutdownRev_eq] at hs ⊢
      exact listR_down ms ih e _ ks hst hu hc hd hq hs
    | false =>
      simp only [Bool.false_eq_true, if_false, shutdownList_eq] at hs ⊢
      exact listF_down ms ih e _ ks hst hu hc hd hq hs

theorem shutdown_consists (t : Tree World) : ∀ ks, Consists t ks → ∀ e, Consists (t.shutdown e).1 ks := by
  induction t using Tree.induct with
  | leaf id st h tr =>
    intro ks hc e
    unfold Tree.shutdown
    split <;> simpa [Consists] using hc
  | group stack st ms ih =>
    intro ks hc e
    unfold Tree.shutdown
    split
    · rw [Consists] at hc
      dsimp only
      rw [Consists]
      cases stack with
      | true =>
        simp only [if_true, shutdownRev_eq]
        induction ms generalizing ks e with
        | nil => exact hc
        | cons t ts iht =>
          rw [ConsistsAll] at hc
          obtain ⟨a, b, h1, h2, h3⟩ := hc
          simp only [seqR, ConsistsAll]
          exact ⟨a, b, h1, ih t (by simp) a h2 _, iht (fun x hx => ih x (List.mem_cons_of_mem _ hx)) b h3 e⟩
      | false =>
        simp only [Bool.false_eq_true, if_false, shutdownList_eq]
        induction ms generalizing ks e with
        | nil => exact hc
        | cons t ts iht =>
          rw [ConsistsAll] at hc
          obtain ⟨a, b, h1, h2, h3⟩ := hc
          simp only [seqF, ConsistsAll]
          exact ⟨a, b, h1, ih t (by simp) a h2 _, iht (fun x hx => ih x (List.mem_cons_of_mem _ hx)) b h3 _⟩
    · exact hc

end Verif.SUp
