import Verif.Lemmas.StartUp

/-! # Recovering a chain (C122) -/

namespace Verif.SUp
open Verif Verif.Lay Verif.Spec Verif.Spec.SUp

theorem frame_idle (n : Nmt.Node) (f : Frame) (now : Int) (h : n.phase = .idle) : (n.step (.frame f now)).1.phase = .idle := by
  simp only [Nmt.Node.step, Nmt.Node.handleNMT, Nmt.Node.switchState]
  repeat' split
  all_goals exact h

theorem settled_step (i : Nmt.Initing) (e : Nmt.IEv) (h : Rested i) : Rested (i.step e) := by
  obtain ⟨h3, r, h4⟩ := h
  cases e with
  | frame f now =>
    refine ⟨?_, r, ?_⟩
    · simp only [Nmt.Initing.step, Nmt.Initing.frame]
      split <;> exact frame_idle i.node f now h3
    · simp only [Nmt.Initing.step, Nmt.Initing.frame]
      split <;> exact h4
  | next p now => simp [Nmt.Initing.step, Nmt.Initing.next, h4, Rested, h3]
  | wake => simp [Nmt.Initing.step, Nmt.Initing.cont, h4, Rested, h3]
  | expire now sdo t => simp [Nmt.Initing.step, Nmt.Initing.cont, h4, Rested, h3]
  | finish ok t => simp [Nmt.Initing.step, Nmt.Initing.cont, h4, Rested, h3]

theorem settled_kept (w : World) (es : List Ev) (i : Nat) (h : Rested (w.node i)) : Rested ((w.run es).node i) := by
  rw [run_node]
  generalize w.node i = x at h
  generalize nodeEvs i es = l
  induction l generalizing x with
  | nil => exact h
  | cons e l ih => exact ih _ (settled_step x e h)

theorem ends_again (i : Nat) (now : Int) (es : List Ev) : ∀ w : World, w.ends (.nodeAgain i now) es = w.ends (.node i) es := by
  induction es with
  | nil => intro w; rfl
  | cons e es ih => intro w; simp only [World.ends, ih]; rfl

/-- a successful initialisation of a layer shows what it should -/
theorem layer_again (k : Kind) (r : Rest) (st : LayerState) (w : World) (s : Status) (hq : Steady w [k]) (hx : ((layer k r).run .recover st w s).2.2 = none)
    (hr : ∀ x ∈ ((layer k r).run .recover st w s).2.1, IsError x = false) :
    Passes w ((layer k r).run .recover st w s).1 (again k) ∧ ((layer k r).run .recover st w s).1.bus.pc = .idle ∧
    ∀ j, Kind.node j ≠ k → Rested (w.node j) → Rested (((layer k r).run .recover st w s).1.node j) := by
  have hi := hq.1
  cases k with
  | can =>
    simp only [layer, starts] at hx hr ⊢
    by_cases he : (w.begin (.can .recover)).ends (.can .recover) (r.sched .recover w) = true
    · simp only [he, if_true] at hx hr ⊢
      have hc := ends_completed .recover w _ hi he
      have hb : ((w.begin (.can .recover)).run (r.sched .recover w)).bus = (CanL.Sys.fresh true).run (w.can ++ .call .recover :: canEvs (r.sched .recover w)) := by
        rw [bus_run]
        simp [World.bus, World.begin, CanL.Sys.run]
      refine ⟨⟨_, later_call w _ _, ?_, later_refl _⟩, idle_end _ w _ hi he, fun j _ hj => settled_kept _ _ j hj⟩
      show Running _
      rw [hb]
      exact Props.C85_init_and_recover .recover (Or.inr rfl) _ _ hc (fun x hx' => hr x (by simp only [result]; rw [hb]; exact hx'))
    · simp only [he] at hx
      cases hx
  | node i =>
    simp only [layer, starts] at hx hr ⊢
    by_cases he : (w.begin (.nodeAgain i (r.now w))).ends (.nodeAgain i (r.now w)) (r.sched .recover w) = true
    · simp only [he, if_true] at hx hr ⊢
      generalize r.now w = now at *
      have hn : (w.begin (.nodeAgain i now)).node i = (w.node i).node.beginRecover now := by simp [World.begin]
      have hrun : ((w.begin (.nodeAgain i now)).run (r.sched .recover w)).node i = ((w.node i).node.beginRecover now).run (nodeEvs i (r.sched .recover w)) := by rw [run_node, hn]
      obtain ⟨h3, -⟩ := hq.2 i (by simp)
      rcases ends_node i _ _ ((ends_again i now _ _).symm.trans he) with ⟨hb, -⟩ | ⟨a, e, ha, hd⟩
      · simp [busy, hn, Nmt.Node.beginRecover] at hb
      · rw [hn] at hd
        have hfine : (((w.node i).node.beginRecover now).run (a ++ [e])).pc = .done .fine := by
          rw [ha] at hrun
          have hb := ends_busy _ _ _ he
          simp only [busy, hrun] at hb
          simp only [result, hrun] at hx hr
          cases hp : (((w.node i).node.beginRecover now).run (a ++ [e])).pc with
          | done x =>
            cases x with
            | fine => rfl
            | error => simp [hp, IsError] at hr
            | exception => simp [hp] at hx
          | _ => simp [hp] at hb
        obtain ⟨g1, -⟩ := Props.C89_recover_partial _ h3 now a e hd hfine
        refine ⟨⟨_, later_call w _ _, ?_, later_refl _⟩, idle_end _ w _ hi he, fun j hj hs => settled_kept _ _ j ?_⟩
        · show NodeAgain (((w.begin (.nodeAgain i now)).run (r.sched .recover w)).node i)
          rw [hrun, ha]
          refine ⟨hfine, ?_⟩
          rw [g1, (Nmt.run_inv' _ true _ (a ++ [e]) (Nmt.recover_inv _ now h3)).id]
        · have : j ≠ i := fun h => hj (by rw [h])
          simpa [World.begin, this] using hs
    · simp only [he] at hx
      cases hx
  | motor i =>
    simp only [layer, starts] at hx hr ⊢
    by_cases he : (w.begin (.motor i .recover)).ends (.motor i .recover) (r.sched .recover w) = true
    · simp only [he, if_true] at hx hr ⊢
      generalize hc : Hand.Call.recover = c at *
      have hn : (w.begin (.motor i c)).motor i = (w.motor i).begin c := by simp [World.begin]
      have hrun : ((w.begin (.motor i c)).run (r.sched .recover w)).motor i = ((w.motor i).begin c).run (motorEvs i (r.sched .recover w)) := by rw [run_motor, hn]
      have hno := noCall_motorEvs i (r.sched .recover w)
      have hb := ends_busy _ _ _ he
      simp only [busy, Bool.not_eq_false'] at hb
      have hm : (((w.begin (.motor i c)).run (r.sched .recover w)).motor i).msgs = [] := by
        simp only [result] at hr
        cases hl : (((w.begin (.motor i c)).run (r.sched .recover w)).motor i).msgs with
        | nil => rfl
        | cons x l =>
          exfalso
          split at hr <;> simp [hl, IsError] at hr
      have hp : ∃ ok, (((w.begin (.motor i c)).run (r.sched .recover w)).motor i).pc = .finished ok := by
        have hni : (((w.begin (.motor i c)).run (r.sched .recover w)).motor i).pc ≠ .idle := by
          rw [hrun]
          exact motor_not_idle _ _ (begin_not_idle _ _)
        simp only [result] at hx
        cases hq : (((w.begin (.motor i c)).run (r.sched .recover w)).motor i).pc <;> simp [hq, Hand.Sys.free] at hb hx hni ⊢
      have hf : Spec.Hand.Fine (((w.begin (.motor i c)).run (r.sched .recover w)).motor i) := ⟨hm, hp⟩
      obtain ⟨ok, hok⟩ := hp
      rw [hrun] at hf hok hm
      have hok' : ok = true := by
        cases ok with
        | true => rfl
        | false => exact absurd hm ((Props.C91_report (w.motor i) c (by rw [← hc]; simp) _ hno).2 (by rw [← hc]; simp) hok)
      subst hok'
      subst hc
      obtain ⟨v, hv, hen⟩ := Props.C91_recover (w.motor i) _ hno hf
      rw [← hn] at hv
      obtain ⟨p, q, hpq, hpv⟩ := visited_motor i _ _ v hv
      refine ⟨⟨_, later_call w (.motor i .recover) p, ?_, _, ?_, ?_, later_refl _⟩, idle_end _ w _ hi he, fun j _ hj => settled_kept _ _ j hj⟩
      · show (((w.begin _).run p).motor i).m.hs = .enabled
        rw [hpv]; exact hen
      · have := later_run ((w.begin (.motor i .recover)).run p) q
        have h2 : ((w.begin (.motor i .recover)).run p).run q = (w.begin (.motor i .recover)).run (r.sched .recover w) := by
          rw [hpq]; simp [World.run]
        rw [← h2]; exact this
      · show MotorAgain (((w.begin _).run _).motor i)
        rw [hrun]
        exact ⟨hok, hm⟩
    · simp only [he] at hx
      cases hx
  | other i =>
    simp only [layer, starts] at hx hr ⊢
    exact ⟨later_run _ _, idle_kept w _ hi, fun j _ hj => settled_kept w _ j hj⟩

/-! trees of layers -/

theorem finish_again (t : Tree World) (e : Env World) (h : sv (finishRecover t e).2 ≤ 1) : (finishRecover t e).2 = e ∧ sv e ≤ 1 := by
  have hm := finishRecover_mono t e
  have hb : sv e ≤ 1 := by omega
  unfold finishRecover
  rw [if_neg (by rw [not_bounded_iff]; omega)]
  cases t <;> exact ⟨rfl, hb⟩

/-- what `tree_again` says of a tree -/
def Again (t : Tree World) : Prop := ∀ (e : Env World) (ks : List Kind), Uniform .error t → Consists t ks → ks.Nodup → Steady e.world ks → sv (t.recover e).2 ≤ 1 →
  Passes e.world (t.recover e).2.world (ks.flatMap again) ∧ (t.recover e).2.world.bus.pc = .idle ∧
  ∀ j, Kind.node j ∉ ks → Rested (e.world.node j) → Rested ((t.recover e).2.world.node j)

theorem list_again (ts : List (Tree World)) (hts : ∀ t ∈ ts, Again t) : ∀ (e : Env World) (ks : List Kind), (∀ t ∈ ts, Uniform .error t) → ConsistsAll ts ks → ks.Nodup →
    Steady e.world ks → sv (seqS Tree.recover ts true e).2 ≤ 1 →
    Passes e.world (seqS Tree.recover ts true e).2.world (ks.flatMap again) ∧ (seqS Tree.recover ts true e).2.world.bus.pc = .idle ∧
    ∀ j, Kind.node j ∉ ks → Rested (e.world.node j) → Rested ((seqS Tree.recover ts true e).2.world.node j) := by
  induction ts with
  | nil =>
    intro e ks _ hc _ hq _
    rw [ConsistsAll] at hc
    subst hc
    exact ⟨later_refl _, hq.1, fun j _ h => h⟩
  | cons t ts ih =>
    intro e ks hu hc hd hq hs
    rw [ConsistsAll] at hc
    obtain ⟨a, b, rfl, ha, hb⟩ := hc
    have hle : sv (t.recover e).2 ≤ 1 := by
      rcases Nat.lt_or_ge 1 (sv (t.recover e).2) with h | h
      · rw [seqS] at hs
        simp only at hs
        rw [if_pos (by rw [Bool.true_and, not_bounded_iff]; exact h)] at hs
        exact hs
      · exact h
    have heq : (seqS Tree.recover (t :: ts) true e).2 = (seqS Tree.recover ts true (t.recover e).2).2 := by
      rw [seqS]
      simp only
      rw [if_neg (by rw [Bool.true_and, not_bounded_iff]; omega)]
    rw [heq] at hs ⊢
    rw [List.nodup_append] at hd
    obtain ⟨h1, h2, h3⟩ := hts t (by simp) e a (hu t (by simp)) ha hd.1 ⟨hq.1, fun i hi => hq.2 i (List.mem_append_left _ hi)⟩ hle
    obtain ⟨g1, g2, g3⟩ := ih (fun x hx => hts x (List.mem_cons_of_mem _ hx)) (t.recover e).2 b (fun x hx => hu x (List.mem_cons_of_mem _ hx)) hb hd.2.1
      ⟨h2, fun i hi => h3 i (fun hx => hd.2.2 _ hx _ hi rfl) (hq.2 i (List.mem_append_right _ hi))⟩ hs
    refine ⟨?_, g2, fun j hj hst => g3 j (fun h => hj (List.mem_append_right _ h)) (h3 j (fun h => hj (List.mem_append_left _ h)) hst)⟩
    rw [List.flatMap_append]
    exact passes_append _ h1 g1

theorem tree_again (t : Tree World) : Again t := by
  induction t using Tree.induct with
  | leaf id st h tr =>
    intro e ks hu hc hd hq hs
    rw [uniform_leaf] at hu
    subst hu
    rw [Consists] at hc
    obtain ⟨k, r, rfl, rfl⟩ := hc
    have hb : sv e ≤ 1 := Nat.le_trans (recover_mono _ e) hs
    unfold Tree.recover at hs ⊢
    simp only [if_true, (bounded_iff e).2 hb] at hs ⊢
    obtain ⟨h1, h2⟩ := finish_again _ _ hs
    rw [h1]
    obtain ⟨h3, h4⟩ := call_fine _ _ _ _ _ h2
    obtain ⟨g1, g2, g3⟩ := layer_again k r .recover e.world e.status hq h3 h4
    refine ⟨?_, g2, fun j hj hst => g3 j (fun h => hj (by simp [h])) hst⟩
    simpa [callHandler] using g1
  | group stack st ms ih =>
    intro e ks hu hc hd hq hs
    rw [uniform_group] at hu
    obtain ⟨rfl, hu⟩ := hu
    rw [Consists] at hc
    have hb : sv e ≤ 1 := Nat.le_trans (recover_mono _ e) hs
    unfold Tree.recover at hs ⊢
    simp only [if_true, (bounded_iff e).2 hb, recoverList_eq] at hs ⊢
    obtain ⟨h1, h2⟩ := finish_again _ _ hs
    rw [h1]
    exact list_again ms ih e ks hu hc hd hq h2

end Verif.SUp
