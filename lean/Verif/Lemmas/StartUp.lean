import Verif.Spec.StartUp
import Verif.Lemmas.Layer
import Verif.Lemmas.Supervision
import Verif.Props.CanLayer
import Verif.Props.NodeLayer
import Verif.Props.MotorHandlers

namespace Verif.SUp
open Verif Verif.Lay Verif.Spec Verif.Spec.SUp

/-! what a schedule is for one of the parts -/

def canEvs (es : List Ev) : List CanL.Ev := es.filterMap fun e => match e with
  | .can (.call _) => none
  | .can e => some e
  | _ => none

def nodeEvs (i : Nat) (es : List Ev) : List Nmt.IEv := es.filterMap fun e => match e with
  | .node j e => if j = i then some e else none
  | _ => none

def motorEvs (i : Nat) (es : List Ev) : List Hand.HEv := es.filterMap fun e => match e with
  | .motor _ (.call _) => none
  | .motor j e => if j = i then some e else none
  | _ => none

theorem run_can (es : List Ev) : ∀ w : World, (w.run es).can = w.can ++ canEvs es := by
  induction es with
  | nil => intro w; simp [World.run, canEvs]
  | cons e es ih =>
    intro w
    show ((w.step e).run es).can = _
    rw [ih]
    cases e with
    | can c => cases c <;> simp [World.step, canEvs]
    | node i c => simp [World.step, canEvs]
    | motor i c => cases c <;> simp [World.step, canEvs]

theorem run_hung (es : List Ev) : ∀ w : World, (w.run es).hung = w.hung := by
  induction es with
  | nil => intro w; rfl
  | cons e es ih =>
    intro w
    show ((w.step e).run es).hung = _
    rw [ih]
    cases e with
    | can c => cases c <;> rfl
    | node i c => rfl
    | motor i c => cases c <;> rfl

theorem run_node (i : Nat) (es : List Ev) : ∀ w : World, (w.run es).node i = (w.node i).run (nodeEvs i es) := by
  induction es with
  | nil => intro w; rfl
  | cons e es ih =>
    intro w
    show ((w.step e).run es).node i = _
    rw [ih]
    cases e with
    | can c => cases c <;> simp [World.step, nodeEvs]
    | node j c =>
      by_cases h : j = i
      · subst h; simp [World.step, nodeEvs, Nmt.Initing.run]
      · simp [World.step, nodeEvs, h, Ne.symm h]
    | motor i c => cases c <;> simp [World.step, nodeEvs]

theorem run_motor (i : Nat) (es : List Ev) : ∀ w : World, (w.run es).motor i = (w.motor i).run (motorEvs i es) := by
  induction es with
  | nil => intro w; rfl
  | cons e es ih =>
    intro w
    show ((w.step e).run es).motor i = _
    rw [ih]
    cases e with
    | can c => cases c <;> simp [World.step, motorEvs]
    | node j c => simp [World.step, motorEvs]
    | motor j c =>
      by_cases h : j = i
      · subst h; cases c <;> simp [World.step, motorEvs, Hand.Sys.run]
      · cases c <;> simp [World.step, motorEvs, h, Ne.symm h]

theorem noCall_motorEvs (i : Nat) (es : List Ev) : Spec.Hand.NoCall (motorEvs i es) := by
  intro c hc
  simp only [motorEvs, List.mem_filterMap] at hc
  obtain ⟨e, -, he⟩ := hc
  cases e with
  | motor j x => cases x <;> simp at he
  | _ => simp at he

/-! parts that nobody calls -/

theorem step_idle (s : CanL.Sys) (e : CanL.Ev) (hc : ∀ c, e ≠ .call c) (h : s.pc = .idle) : (s.step e).pc = .idle := by
  have hset : ∀ x, (s.set x).pc = s.pc := by
    intro x; unfold CanL.Sys.set CanL.Sys.tell; repeat' split
    all_goals rfl
  cases e with
  | call c => exact absurd rfl (hc c)
  | caller c => simp [CanL.Sys.step, CanL.Sys.callerStep, h]
  | worker ec =>
    simp only [CanL.Sys.step, CanL.Sys.workerStep]
    split <;> simp [CanL.Sys.setDrv, CanL.Sys.setErr, hset, h]
    · split <;> simp [h]
    · split <;> simp [h]
    · simp [CanL.Sys.tell]; split <;> simp [h]
  | upd i =>
    simp only [CanL.Sys.step]
    split
    · exact h
    · rename_i u _
      cases u <;> simp [CanL.Sys.updStep, CanL.Sys.setErr, CanL.Sys.setInt, CanL.Sys.setDrv, hset, h]
  | _ =>
    simp only [CanL.Sys.step]
    split <;> simp [h]

theorem run_idle (es : List CanL.Ev) : ∀ (s : CanL.Sys), (∀ e ∈ es, ∀ c, e ≠ .call c) → s.pc = .idle → (s.run es).pc = .idle := by
  induction es with
  | nil => intro s _ h; exact h
  | cons e es ih =>
    intro s hc h
    exact ih (s.step e) (fun x hx => hc x (List.mem_cons_of_mem _ hx)) (step_idle s e (hc e (by simp)) h)

theorem canEvs_noCall (es : List Ev) : ∀ e ∈ canEvs es, ∀ c, e ≠ .call c := by
  intro e he c hx
  simp only [canEvs, List.mem_filterMap] at he
  obtain ⟨x, -, hx'⟩ := he
  cases x with
  | can y => cases y <;> simp at hx' <;> subst hx' <;> cases hx
  | _ => simp at hx'

theorem bus_run (w : World) (es : List Ev) : (w.run es).bus = w.bus.run (canEvs es) := by
  unfold World.bus
  rw [run_can]
  simp [CanL.Sys.run]

theorem idle_kept (w : World) (es : List Ev) (h : w.bus.pc = .idle) : (w.run es).bus.pc = .idle := by
  rw [bus_run]
  exact run_idle _ _ (canEvs_noCall es) h

theorem stopped_step (i : Nmt.Initing) (e : Nmt.IEv) (h : Stopped i) : Stopped (i.step e) := by
  obtain ⟨h1, h2, h3, r, h4⟩ := h
  cases e with
  | frame f now => simp [Nmt.Initing.step, Nmt.Initing.frame, Nmt.Node.step, h1, Stopped, h2, h3, h4]
  | next p now => simp [Nmt.Initing.step, Nmt.Initing.next, h4, Stopped, h1, h2, h3]
  | wake => simp [Nmt.Initing.step, Nmt.Initing.cont, h4, Stopped, h1, h2, h3]
  | expire now sdo t => simp [Nmt.Initing.step, Nmt.Initing.cont, h4, Stopped, h1, h2, h3]
  | finish ok t => simp [Nmt.Initing.step, Nmt.Initing.cont, h4, Stopped, h1, h2, h3]

theorem stopped_kept (w : World) (es : List Ev) (i : Nat) (h : Stopped (w.node i)) : Stopped ((w.run es).node i) := by
  rw [run_node]
  generalize w.node i = x at h
  generalize nodeEvs i es = l
  induction l generalizing x with
  | nil => exact h
  | cons e l ih => exact ih _ (stopped_step x e h)

/-! handlers that return -/

theorem ends_busy (c : Start) (es : List Ev) : ∀ w : World, w.ends c es = true → busy c (w.run es) = false := by
  induction es with
  | nil => intro w h; simpa [World.ends, World.run] using h
  | cons e es ih =>
    intro w h
    simp only [World.ends, Bool.and_eq_true] at h
    exact ih _ h.2

theorem ends_can (c : CanL.Call) (es : List Ev) : ∀ w : World, w.ends (.can c) es = true →
    ∀ k, k < (canEvs es).length → (w.bus.run ((canEvs es).take k)).pc ≠ .idle := by
  induction es with
  | nil => intro w _ k hk; simp [canEvs] at hk
  | cons e es ih =>
    intro w h k hk
    simp only [World.ends, Bool.and_eq_true] at h
    have hb : w.bus.pc ≠ .idle := by simpa [busy] using h.1
    have hih := ih _ h.2
    have skip : canEvs (e :: es) = canEvs es → (w.step e).bus = w.bus → (w.bus.run ((canEvs (e :: es)).take k)).pc ≠ .idle := by
      intro h1 h2
      rw [h1] at hk ⊢
      rw [← h2]
      exact hih k hk
    have take : ∀ x, canEvs (e :: es) = x :: canEvs es → (w.step e).bus = w.bus.step x → (w.bus.run ((canEvs (e :: es)).take k)).pc ≠ .idle := by
      intro x h1 h2
      rw [h1] at hk ⊢
      cases k with
      | zero => exact hb
      | succ k =>
        rw [List.take_succ_cons]
        show ((w.bus.step x).run _).pc ≠ _
        rw [← h2]
        exact hih k (by simpa using hk)
    cases e with
    | can x =>
      cases x with
      | call c => exact skip rfl rfl
      | _ => exact take _ rfl (by simp [World.bus, World.step, CanL.Sys.run])
    | node i x => exact skip rfl rfl
    | motor i x => cases x <;> exact skip rfl rfl

/-- a call of the CAN layer that returns is complete in the sense of C85 -/
theorem ends_completed (c : CanL.Call) (w : World) (es : List Ev) (hi : w.bus.pc = .idle) (h : (w.begin (.can c)).ends (.can c) es = true) :
    Completed true c w.can (canEvs es) := by
  have hrun : ∀ l, (CanL.Sys.fresh true).run (w.can ++ .call c :: l) = (w.begin (.can c)).bus.run l := by
    intro l
    simp [World.bus, World.begin, CanL.Sys.run]
  refine ⟨hi, ?_, fun k hk => ?_⟩
  · have := ends_busy _ _ _ h
    rw [hrun, ← bus_run]
    simpa [busy] using this
  · rw [hrun]
    exact ends_can c es _ h k hk

theorem ends_node (i : Nat) (es : List Ev) : ∀ w : World, w.ends (.node i) es = true →
    (busy (.node i) w = false ∧ es = []) ∨ ∃ a e, nodeEvs i es = a ++ [e] ∧ ∀ x, ((w.node i).run a).pc ≠ .done x := by
  induction es with
  | nil => intro w h; left; exact ⟨by simpa [World.ends] using h, rfl⟩
  | cons e es ih =>
    intro w h
    right
    simp only [World.ends, Bool.and_eq_true] at h
    have hb : ∀ x, (w.node i).pc ≠ .done x := by
      intro x hx
      have := h.1
      simp [busy, hx] at this
    have skip : nodeEvs i (e :: es) = nodeEvs i es → (w.step e).node i = w.node i →
        ∃ a e', nodeEvs i (e :: es) = a ++ [e'] ∧ ∀ x, ((w.node i).run a).pc ≠ .done x := by
      intro h1 h2
      rcases ih _ h.2 with ⟨h3, -⟩ | ⟨a, e', h3, h4⟩
      · exfalso
        have h5 : busy (.node i) (w.step e) = busy (.node i) w := by simp only [busy, h2]
        rw [h5, h.1] at h3
        cases h3
      · exact ⟨a, e', by rw [h1, h3], by rw [← h2]; exact h4⟩
    cases e with
    | can x => cases x <;> exact skip rfl rfl
    | node j x =>
      by_cases hj : j = i
      · subst hj
        have h1 : nodeEvs j (.node j x :: es) = x :: nodeEvs j es := by simp [nodeEvs]
        have h2 : (w.step (.node j x)).node j = (w.node j).step x := by simp [World.step]
        rcases ih _ h.2 with ⟨-, h3⟩ | ⟨a, e', h3, h4⟩
        · subst h3
          exact ⟨[], x, by rw [h1]; rfl, hb⟩
        · exact ⟨x :: a, e', by rw [h1, h3]; rfl, by rw [h2] at h4; exact h4⟩
      · exact skip (by simp [nodeEvs, hj]) (by simp [World.step, Ne.symm hj])
    | motor j x => cases x <;> exact skip rfl rfl

/-- every situation of a motor belongs to one of the whole -/
theorem visited_motor (i : Nat) (es : List Ev) : ∀ w : World, ∀ v ∈ Spec.Hand.visited (w.motor i) (motorEvs i es), ∃ p q, es = p ++ q ∧ (w.run p).motor i = v := by
  induction es with
  | nil =>
    intro w v hv
    simp only [motorEvs, List.filterMap_nil, Spec.Hand.visited, List.mem_singleton] at hv
    exact ⟨[], [], rfl, hv.symm⟩
  | cons e es ih =>
    intro w v hv
    have skip : motorEvs i (e :: es) = motorEvs i es → (w.step e).motor i = w.motor i → ∃ p q, e :: es = p ++ q ∧ (w.run p).motor i = v := by
      intro h1 h2
      rw [h1, ← h2] at hv
      obtain ⟨p, q, h3, h4⟩ := ih _ v hv
      exact ⟨e :: p, q, by rw [h3]; rfl, h4⟩
    have take : ∀ x, motorEvs i (e :: es) = x :: motorEvs i es → (w.step e).motor i = (w.motor i).step x → ∃ p q, e :: es = p ++ q ∧ (w.run p).motor i = v := by
      intro x h1 h2
      rw [h1] at hv
      simp only [Spec.Hand.visited, List.mem_cons] at hv
      rcases hv with hv | hv
      · exact ⟨[], e :: es, rfl, hv.symm⟩
      · rw [← h2] at hv
        obtain ⟨p, q, h3, h4⟩ := ih _ v hv
        exact ⟨e :: p, q, by rw [h3]; rfl, h4⟩
    cases e with
    | can x => cases x <;> exact skip rfl rfl
    | node j x => exact skip rfl rfl
    | motor j x =>
      by_cases hj : j = i
      · subst hj
        cases x with
        | call c => exact skip (by simp [motorEvs]) rfl
        | _ => exact take _ (by simp [motorEvs]; rfl) (by simp [World.step])
      · cases x <;> exact skip (by simp [motorEvs, hj]) (by simp [World.step, Ne.symm hj])

/-! order in time -/

theorem later_refl (w : World) : Later w w := ⟨[], rfl⟩

theorem later_trans {u v w : World} (h : Later u v) (h' : Later v w) : Later u w := by
  obtain ⟨a, rfl⟩ := h
  obtain ⟨b, rfl⟩ := h'
  exact ⟨a ++ b, by simp⟩

theorem later_run (w : World) (es : List Ev) : Later w (w.run es) := by
  refine ⟨es.map .ev, ?_⟩
  induction es generalizing w with
  | nil => rfl
  | cons e es ih => exact ih (w.step e)

theorem later_call (w : World) (c : Start) (es : List Ev) : Later w ((w.begin c).run es) :=
  later_trans ⟨[.call c], rfl⟩ (later_run _ es)

theorem passes_before {u v w : World} {Ps : List (World → Prop)} (h : Later u v) (h' : Passes v w Ps) : Passes u w Ps := by
  cases Ps with
  | nil => exact later_trans h h'
  | cons P Ps => obtain ⟨x, h1, h2, h3⟩ := h'; exact ⟨x, later_trans h h1, h2, h3⟩

theorem passes_append {v w : World} {Qs : List (World → Prop)} (Ps : List (World → Prop)) : ∀ {u : World}, Passes u v Ps → Passes v w Qs → Passes u w (Ps ++ Qs) := by
  induction Ps with
  | nil => intro u h h'; exact passes_before h h'
  | cons P Ps ih =>
    intro u h h'
    obtain ⟨x, h1, h2, h3⟩ := h
    exact ⟨x, h1, h2, ih h3 h'⟩

/-! one layer -/

theorem ret_not_idle (s : Hand.Sys) (j : Hand.Job) (ok : Bool) : (s.ret j ok).pc ≠ .idle := by
  have h1 : ∀ (s : Hand.Sys) h b, (s.modeRet h b).pc ≠ .idle := by
    intro s h b; unfold Hand.Sys.modeRet; repeat' split
    all_goals simp
  have h2 : ∀ (s : Hand.Sys) k h, (s.switchMode k h).pc ≠ .idle := by
    intro s k h; unfold Hand.Sys.switchMode; repeat' split
    all_goals first | exact h1 _ _ _ | simp
  have h3 : ∀ s : Hand.Sys, s.toHoming.pc ≠ .idle := by
    intro s; unfold Hand.Sys.toHoming; repeat' split
    all_goals first | exact h2 _ _ _ | simp
  unfold Hand.Sys.ret
  repeat' split
  all_goals first | exact h1 _ _ _ | exact h3 _ | simp

theorem begin_not_idle (s : Hand.Sys) (c : Hand.Call) : (s.begin c).pc ≠ .idle := by
  have h1 : ∀ (s : Hand.Sys) h b, (s.modeRet h b).pc ≠ .idle := by
    intro s h b; unfold Hand.Sys.modeRet; repeat' split
    all_goals simp
  have h2 : ∀ (s : Hand.Sys) k h, (s.switchMode k h).pc ≠ .idle := by
    intro s k h; unfold Hand.Sys.switchMode; repeat' split
    all_goals first | exact h1 _ _ _ | simp
  unfold Hand.Sys.begin
  repeat' split
  all_goals first | exact h2 _ _ _ | simp

theorem motor_not_idle (es : List Hand.HEv) : ∀ s : Hand.Sys, s.pc ≠ .idle → (s.run es).pc ≠ .idle := by
  have hstep : ∀ (s : Hand.Sys) (e : Hand.HEv), s.pc ≠ .idle → (s.step e).pc ≠ .idle := by
    intro s e h
    cases e with
    | call c =>
      simp only [Hand.Sys.step]; split
      · exact begin_not_idle s c
      · exact h
    | tick now =>
      simp only [Hand.Sys.step, Hand.Sys.tick]
      split <;> (repeat' split) <;> first | exact ret_not_idle _ _ _ | exact h | simp
      simp only [Hand.Sys.command]
      repeat' split
      all_goals first | exact ret_not_idle _ _ _ | simp
    | haltAct =>
      simp only [Hand.Sys.step, Hand.Sys.haltAct]
      repeat' split
      all_goals exact h
    | _ =>
      simp only [Hand.Sys.step]
      repeat' split
      all_goals first | exact h | simp
  induction es with
  | nil => intro s h; exact h
  | cons e es ih => intro s h; exact ih _ (hstep s e h)

theorem idle_end (c : Start) (w : World) (es : List Ev) (h : w.bus.pc = .idle) (he : (w.begin c).ends c es = true) : ((w.begin c).run es).bus.pc = .idle := by
  cases c with
  | can c => simpa [busy] using ends_busy _ _ _ he
  | node i => exact idle_kept _ es h
  | nodeAgain i now => exact idle_kept _ es h
  | nodeStop i _ => exact idle_kept _ es h
  | motor i c => exact idle_kept _ es h

theorem begin_hung (c : Start) (w : World) : (w.begin c).hung = w.hung := by cases c <;> rfl

/-- a handler of any kind keeps the CAN layer free of calls under way, unless it does not return -/
theorem layer_idle (k : Kind) (r : Rest) (m : Method) (st : LayerState) (w : World) (s : Status) (h : w.hung = false → w.bus.pc = .idle) :
    ((layer k r).run m st w s).1.hung = false → w.hung = false ∧ ((layer k r).run m st w s).1.bus.pc = .idle := by
  simp only [layer]
  split
  · rename_i c _
    by_cases he : (w.begin c).ends c (r.sched m w) = true
    · simp only [he, if_true]
      intro hh
      rw [run_hung, begin_hung] at hh
      exact ⟨hh, idle_end c w _ (h hh) he⟩
    · simp only [he]
      intro hh
      cases hh
  · intro hh
    rw [run_hung] at hh
    exact ⟨hh, idle_kept w _ (h hh)⟩

/-- a successful initialisation of a layer shows what it should -/
theorem layer_up (k : Kind) (r : Rest) (st : LayerState) (w : World) (s : Status) (hq : Quiet w [k]) (hx : ((layer k r).run .init st w s).2.2 = none)
    (hr : ∀ x ∈ ((layer k r).run .init st w s).2.1, IsError x = false) :
    Passes w ((layer k r).run .init st w s).1 (moments k) ∧ ((layer k r).run .init st w s).1.bus.pc = .idle ∧
    ∀ j, Kind.node j ≠ k → Stopped (w.node j) → Stopped (((layer k r).run .init st w s).1.node j) := by
  have hi := hq.1
  cases k with
  | can =>
    simp only [layer, starts] at hx hr ⊢
    by_cases he : (w.begin (.can .init)).ends (.can .init) (r.sched .init w) = true
    · simp only [he, if_true] at hx hr ⊢
      have hc := ends_completed .init w _ hi he
      have hb : ((w.begin (.can .init)).run (r.sched .init w)).bus = (CanL.Sys.fresh true).run (w.can ++ .call .init :: canEvs (r.sched .init w)) := by
        rw [bus_run]
        simp [World.bus, World.begin, CanL.Sys.run]
      refine ⟨⟨_, later_call w _ _, ?_, later_refl _⟩, idle_end _ w _ hi he, fun j _ hj => stopped_kept _ _ j hj⟩
      show Running _
      rw [hb]
      exact Props.C85_init_and_recover .init (Or.inl rfl) _ _ hc (fun x hx' => hr x (by simp only [result]; rw [hb]; exact hx'))
    · simp only [he] at hx
      cases hx
  | node i =>
    simp only [layer, starts] at hx hr ⊢
    by_cases he : (w.begin (.node i)).ends (.node i) (r.sched .init w) = true
    · simp only [he, if_true] at hx hr ⊢
      have hn : (w.begin (.node i)).node i = (w.node i).node.beginInit := by simp [World.begin]
      have hrun : ((w.begin (.node i)).run (r.sched .init w)).node i = (w.node i).node.beginInit.run (nodeEvs i (r.sched .init w)) := by rw [run_node, hn]
      obtain ⟨h1, h2, h3, -⟩ := hq.2 i (by simp)
      rcases ends_node i _ _ he with ⟨hb, -⟩ | ⟨a, e, ha, hd⟩
      · simp [busy, hn, Nmt.Node.beginInit] at hb
      · rw [hn] at hd
        have hfine : ((w.node i).node.beginInit.run (a ++ [e])).pc = .done .fine := by
          rw [ha] at hrun
          have hb := ends_busy _ _ _ he
          simp only [busy, hrun] at hb
          simp only [result, hrun] at hx hr
          cases hp : ((w.node i).node.beginInit.run (a ++ [e])).pc with
          | done x =>
            cases x with
            | fine => rfl
            | error => simp [hp, IsError] at hr
            | exception => simp [hp] at hx
          | _ => simp [hp] at hb
        obtain ⟨g1, -, g3⟩ := Props.C89_init_result _ h3 (by rw [h2]; decide) a e hd hfine
        have g4 := (Props.C89_init_order _ h3 (a ++ [e])).2 hfine
        have g5 := Props.C89_init_listens (w.node i).node (a ++ [e]) (by rw [hfine]; simp)
        refine ⟨⟨_, later_call w _ _, ?_, later_refl _⟩, idle_end _ w _ hi he, fun j hj hs => stopped_kept _ _ j ?_⟩
        · show NodeUp (((w.begin (.node i)).run (r.sched .init w)).node i)
          rw [hrun, ha]
          refine ⟨g1, g5, ?_, g3⟩
          rw [g4, (Nmt.run_inv' _ false _ (a ++ [e]) (Nmt.begin_inv _ h3)).id]
        · have : j ≠ i := fun h => hj (by rw [h])
          simpa [World.begin, this] using hs
    · simp only [he] at hx
      cases hx
  | motor i =>
    simp only [layer, starts] at hx hr ⊢
    by_cases he : (w.begin (.motor i (.init (r.first w).1 (r.first w).2))).ends (.motor i (.init (r.first w).1 (r.first w).2)) (r.sched .init w) = true
    · simp only [he, if_true] at hx hr ⊢
      generalize hc : Hand.Call.init (r.first w).1 (r.first w).2 = c at *
      have hn : (w.begin (.motor i c)).motor i = (w.motor i).begin c := by simp [World.begin]
      have hrun : ((w.begin (.motor i c)).run (r.sched .init w)).motor i = ((w.motor i).begin c).run (motorEvs i (r.sched .init w)) := by rw [run_motor, hn]
      have hno := noCall_motorEvs i (r.sched .init w)
      have hb := ends_busy _ _ _ he
      simp only [busy, Bool.not_eq_false'] at hb
      have hm : (((w.begin (.motor i c)).run (r.sched .init w)).motor i).msgs = [] := by
        simp only [result] at hr
        cases hl : (((w.begin (.motor i c)).run (r.sched .init w)).motor i).msgs with
        | nil => rfl
        | cons x l =>
          exfalso
          split at hr <;> simp [hl, IsError] at hr
      have hp : ∃ ok, (((w.begin (.motor i c)).run (r.sched .init w)).motor i).pc = .finished ok := by
        have hni : (((w.begin (.motor i c)).run (r.sched .init w)).motor i).pc ≠ .idle := by
          rw [hrun]
          exact motor_not_idle _ _ (begin_not_idle _ _)
        simp only [result] at hx
        cases hq : (((w.begin (.motor i c)).run (r.sched .init w)).motor i).pc <;> simp [hq, Hand.Sys.free] at hb hx hni ⊢
      have hf : Spec.Hand.Fine (((w.begin (.motor i c)).run (r.sched .init w)).motor i) := ⟨hm, hp⟩
      obtain ⟨ok, hok⟩ := hp
      rw [hrun] at hf hok hm
      have hok' : ok = true := by
        cases ok with
        | true => rfl
        | false => exact absurd hm ((Props.C91_report (w.motor i) c (by rw [← hc]; simp) _ hno).2 (by rw [← hc]; simp) hok)
      subst hok'
      subst hc
      obtain ⟨⟨v, hv, hen⟩, hh⟩ := Props.C91_init (w.motor i) _ _ _ hno hf
      rw [← hn] at hv
      obtain ⟨p, q, hpq, hpv⟩ := visited_motor i _ _ v hv
      refine ⟨⟨_, later_call w (.motor i (.init (r.first w).1 (r.first w).2)) p, ?_, _, ?_, ?_, later_refl _⟩, idle_end _ w _ hi he, fun j _ hj => stopped_kept _ _ j hj⟩
      · show (((w.begin _).run p).motor i).m.hs = .enabled
        rw [hpv]; exact hen
      · have := later_run ((w.begin (.motor i (.init (r.first w).1 (r.first w).2))).run p) q
        have h2 : ((w.begin (.motor i (.init (r.first w).1 (r.first w).2))).run p).run q = (w.begin (.motor i (.init (r.first w).1 (r.first w).2))).run (r.sched .init w) := by
          rw [hpq]; simp [World.run]
        rw [← h2]; exact this
      · show MotorUp (((w.begin _).run _).motor i)
        rw [hrun]
        refine ⟨hok, hm, ?_⟩
        rcases hh with ⟨-, -, h3⟩ | h3
        · exact Or.inl h3
        · exact Or.inr h3
    · simp only [he] at hx
      cases hx
  | other i =>
    simp only [layer, starts] at hx hr ⊢
    exact ⟨later_run _ _, idle_kept w _ hi, fun j _ hj => stopped_kept w _ j hj⟩

/-! trees of layers -/

theorem reports_fine (rs : List Report) : ∀ s : Status, (rs.foldl Status.report s).sev.toNat ≤ 1 → ∀ x ∈ rs, IsError x = false := by
  induction rs with
  | nil => intro s _ x hx; cases hx
  | cons r rs ih =>
    intro s h x hx
    rcases List.mem_cons.1 hx with rfl | hx
    · cases x with
      | error t =>
        have h1 := reports_mono rs (s.report (.error t))
        have h2 := (set_mono s .error t).2.1
        simp only [List.foldl_cons] at h
        have h3 : (2 : Nat) ≤ (s.report (.error t)).sev.toNat := h2
        omega
      | _ => rfl
    · exact ih _ h x hx

theorem call_fine (id : Nat) (h : Handlers World) (m : Method) (st : LayerState) (e : Env World) (hs : sv (callHandler id h m st e) ≤ 1) :
    (h.run m st e.world e.status).2.2 = none ∧ ∀ x ∈ (h.run m st e.world e.status).2.1, IsError x = false := by
  unfold callHandler sv at hs
  simp only at hs
  split at hs
  · rename_i hn
    exact ⟨hn, reports_fine _ _ hs⟩
  · rename_i t hn
    have := (set_mono ((h.run m st e.world e.status).2.1.foldl Status.report e.status) .error t).2.1
    exact absurd hs (Nat.not_le.2 this)

theorem finish_fine (t : Tree World) (e : Env World) (h : sv (finishInit t e).2 ≤ 1) : (finishInit t e).2 = e ∧ sv e ≤ 1 := by
  have hm := finishInit_mono t e
  have hb : sv e ≤ 1 := by omega
  unfold finishInit
  rw [if_neg (by rw [not_bounded_iff]; omega)]
  cases t <;> exact ⟨rfl, hb⟩

/-- what `tree_up` says of a tree -/
def Up (t : Tree World) : Prop := ∀ (e : Env World) (ks : List Kind), Uniform .off t → Consists t ks → ks.Nodup → Quiet e.world ks → sv (t.init e).2 ≤ 1 →
  Passes e.world (t.init e).2.world (ks.flatMap moments) ∧ (t.init e).2.world.bus.pc = .idle ∧
  ∀ j, Kind.node j ∉ ks → Stopped (e.world.node j) → Stopped ((t.init e).2.world.node j)

theorem list_up (ts : List (Tree World)) (hts : ∀ t ∈ ts, Up t) : ∀ (e : Env World) (ks : List Kind), (∀ t ∈ ts, Uniform .off t) → ConsistsAll ts ks → ks.Nodup →
    Quiet e.world ks → sv (seqS Tree.init ts true e).2 ≤ 1 →
    Passes e.world (seqS Tree.init ts true e).2.world (ks.flatMap moments) ∧ (seqS Tree.init ts true e).2.world.bus.pc = .idle ∧
    ∀ j, Kind.node j ∉ ks → Stopped (e.world.node j) → Stopped ((seqS Tree.init ts true e).2.world.node j) := by
  induction ts with
  | nil =>
    intro e ks _ hc _ hq _
    rw [ConsistsAll] at hc
    subst hc
    exact ⟨later_refl _, hq.1, fun j _ h => h⟩
  | cons t ts ih =>
    intro e ks hu hc hd hq hs
    rw [ConsistsAll] at hc
    obtain ⟨a, b, rfl, ha, hb⟩ := hc
    have hle : sv (t.init e).2 ≤ 1 := by
      rcases Nat.lt_or_ge 1 (sv (t.init e).2) with h | h
      · rw [seqS] at hs
        simp only at hs
        rw [if_pos (by rw [Bool.true_and, not_bounded_iff]; exact h)] at hs
        exact hs
      · exact h
    have heq : (seqS Tree.init (t :: ts) true e).2 = (seqS Tree.init ts true (t.init e).2).2 := by
      rw [seqS]
      simp only
      rw [if_neg (by rw [Bool.true_and, not_bounded_iff]; omega)]
    rw [heq] at hs ⊢
    rw [List.nodup_append] at hd
    obtain ⟨h1, h2, h3⟩ := hts t (by simp) e a (hu t (by simp)) ha hd.1 ⟨hq.1, fun i hi => hq.2 i (List.mem_append_left _ hi)⟩ hle
    obtain ⟨g1, g2, g3⟩ := ih (fun x hx => hts x (List.mem_cons_of_mem _ hx)) (t.init e).2 b (fun x hx => hu x (List.mem_cons_of_mem _ hx)) hb hd.2.1
      ⟨h2, fun i hi => h3 i (fun hx => hd.2.2 _ hx _ hi rfl) (hq.2 i (List.mem_append_right _ hi))⟩ hs
    refine ⟨?_, g2, fun j hj hst => g3 j (fun h => hj (List.mem_append_right _ h)) (h3 j (fun h => hj (List.mem_append_left _ h)) hst)⟩
    rw [List.flatMap_append]
    exact passes_append _ h1 g1

theorem tree_up (t : Tree World) : Up t := by
  induction t using Tree.induct with
  | leaf id st h tr =>
    intro e ks hu hc hd hq hs
    rw [uniform_leaf] at hu
    subst hu
    rw [Consists] at hc
    obtain ⟨k, r, rfl, rfl⟩ := hc
    have hb : sv e ≤ 1 := Nat.le_trans (init_mono _ e) hs
    unfold Tree.init at hs ⊢
    simp only [if_true, (bounded_iff e).2 hb] at hs ⊢
    obtain ⟨h1, h2⟩ := finish_fine _ _ hs
    rw [h1]
    obtain ⟨h3, h4⟩ := call_fine _ _ _ _ _ h2
    obtain ⟨g1, g2, g3⟩ := layer_up k r .init e.world e.status hq h3 h4
    refine ⟨?_, g2, fun j hj hst => g3 j (fun h => hj (by simp [h])) hst⟩
    simpa [callHandler] using g1
  | group stack st ms ih =>
    intro e ks hu hc hd hq hs
    rw [uniform_group] at hu
    obtain ⟨rfl, hu⟩ := hu
    rw [Consists] at hc
    have hb : sv e ≤ 1 := Nat.le_trans (init_mono _ e) hs
    unfold Tree.init at hs ⊢
    simp only [if_true, (bounded_iff e).2 hb, initList_eq] at hs ⊢
    obtain ⟨h1, h2⟩ := finish_fine _ _ hs
    rw [h1]
    exact list_up ms ih e ks hu hc hd hq h2

/-! closing the bus -/

/-- nothing but layers of a chain -/
def Lyr (h : Handlers World) : Prop := ∃ k r, h = layer k r

open Verif.Spec.Sup Verif.Sup

theorem consists_every (t : Tree World) : ∀ ks, Consists t ks → EveryLeaf Lyr t := by
  induction t using Tree.induct with
  | leaf id st h tr =>
    intro ks hc
    rw [Consists] at hc
    obtain ⟨k, r, h1, -⟩ := hc
    unfold EveryLeaf
    exact ⟨k, r, h1⟩
  | group stack st ms ih =>
    intro ks hc
    rw [Consists] at hc
    rw [everyLeaf_group]
    revert ks
    induction ms with
    | nil => intro ks _ t ht; cases ht
    | cons x xs ihx =>
      intro ks hc t ht
      rw [ConsistsAll] at hc
      obtain ⟨a, b, -, ha, hb⟩ := hc
      rcases List.mem_cons.1 ht with rfl | ht
      · exact ih t (by simp) a ha
      · exact ihx (fun y hy => ih y (List.mem_cons_of_mem _ hy)) b hb t ht

/-- unless something hangs, no call on the CAN layer is under way -/
def Calm (w w' : World) : Prop := (w.hung = false → w.bus.pc = .idle) → (w'.hung = false → w.hung = false ∧ w'.bus.pc = .idle)

theorem calm_refl (w : World) : Calm w w := fun h h' => ⟨h', h h'⟩
theorem calm_trans {u v w : World} (h : Calm u v) (h' : Calm v w) : Calm u w := by
  intro hu hw
  have hv : v.hung = false → v.bus.pc = .idle := fun x => (h hu x).2
  obtain ⟨a, b⟩ := h' hv hw
  exact ⟨(h hu a).1, b⟩

theorem call_calm (id : Nat) (h : Handlers World) (hl : Lyr h) (m : Method) (st : LayerState) (e : Env World) : Calm e.world (callHandler id h m st e).world := by
  obtain ⟨k, r, rfl⟩ := hl
  intro hi
  exact layer_idle k r m st e.world e.status hi

/-- what is kept by a method of a tree -/
def Fair (g : Meth World) (t : Tree World) : Prop := EveryLeaf Lyr t → ∀ e, EveryLeaf Lyr (g t e).1 ∧ Calm e.world (g t e).2.world

theorem seqF_fair (g : Meth World) (ts : List (Tree World)) (h : ∀ t ∈ ts, Fair g t) (hk : ∀ t ∈ ts, EveryLeaf Lyr t) :
    ∀ e, (∀ t ∈ (seqF g ts e).1, EveryLeaf Lyr t) ∧ Calm e.world (seqF g ts e).2.world := by
  induction ts with
  | nil => intro e; exact ⟨fun t ht => (nomatch ht), calm_refl _⟩
  | cons x xs ih =>
    intro e
    obtain ⟨h1, h2⟩ := h x (by simp) (hk x (by simp)) e
    obtain ⟨h3, h4⟩ := ih (fun t ht => h t (List.mem_cons_of_mem _ ht)) (fun t ht => hk t (List.mem_cons_of_mem _ ht)) (g x e).2
    refine ⟨fun t ht => ?_, calm_trans h2 h4⟩
    simp only [seqF, List.mem_cons] at ht
    rcases ht with rfl | ht
    · exact h1
    · exact h3 t ht

theorem seqR_fair (g : Meth World) (ts : List (Tree World)) (h : ∀ t ∈ ts, Fair g t) (hk : ∀ t ∈ ts, EveryLeaf Lyr t) :
    ∀ e, (∀ t ∈ (seqR g ts e).1, EveryLeaf Lyr t) ∧ Calm e.world (seqR g ts e).2.world := by
  induction ts with
  | nil => intro e; exact ⟨fun t ht => (nomatch ht), calm_refl _⟩
  | cons x xs ih =>
    intro e
    obtain ⟨h3, h4⟩ := ih (fun t ht => h t (List.mem_cons_of_mem _ ht)) (fun t ht => hk t (List.mem_cons_of_mem _ ht)) e
    obtain ⟨h1, h2⟩ := h x (by simp) (hk x (by simp)) (seqR g xs e).2
    refine ⟨fun t ht => ?_, calm_trans h4 h2⟩
    simp only [seqR, List.mem_cons] at ht
    rcases ht with rfl | ht
    · exact h1
    · exact h3 t ht

theorem seqS_fair (g : Meth World) (ts : List (Tree World)) (ok : Bool) (h : ∀ t ∈ ts, Fair g t) (hk : ∀ t ∈ ts, EveryLeaf Lyr t) :
    ∀ e, (∀ t ∈ (seqS g ts ok e).1, EveryLeaf Lyr t) ∧ Calm e.world (seqS g ts ok e).2.world := by
  induction ts with
  | nil => intro e; exact ⟨fun t ht => (nomatch ht), calm_refl _⟩
  | cons x xs ih =>
    intro e
    obtain ⟨h1, h2⟩ := h x (by simp) (hk x (by simp)) e
    obtain ⟨h3, h4⟩ := ih (fun t ht => h t (List.mem_cons_of_mem _ ht)) (fun t ht => hk t (List.mem_cons_of_mem _ ht)) (g x e).2
    rw [seqS]
    simp only
    split
    · refine ⟨fun t ht => ?_, h2⟩
      rcases List.mem_cons.1 ht with rfl | ht
      · exact h1
      · exact hk t (List.mem_cons_of_mem _ ht)
    · refine ⟨fun t ht => ?_, calm_trans h2 h4⟩
      rcases List.mem_cons.1 ht with rfl | ht
      · exact h1
      · exact h3 t ht

theorem shutdown_fair (t : Tree World) : Fair Tree.shutdown t := by
  induction t using Tree.induct with
  | leaf id st h tr =>
    intro hk e
    unfold EveryLeaf at hk
    unfold Tree.shutdown
    split
    · exact ⟨by unfold EveryLeaf; exact hk, call_calm id h hk _ _ e⟩
    · exact ⟨by unfold EveryLeaf; exact hk, calm_refl _⟩
  | group stack st ms ih =>
    intro hk e
    have hk' := (everyLeaf_group Lyr stack st ms).1 hk
    unfold Tree.shutdown
    split
    · dsimp only
      rw [everyLeaf_group, shutdownRev_eq, shutdownList_eq]
      cases stack with
      | true => exact seqR_fair _ ms ih hk' e
      | false => exact seqF_fair _ ms ih hk' e
    · exact ⟨hk, calm_refl _⟩

theorem finish_fair (t : Tree World) (e : Env World) (hk : EveryLeaf Lyr t) : EveryLeaf Lyr (finishInit t e).1 ∧ Calm e.world (finishInit t e).2.world := by
  unfold finishInit
  split
  · exact shutdown_fair t hk e
  · cases t with
    | leaf id st h tr => unfold EveryLeaf at hk; exact ⟨by unfold EveryLeaf; exact hk, calm_refl _⟩
    | group s st ms =>
      rw [everyLeaf_group] at hk
      exact ⟨by rw [everyLeaf_group]; exact hk, calm_refl _⟩

theorem init_fair (t : Tree World) : Fair Tree.init t := by
  induction t using Tree.induct with
  | leaf id st h tr =>
    intro hk e
    have hk' := hk
    unfold EveryLeaf at hk
    unfold Tree.init
    split
    · split
      · obtain ⟨h1, h2⟩ := finish_fair (.leaf id .init h (tr ++ [.init])) (callHandler id h .init .init e) (by unfold EveryLeaf; exact hk)
        exact ⟨h1, calm_trans (call_calm id h hk _ _ e) h2⟩
      · exact finish_fair _ _ hk'
    · exact ⟨hk', calm_refl _⟩
  | group stack st ms ih =>
    intro hk e
    have hk' := (everyLeaf_group Lyr stack st ms).1 hk
    unfold Tree.init
    split
    · split
      · dsimp only
        rw [initList_eq]
        obtain ⟨h1, h2⟩ := seqS_fair Tree.init ms e.status.boundedWarn ih hk' e
        obtain ⟨h3, h4⟩ := finish_fair (.group stack .init (seqS Tree.init ms e.status.boundedWarn e).1) (seqS Tree.init ms e.status.boundedWarn e).2
          (by rw [everyLeaf_group]; exact h1)
        exact ⟨h3, calm_trans h2 h4⟩
      · exact finish_fair _ _ hk
    · exact ⟨hk, calm_refl _⟩

/-- the CAN layer was shut down -/
theorem can_closed (r : Rest) (st : LayerState) (w : World) (s : Status) (hi : w.hung = false → w.bus.pc = .idle)
    (hh : ((layer .can r).run .shutdown st w s).1.hung = false) :
    ((layer .can r).run .shutdown st w s).1.bus.pc = .idle ∧ BusClosed ((layer .can r).run .shutdown st w s).1.bus := by
  have hidle := (layer_idle .can r .shutdown st w s hi hh)
  refine ⟨hidle.2, ?_⟩
  have hi' := hi hidle.1
  simp only [layer, starts] at hh ⊢
  by_cases he : (w.begin (.can .shutdown)).ends (.can .shutdown) (r.sched .shutdown w) = true
  · simp only [he, if_true] at hh ⊢
    have hc := ends_completed .shutdown w _ hi' he
    have hb : ((w.begin (.can .shutdown)).run (r.sched .shutdown w)).bus = (CanL.Sys.fresh true).run (w.can ++ .call .shutdown :: canEvs (r.sched .shutdown w)) := by
      rw [bus_run]
      simp [World.bus, World.begin, CanL.Sys.run]
    rw [hb]
    obtain ⟨h1, h2, h3, -, h5, -⟩ := Props.C85_shutdown true _ _ hc
    exact ⟨h3, h1, h2, h5⟩
  · simp only [he] at hh
    cases hh

theorem closed_step (s : CanL.Sys) (e : CanL.Ev) (hc : ∀ c, e ≠ .call c) (hp : s.pc = .idle) (h : BusClosed s) : BusClosed (s.step e) := by
  obtain ⟨h1, h2, h3, h4⟩ := h
  cases e with
  | call c => exact absurd rfl (hc c)
  | caller c => simp [CanL.Sys.step, CanL.Sys.callerStep, hp, BusClosed, h1, h2, h3, h4]
  | worker ec => simp [CanL.Sys.step, CanL.Sys.workerStep, h3, BusClosed, h1, h2, h4]
  | upd i =>
    simp only [CanL.Sys.step]
    split
    · exact ⟨h1, h2, h3, h4⟩
    · rename_i u _
      have hset : ∀ x, (s.set x).sock = s.sock ∧ (s.set x).thread = s.thread ∧ (s.set x).worker = s.worker ∧ (s.set x).st = x := by
        intro x; unfold CanL.Sys.set CanL.Sys.tell
        split
        · split <;> exact ⟨rfl, rfl, rfl, rfl⟩
        · rename_i hx; exact ⟨rfl, rfl, rfl, by simpa using hx⟩
      cases u with
      | store o => cases o <;> simp [CanL.Sys.updStep, CanL.Sys.setDrv, hset, BusClosed, h1, h2, h3, CanL.notReady]
      | _ => simp [CanL.Sys.updStep, CanL.Sys.setErr, CanL.Sys.setInt, hset, BusClosed, h1, h2, h3, h4]
  | _ =>
    simp only [CanL.Sys.step]
    split <;> simp [BusClosed, h1, h2, h3, h4]

theorem closed_run (es : List CanL.Ev) : ∀ s : CanL.Sys, (∀ e ∈ es, ∀ c, e ≠ .call c) → s.pc = .idle → BusClosed s → BusClosed (s.run es) := by
  induction es with
  | nil => intro s _ _ h; exact h
  | cons e es ih =>
    intro s hc hp h
    exact ih _ (fun x hx => hc x (List.mem_cons_of_mem _ hx)) (step_idle s e (hc e (by simp)) hp) (closed_step s e (hc e (by simp)) hp h)

theorem shutdown_off (t : Tree World) (h : Uniform .off t) (e : Env World) : t.shutdown e = (t, e) := by
  cases t with
  | leaf id st hd tr => rw [uniform_leaf] at h; subst h; simp [Tree.shutdown]
  | group s st ms => rw [uniform_group] at h; obtain ⟨rfl, -⟩ := h; simp [Tree.shutdown]

theorem seqR_off (ts : List (Tree World)) (h : ∀ t ∈ ts, Uniform .off t) : ∀ e : Env World, seqR Tree.shutdown ts e = (ts, e) := by
  induction ts with
  | nil => intro e; rfl
  | cons t ts ih =>
    intro e
    simp only [seqR]
    rw [ih (fun x hx => h x (List.mem_cons_of_mem _ hx)), shutdown_off t (h t (by simp))]

end Verif.SUp
