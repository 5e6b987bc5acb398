import Verif.Lemmas.Chain

/-!
# Properties of the chain node: C81 control thread, C82 services, C83 start-up during cycles, C84 diagnostics
-/

set_option linter.unusedVariables false

namespace Verif.Props
open Verif Verif.Lay Verif.Spec Verif.Chain

variable {σ : Type}

/-! sample layers: quiet, one whose `init` reports as given, one whose first `read` fails, one whose first `init` fails -/

def quiet : Handlers Nat := ⟨fun _ _ w _ => (w, [], none)⟩
def onInit (r : Report) : Handlers Nat := ⟨fun m _ w _ => (w, if m = .init then [r] else [], none)⟩
def firstRead : Handlers Nat := ⟨fun m _ w _ => if m = .read then (w + 1, if w = 0 then [.error "late".toList] else [], none) else (w, [], none)⟩
def flaky : Handlers Nat := ⟨fun m _ w _ => if m = .init then (w + 1, if w = 0 then [.error []] else [], none) else (w, [], none)⟩
def layer (id : Nat) (h : Handlers Nat) : Tree Nat := .leaf id .off h []
def env0 : Env Nat := ⟨0, .initial, []⟩
def chainOf (hs : List (Handlers Nat)) (sync : Bool) : Chain Nat := Chain.fresh (hs.map (layer 1)) false [] [] sync
/-- states of the chain and of its members -/
def states : Tree Nat → LayerState × List LayerState
  | .leaf _ st _ _ => (st, [])
  | .group _ st ms => (st, ms.map Tree.state)

/-! ## C81 -/

/-- C81.  For all layers, whatever their handlers do, and every sequence of service requests, cycles and thread starts in which a control
thread begins before the request that created it is answered: there is exactly one control loop and the heartbeat is on while the chain is
initialised, there is none and the heartbeat is off otherwise, and no service hangs.
Missing: threads that begin late, see below. -/
theorem C81_control_loop_partial (ms : List (Tree σ)) (rf : Bool) (em : List (Resetter σ)) (pubs : List (Publisher σ)) (sync : Bool)
    (hms : ∀ t ∈ ms, Uniform .off t) (e : Env σ) (evs : List Ev) (hv : ∀ v ∈ evs, Timely v) :
    let c := ((Chain.fresh ms rf em pubs sync).run e evs).1
    (c.tree.state = .off → c.looping = 0 ∧ c.timer = false) ∧ (c.tree.state ≠ .off → c.looping = 1 ∧ c.timer = true) ∧
    (c.running = true ↔ c.tree.state ≠ .off) ∧ c.blocked = false := by
  intro c
  have h : Neat c := run_neat evs hv _ e (fresh_neat ms rf em pubs sync hms)
  obtain ⟨a1, a2, a3, a4, ⟨h, h2, h3, h4⟩ | ⟨h, h2, h3, h4⟩⟩ := h
  · have hs := good_state h
    refine ⟨fun _ => ⟨?_, h4⟩, fun hx => absurd hs hx, ?_, a3⟩
    · simp [Chain.looping, a2, h3]
    · simp [h2, hs]
  · have hs : c.tree.state ≠ .off := by
      rcases h with h | h <;> rw [good_state h] <;> decide
    refine ⟨fun hx => absurd hx hs, fun _ => ⟨?_, h4⟩, ?_, a3⟩
    · simp [Chain.looping, a2, h3]
    · simp [h2, hs]

example : let evs := [Ev.init true, .cycle, .halt, .recover, .cycle, .shutdown, .init true]
    (∀ t ∈ [layer 1 quiet, layer 2 quiet], Uniform .off t) ∧ (∀ v ∈ evs, Timely v) ∧
    ((chainOf [quiet, quiet] true).run env0 evs).1.tree.state = .ready ∧ ((chainOf [quiet, quiet] true).run env0 (evs.take 6)).1.tree.state = .off ∧
    ((chainOf [quiet, quiet] true).run env0 (evs.take 3)).1.tree.state = .error ∧
    ((chainOf [quiet, onInit (.error "x".toList)] true).run env0 [.init true]).1.tree.state = .off :=
  ⟨by intro t ht; simp [layer] at ht; rcases ht with rfl | rfl <;> rw [uniform_leaf],
   by intro v hv; simp at hv; rcases hv with rfl | rfl | rfl | rfl | rfl | rfl | rfl <;> simp [Timely], rfl, rfl, rfl, rfl⟩

/-- C81.  In every history, also with threads that begin late, no service uses the thread object when there is none. -/
theorem C81_thread_object (ms : List (Tree σ)) (rf : Bool) (em : List (Resetter σ)) (pubs : List (Publisher σ)) (sync : Bool)
    (hms : ∀ t ∈ ms, Uniform .off t) (e : Env σ) (evs : List Ev) :
    ((Chain.fresh ms rf em pubs sync).run e evs).1.bad = false :=
  (run_sound evs _ e (fresh_sound ms rf em pubs sync hms)).2

example : ((chainOf [quiet] false).run env0 [.init false, .begin false, .cycle, .shutdown, .init true]).1.bad = false ∧
    ((chainOf [quiet] false).run env0 [.init false, .begin false, .cycle, .shutdown, .init true]).1.looping = 1 := ⟨rfl, rfl⟩

/-- C81, the code does not keep it: if the initialisation fails before the new thread begins, the thread loops although the chain is off, and
the next failing or successful `init` request adds another one. -/
theorem C81_late_thread_false :
    let c := chainOf [onInit (.error "x".toList)] true
    let r1 := c.run env0 [.init false, .begin false]
    let r2 := r1.1.run r1.2 [.init false, .begin false]
    (r1.1.tree.state = .off ∧ r1.1.looping = 1 ∧ r1.1.running = true) ∧ r2.1.tree.state = .off ∧ r2.1.blocked = true := ⟨⟨rfl, rfl, rfl⟩, rfl, rfl⟩

/-- C81: two control loops run read and write on an initialised chain (of a layer that cannot be initialised the first time). -/
theorem C81_two_loops_false :
    let r := (chainOf [flaky] false).run env0 [.init false, .begin false, .init true]
    r.1.tree.state = .ready ∧ r.1.looping = 2 ∧ r.1.blocked = false := ⟨rfl, rfl, rfl⟩

/-- C81.  In every history, also with threads that begin late, there are never more control loops than there were `init` requests before; a cycle is run only
by a thread that has begun. -/
theorem C81_loops_bounded (ms : List (Tree σ)) (rf : Bool) (em : List (Resetter σ)) (pubs : List (Publisher σ)) (sync : Bool) (e : Env σ) (evs : List Ev) :
    ((Chain.fresh ms rf em pubs sync).run e evs).1.looping ≤ evs.countP (fun v => v = .init true || v = .init false) ∧
    (0 < ((Chain.fresh ms rf em pubs sync).run e evs).1.looping → .init true ∈ evs ∨ ∃ l, .begin l ∈ evs) := by
  have key := threads_run evs (Chain.fresh ms rf em pubs sync) e
  refine ⟨?_, ?_⟩
  · have h0 : (Chain.fresh ms rf em pubs sync).threads = 0 := rfl
    have := looping_threads ((Chain.fresh ms rf em pubs sync).run e evs).1
    rw [h0] at key
    omega
  · intro h
    by_cases hx : .init true ∈ evs ∨ ∃ l, .begin l ∈ evs
    · exact hx
    · exact absurd (looping_none evs (Chain.fresh ms rf em pubs sync) e rfl (fun h => hx (.inl h)) (fun l h => hx (.inr ⟨l, h⟩))) (by omega)

example : ((chainOf [flaky] false).run env0 [.init false, .begin false, .init true]).1.looping = 2 := rfl

/-! ## C82 -/

/-- C82.  `init` while the chain is off: if it answers success, all layers are ready, none reported anything, and the heartbeat is on; if it
answers failure, all layers are off and the heartbeat is off, or there was a warning (then all layers are ready).  While the chain is not
off the request changes nothing and answers success.
Missing: the answer is also "success" if the chain is halted, and "failure" if there were only warnings, see below. -/
theorem C82_init_partial (c : Chain σ) (hr : ReachedChain c) (e : Env σ) (b : Bool) :
    let r := c.handleInit e b
    (c.tree.state = .off → r.2.2.success = true → Uniform .ready r.1.tree ∧ r.2.1.status.sev = .ok ∧ r.1.timer = true) ∧
    (c.tree.state = .off → r.2.2.success = false →
      (Uniform .off r.1.tree ∧ r.1.timer = false) ∨ (Uniform .ready r.1.tree ∧ r.2.1.status.sev = .warn ∧ r.1.timer = true)) ∧
    (c.tree.state ≠ .off → r = (c, e, ⟨true, "already initialized".toList⟩)) := by
  intro r
  obtain ⟨s, hg⟩ := reached_good hr
  have heart : c.tree.state = .off → (c.tree.init (start e)).2.status.boundedWarn = true → r.1.timer = true := by
    intro hs hb
    have hst : ¬ c.tree.state.toNat > LayerState.off.toNat := by rw [hs]; decide
    obtain ⟨ht, he⟩ := initLayer_tree (c.newThread b) (start e)
    rw [newThread_tree] at ht he
    show (c.handleInit e b).1.timer = true
    unfold Chain.handleInit
    rw [if_neg hst]
    dsimp only
    rw [he, if_neg (by simp [hb])]
  refine ⟨fun hs hx => ?_, fun hs hx => ?_, fun hs => handleInit_on c e b hs⟩
  · have : s = .off := (good_state hg).symm.trans hs
    subst this
    obtain ⟨k1, k2⟩ := handleInit_off c e b hg
    cases hb : (c.tree.init (start e)).2.status.boundedWarn with
    | true =>
      obtain ⟨g, hst, ha⟩ := k1 hb
      refine ⟨g.2.2, ?_, heart hs hb⟩
      have : r.2.2 = _ := ha
      rw [this] at hx
      have hst : r.2.1.status = _ := hst
      rw [hst]
      simpa using hx
    | false => exact absurd (hx.symm.trans (k2 hb).2) (by simp)
  · have : s = .off := (good_state hg).symm.trans hs
    subst this
    obtain ⟨k1, k2⟩ := handleInit_off c e b hg
    cases hb : (c.tree.init (start e)).2.status.boundedWarn with
    | true =>
      obtain ⟨g, hst, ha⟩ := k1 hb
      refine Or.inr ⟨g.2.2, ?_, heart hs hb⟩
      have : r.2.2 = _ := ha
      rw [this] at hx
      have hst : r.2.1.status = _ := hst
      rw [hst]
      rcases (bounded_atMost _).1 hb with h | h
      · simp [h] at hx
      · exact h
    | false =>
      refine Or.inl ⟨(k2 hb).1.2.2, ?_⟩
      show (c.handleInit e b).1.timer = false
      rw [handleInit_fail_eq c e b hg hb]
      exact stop_timer _

example : ReachedChain (chainOf [quiet, quiet] false) ∧ (chainOf [quiet, quiet] false).tree.state = .off ∧
    ((chainOf [quiet, quiet] false).handleInit env0 true).2.2 = ⟨true, []⟩ ∧
    ((chainOf [quiet, onInit (.error "no".toList)] false).handleInit env0 true).2.2 = ⟨false, "no".toList⟩ :=
  ⟨⟨[layer 1 quiet, layer 1 quiet], false, [], [], false, env0, [], by intro t ht; simp [layer] at ht; subst ht; rw [uniform_leaf], rfl⟩, rfl, rfl, rfl⟩

/-- C82, "failure" does not mean that the chain is not running: a single warning during initialisation is answered with failure, but all
layers are ready and the control loop and the heartbeat are on. -/
theorem C82_init_warning_false :
    let r := (chainOf [quiet, onInit (.warn "w".toList)] false).handleInit env0 true
    r.2.2 = ⟨false, "w".toList⟩ ∧ states r.1.tree = (.ready, [.ready, .ready]) ∧ r.1.looping = 1 ∧ r.1.timer = true := ⟨rfl, rfl, rfl, rfl⟩

/-- C82, "success" does not mean that the chain works: a halted chain answers `init` with success and stays halted. -/
theorem C82_init_halted_false :
    let r := (chainOf [quiet, quiet] false).run env0 [.init true, .halt]
    let q := r.1.handleInit r.2 true
    q.2.2 = ⟨true, "already initialized".toList⟩ ∧ states q.1.tree = (.error, [.error, .error]) := ⟨rfl, rfl⟩

/-- C82.  `recover` on a chain that is off fails and changes nothing.  On a halted chain it answers success exactly if all layers are ready
afterwards, otherwise all of them stay halted.  A ready chain stays ready. -/
theorem C82_recover (c : Chain σ) (hr : ReachedChain c) (e : Env σ) :
    let r := c.handleRecover e
    (c.tree.state = .off → r = (c, e, ⟨false, "not running".toList⟩)) ∧
    (c.tree.state = .error → Uniform (if r.2.2.success then .ready else .error) r.1.tree) ∧
    (c.tree.state = .ready → Uniform .ready r.1.tree) := by
  obtain ⟨s, hg⟩ := reached_good hr
  obtain ⟨s', hg', h1, h2, h3, _, h5⟩ := handleRecover_good c e hg
  have hst := good_state hg
  refine ⟨fun h => h5 (hst.symm.trans h), fun h => ?_, fun h => ?_⟩
  · rw [← h3 (hst.symm.trans h)]; exact hg'.2.2
  · rw [← h2 (hst.symm.trans h)]; exact hg'.2.2

/-- C82.  If the chain is configured to reset errors first, a successful `recover` has reset every node's errors, in order, before the layers
were recovered, with a result that was not worse than a warning. -/
theorem C82_recover_resets (c : Chain σ) (e : Env σ) (h : (c.handleRecover e).2.2.success = true) :
    ∃ e1, (if c.resetFirst then AllReset c.emcys (start e) e1 else e1 = start e) ∧ AtMostWarn e1.status ∧
      (c.handleRecover e).1.tree = (c.tree.recover e1).1 := by
  have hdone : (c.resetErrors (start e)).2.1 = none → (c.resetErrors (start e)).2.2 = true →
      (if c.resetFirst then AllReset c.emcys (start e) (c.resetErrors (start e)).1 else (c.resetErrors (start e)).1 = start e) := by
    unfold Chain.resetErrors
    cases c.resetFirst with
    | true => simp only [if_true]; exact fun h1 h2 => resetAll_done _ _ _ h1 h2
    | false => simp
  have hstop := resetErrors_stopped c (start e)
  revert h
  unfold Chain.handleRecover
  split
  · revert hdone hstop
    generalize c.resetErrors (start e) = q
    obtain ⟨e1, o, b⟩ := q
    intro hdone hstop
    cases o with
    | some t => intro h; cases h
    | none =>
      dsimp only
      cases b with
      | false =>
        have hb : e1.status.boundedWarn = false := hstop rfl rfl
        simp only [Bool.false_eq_true, if_false]
        rw [if_pos (by simp [hb])]
        intro h
        exact absurd ((call_bounded_diag c.tree _ hb).symm.trans h) (by simp)
      | true =>
        simp only [if_true]
        cases hb : (c.tree.recover e1).2.status.boundedWarn with
        | false =>
          rw [if_pos (by simp)]
          intro h
          exact absurd ((call_bounded_diag (c.tree.recover e1).1 _ hb).symm.trans h) (by simp)
        | true =>
          rw [if_neg (by simp)]
          intro _
          refine ⟨e1, hdone rfl rfl, ?_, rfl⟩
          rw [← sv_atMostWarn]
          exact Nat.le_trans (recover_mono _ _) ((bounded_iff _).1 hb)
  · intro h; cases h

/-- a chain that resets the errors of two nodes first -/
def resetting : Chain Nat :=
  Chain.fresh [layer 1 quiet] true [fun w _ => (w + 10, [], none), fun w _ => (w + 100, [.warn "still".toList], none)] [] false

example : let r := resetting.run env0 [.init true, .halt]
    let q := r.1.handleRecover r.2
    r.1.tree.state = .error ∧ q.2.2 = ⟨true, "still".toList⟩ ∧ q.2.1.world = 110 ∧ states q.1.tree = (.ready, [.ready]) := ⟨rfl, rfl, rfl, rfl⟩
example : ReachedChain (resetting.run env0 [.init true, .halt]).1 :=
  ⟨[layer 1 quiet], true, _, [], false, env0, [.init true, .halt], by intro t ht; simp [layer] at ht; subst ht; rw [uniform_leaf], rfl⟩

/-- C82.  `shutdown` always answers success, and then all layers are off; if the chain was initialised the heartbeat is off too.  `halt`
always answers success; a ready chain is halted completely, any other one is left as it is. -/
theorem C82_shutdown_and_halt (c : Chain σ) (hr : ReachedChain c) (e : Env σ) :
    ((c.handleShutdown e).2.2.success = true ∧ Uniform .off (c.handleShutdown e).1.tree ∧
      (c.tree.state ≠ .off → (c.handleShutdown e).1.timer = false)) ∧
    ((c.handleHalt e).2.2.success = true ∧ Uniform (if c.tree.state = .ready then .error else c.tree.state) (c.handleHalt e).1.tree) := by
  obtain ⟨s, hg⟩ := reached_good hr
  obtain ⟨a1, a2, a3⟩ := handleShutdown_good c e hg
  obtain ⟨b1, b2, _⟩ := handleHalt_good c e hg
  have hst := good_state hg
  refine ⟨⟨a2, a1.2.2, fun hs => ?_⟩, b2, ?_⟩
  · have hne : c.tree.state.toNat > LayerState.init.toNat := by
      rw [hst] at hs ⊢
      rcases hg.2.1 with rfl | rfl | rfl <;> first | exact absurd rfl hs | decide
    have hne' : (c.tree.halt (start e)).1.state ≠ .off := by
      rw [good_state (good_halt hg (start e))]
      rw [hst] at hs
      split
      · decide
      · exact hs
    unfold Chain.handleShutdown Chain.shutdownLayer
    rw [if_pos hne]
    simp only [hne', ne_eq, not_false_eq_true, if_true]
    exact stop_timer _
  · rw [hst]; exact b1.2.2

example : let r := (chainOf [quiet, quiet] true).run env0 [.init true, .cycle]
    r.1.tree.state = .ready ∧ states (r.1.handleHalt r.2).1.tree = (.error, [.error, .error]) ∧
    states (r.1.handleShutdown r.2).1.tree = (.off, [.off, .off]) ∧ (r.1.handleShutdown r.2).1.looping = 0 := ⟨rfl, rfl, rfl, rfl⟩

/-! ## C83 -/

/-- C83.  The layers of a chain that is off are initialised one after the other while the control thread calls read and write in between, any
number of times at any of these points.  If the initialisation ends with an error, all layers are off.  If it ends with at most a warning
and no call of the control thread failed, all layers are ready.
Missing: calls of the control thread that fail, see below. -/
theorem C83_init_during_cycles_partial (sched : Nat → List Bool) (ms : List (Tree σ)) (hms : ∀ t ∈ ms, Uniform .off t) (e : Env σ)
    (he : AtMostWarn e.status) :
    let r := raceChain sched ms e
    (AtMostWarn r.2.1.status → r.2.2 = true → Uniform .ready r.1) ∧ (¬ AtMostWarn r.2.1.status → Uniform .off r.1) := by
  have hb := (bounded_atMost _).2 he
  have h0 : Part true 0 ms := fun j hj => ⟨fun _ => hms _ (List.getElem_mem hj), fun h => absurd h (Nat.not_lt_zero _)⟩
  obtain ⟨l, p, q⟩ := raceInit_part sched ms.length 0 ms e true h0 (by omega) hb
  unfold raceChain
  dsimp only
  have hm := finishInit_mono (.group true .init (raceInit sched ms.length 0 ms e).1) (raceInit sched ms.length 0 ms e).2.1
  revert l p q hm
  generalize raceInit sched ms.length 0 ms e = w
  obtain ⟨ms', e', ok⟩ := w
  dsimp only
  intro l p q hm
  unfold finishInit at hm ⊢
  cases hb' : e'.status.boundedWarn with
  | true =>
    simp only [Bool.not_true, Bool.false_eq_true, if_false]
    refine ⟨fun _ hok => ?_, fun hx => absurd ((bounded_atMost _).1 hb') hx⟩
    subst hok
    rw [uniform_group]
    refine ⟨rfl, fun t ht => ?_⟩
    obtain ⟨j, hj, rfl⟩ := List.getElem_of_mem ht
    have h1 : Part true ms.length ms' := p hb'
    rcases (h1 j hj).2 (l ▸ hj) with h | ⟨h, _⟩
    · exact h
    · cases h
  | false =>
    have h1 : 1 < sv e' := (not_bounded_iff _).1 (by simp [hb'])
    rw [hb'] at hm
    simp only [Bool.not_false, if_true] at hm ⊢
    refine ⟨fun hx => ?_, fun _ => shutdown_group true .init (by decide) ms' q e'⟩
    rw [← sv_atMostWarn] at hx
    omega

example : (∀ t ∈ [layer 1 quiet, layer 2 quiet], Uniform .off t) ∧ AtMostWarn env0.status ∧
    (raceChain (fun _ => [true, false, true]) [layer 1 quiet, layer 2 quiet] env0).2.2 = true ∧
    (raceChain (fun _ => [true, false, true]) [layer 1 quiet, layer 2 quiet] env0).2.1.log.length = 5 ∧
    states (raceChain (fun _ => [true, false, true]) [layer 1 quiet, layer 2 quiet] env0).1 = (.ready, [.ready, .ready]) ∧
    states (raceChain (fun _ => [true]) [layer 1 quiet, layer 2 (onInit (.error []))] env0).1 = (.off, [.off, .off]) :=
  ⟨by intro t ht; simp [layer] at ht; rcases ht with rfl | rfl <;> rw [uniform_leaf], Or.inl rfl, rfl, rfl, rfl, rfl⟩

/-- C83, the code does not keep it: one failing read between two initialisations halts the layers that are ready, but not the chain.  The
initialisation succeeds without any report although the first layer is halted, and `recover` answers success without doing anything
about it. -/
theorem C83_halted_layer_false :
    let r := raceChain (fun i => if i = 1 then [true] else []) [layer 1 firstRead, layer 2 quiet] env0
    r.2.1.status = .initial ∧ states r.1 = (.ready, [.error, .ready]) ∧
    let c := { chainOf [firstRead, quiet] false with tree := r.1, running := true, owned := some true }
    (c.handleRecover r.2.1).2.2 = ⟨true, []⟩ ∧ states (c.handleRecover r.2.1).1.tree = (.ready, [.error, .ready]) := ⟨rfl, rfl, rfl, rfl⟩

/-! ## C84 -/

/-- C84.  The chain's diagnostics: a warning and no access to any layer while it is off; an error if there is no control thread; otherwise the
worst report and all reasons given by the layers, each asked once and in order. -/
theorem C84_chain_report (c : Chain σ) (hr : ReachedChain c) (e : Env σ) :
    (c.tree.state = .off → c.report e = (e, ⟨.warn, "Not initialized".toList⟩)) ∧
    (c.tree.state ≠ .off → c.running = false → c.report e = (e, ⟨.error, "Thread is not running".toList⟩)) ∧
    (c.tree.state ≠ .off → c.running = true → ∃ st ms ms' e', c.tree = .group st c.tree.state ms ∧
      InOrder Tree.diag ms (start e) ms' e' ∧ c.report e = (e', ⟨e'.status.sev, e'.status.reason⟩)) := by
  obtain ⟨s, hg⟩ := reached_good hr
  have hst := good_state hg
  refine ⟨fun h => ?_, fun h hr => ?_, fun h hr => ?_⟩
  · unfold Chain.report; rw [if_pos h]
  · unfold Chain.report; rw [if_neg h, hr]; rfl
  · unfold Chain.report
    rw [if_neg h, hr]
    simp only [Bool.not_true, Bool.false_eq_true, if_false]
    have hgrp := hg.1
    have hset := hg.2.1
    cases hx : c.tree with
    | leaf => rw [hx] at hgrp; cases hgrp
    | group b st ms =>
      rw [hx] at hst h
      simp only [Tree.state] at hst h
      subst hst
      have := (C20_member_order b st ms (start e)).2.1 (by
        rcases hset with rfl | rfl | rfl
        · exact absurd rfl h
        · exact Or.inr rfl
        · exact Or.inl rfl)
      obtain ⟨ms', e', h1, h2⟩ := this
      refine ⟨b, ms, ms', e', rfl, h1, ?_⟩
      rw [h2]

example : let r := (chainOf [quiet, quiet] true).run env0 [.init true]
    r.1.tree.state = .ready ∧ r.1.running = true ∧ (r.1.report r.2).2 = ⟨.ok, []⟩ ∧ (r.1.report r.2).1.log.length = 4 ∧
    ((chainOf [quiet] true).report env0).2.level = .warn := ⟨rfl, rfl, rfl, rfl, rfl⟩

/-- C84, the level OK does not mean that the chain works: after a `halt` request the diagnostics are OK unless a layer itself complains. -/
theorem C84_halted_ok_false :
    let r := (chainOf [quiet, quiet] true).run env0 [.init true, .halt]
    r.1.tree.state = .error ∧ (r.1.report r.2).2 = ⟨.ok, []⟩ := ⟨rfl, rfl⟩

/-- C84.  A node's diagnostics: a warning only while its state is unknown; otherwise worst report and reasons of its layers, and one line for
every configured object whose level is reached, in order, with the value or `<ERROR>` if it cannot be read.  A failing read does not
suppress the remaining lines. -/
theorem C84_node_report (ms : List (Tree σ)) (entries : List (LogEntry σ)) (e : Env σ) :
    (nodeLog true ms entries e = (ms, e, ⟨.warn, "Not initialized".toList⟩, [])) ∧
    ∃ ms' e', InOrder Tree.diag ms (start e) ms' e' ∧
      (nodeLog false ms entries e).2.2.1 = ⟨e'.status.sev, e'.status.reason⟩ ∧
      Lines e'.status.sev.toNat entries e'.world (nodeLog false ms entries e).2.2.2 := by
  refine ⟨rfl, (diagList ms (start e)).1, (diagList ms (start e)).2, ?_, rfl, ?_⟩
  · rw [diagList_eq]; exact seqF_inOrder _ _ _
  · have gen : ∀ (lv : Sev) (es : List (LogEntry σ)) (w : σ), Lines lv.toNat es w (logAll lv es w).2 := by
      intro lv es
      induction es with
      | nil => intro w; exact .nil w
      | cons en es ih =>
        intro w
        unfold logAll LogEntry.log
        dsimp only
        split
        · rename_i hl
          cases hv : (en.get w).2 with
          | some v => exact .value en es w _ v _ hl (by rw [← hv]) (ih _)
          | none => exact .failed en es w _ _ hl (by rw [← hv]) (ih _)
        · rename_i hl
          exact .skip en es w _ (by omega) (ih _)
    exact gen _ _ _

example : let es : List (LogEntry Nat) := [⟨.ok, "a".toList, fun w => (w + 1, some "1".toList)⟩, ⟨.warn, "b".toList, fun w => (w, some [])⟩,
      ⟨.ok, "c".toList, fun w => (w, none)⟩, ⟨.ok, "d".toList, fun w => (w, some "2".toList)⟩]
    (nodeLog false [Tree.leaf 1 .ready quiet []] es env0).2.2.2 =
      [("a".toList, "1".toList), ("c".toList, "<ERROR>".toList), ("d".toList, "2".toList)] := rfl

/-- C88.  The write phase of a cycle: unless the chain is off, the publishers are called after the layers, in order, up to the first that throws; if none does the status is that
of the layers, otherwise it is an error that contains the text of the exception. -/
theorem C88_publish_cycle (c : Chain σ) (e : Env σ) :
    let r := c.tree.write e
    let q := c.writeLayer e
    q.1 = { c with tree := r.1 } ∧
    (c.tree.state = .off → q.2 = r.2) ∧
    (c.tree.state = .ready ∨ c.tree.state = .error ∨ c.tree.state = .halt ∨ c.tree.state = .recover →
      ∃ o, Published c.pubs r.2.world q.2.world o ∧ q.2.log = r.2.log ∧ (o = none → q.2.status = r.2.status) ∧
        (∀ t, o = some t → ¬ AtMostWarn q.2.status ∧ t <:+ q.2.status.reason)) := by
  intro r q
  refine ⟨rfl, fun h => ?_, fun h => ?_⟩
  · show (if c.tree.state.toNat > LayerState.shutdown.toNat then _ else _) = _
    rw [h, if_neg (by decide)]
  · have hq : q.2 = publishAll c.pubs r.2 := by
      show (if c.tree.state.toNat > LayerState.shutdown.toNat then _ else _) = _
      rw [if_pos (by rcases h with h | h | h | h <;> rw [h] <;> decide)]
    rw [hq]
    exact publishAll_spec c.pubs r.2

example : let c := { chainOf [quiet] false with pubs := [fun w => (w + 1, none), fun w => (w + 10, some "no".toList), fun w => (w + 100, none)] }
    let r := c.run env0 [.init true, .cycle]
    r.1.tree.state = .ready ∧ r.2.world = 11 ∧ r.2.status = ⟨.error, "no".toList⟩ := ⟨rfl, rfl, rfl⟩

end Verif.Props
