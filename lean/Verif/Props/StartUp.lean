import Verif.Lemmas.Restart
import Verif.Props.Layer

/-!
# C122: what the answer to an initialisation of a whole chain means
-/

namespace Verif.Props
open Verif Verif.Lay Verif.SUp Verif.Spec Verif.Spec.SUp

private def news122 (b : Byte) : Frame :=
  { id := 0x701, isError := false, isRtr := false, isExtended := false, data := #v[b, 0, 0, 0, 0, 0, 0, 0], dlc := 1 }
private def node122 : Nmt.Initing :=
  { node := { Nmt.Node.fresh 1 true { present := true, dflt := some 0, conf := some 100, buf := 0, valid := true } with listening := false }, pc := .done .fine, log := [],
    recovering := false }
private def motor122 : Hand.Sys :=
  { m := { cw := 0x0F, sfr := false, hs := .disabled, sw := 0, target := .disabled, modes := M402.registered 0x04 (fun _ => none), drives := some 0x04, selected := none,
           modeId := 0, phase := .idle },
    switching := .enabled, limit := 5000, pc := .idle, halting := none, msgs := [] }
/-- everything is off -/
private def world122 : World := { can := [], node := fun _ => node122, motor := fun _ => motor122, hung := false }
private def nodeSteps122 : List Ev :=
  ([.next .works 0, .next .works 0, .next .works 0, .frame (news122 0) 10, .wake, .finish true false, .next .works 20, .next .works 30, .next .works 40,
    .next .works 50, .frame (news122 5) 60, .wake] : List Nmt.IEv).map (Ev.node 1)
private def motorSteps122 : List Ev :=
  ([.tick 0, .tick 0, .tick 0, .tick 0, .write, .read 0x21 0, .tick 1, .tick 1, .tick 1, .write, .read 0x23 0, .tick 2, .tick 2, .tick 2, .write,
    .read 0x27 0, .tick 3, .tick 3] : List Hand.HEv).map (Ev.motor 1)
private def rest122 (f : Method → List Ev) : Rest := { sched := fun m _ => f m, first := fun _ => (0x40, 0), now := fun _ => 0, closing := fun _ => [], others := fun _ _ _ => ([], none) }
private def leaf122 (id : Nat) (k : Kind) (f : Method → List Ev) : Tree World := .leaf id .off (layer k (rest122 f)) []
private def canSteps122 : Method → List Ev
  | .init => bringUp.map .can
  | _ => takeDown.map .can
/-- bus, a group with one node, a group with one motor; `f`: what happens while the motor is initialised -/
private def chain122 (f : List Ev) : List (Tree World) :=
  [leaf122 0 .can canSteps122, .group false .off [leaf122 1 (.node 1) fun m => if m = .init then nodeSteps122 else []], .group false .off [leaf122 2 (.motor 1) fun m => if m = .init then f else List.replicate 3 (.motor 1 (.tick 9000))]]
private def env122 : Env World := { world := world122, status := .initial, log := [] }

/-- C122.  If the initialisation of a whole chain ends with no more than a warning, whatever else happened meanwhile, then, one after the other in the order of the layers: the
driver was ready with its socket open and one thread in its event loop; each node had confirmed its reset, was set up and started, and was operational; each drive reported that
operation is enabled, and its motor was homed or cannot be.  Missing: that it is still so at the end (see `C122_now_false`). -/
theorem C122_started_partial (t : Tree World) (ks : List Kind) (hc : Consists t ks) (hd : ks.Nodup) (hu : Uniform .off t) (e : Env World) (hq : Quiet e.world ks)
    (hs : AtMostWarn (t.init e).2.status) : Passes e.world (t.init e).2.world (ks.flatMap moments) :=
  (tree_up t e ks hu hc hd hq ((sv_atMostWarn _).2 hs)).1

example : Consists (.group true .off (chain122 motorSteps122)) [.can, .node 1, .motor 1] ∧ Uniform .off (.group true .off (chain122 motorSteps122)) ∧
    Quiet world122 [.can, .node 1, .motor 1] ∧ AtMostWarn ((Tree.group true .off (chain122 motorSteps122)).init env122).2.status := by
  refine ⟨?_, by simp [Uniform, UniformAll, chain122, leaf122], ⟨rfl, fun i _ => ⟨rfl, rfl, rfl, _, rfl⟩⟩, Or.inl (by decide +kernel)⟩
  simp only [Consists, ConsistsAll, chain122, leaf122]
  exact ⟨[.can], _, rfl, ⟨_, _, rfl, rfl⟩, [.node 1], [.motor 1], rfl, ⟨[.node 1], [], rfl, ⟨_, _, rfl, rfl⟩, rfl⟩, [.motor 1], [], rfl, ⟨[.motor 1], [], rfl, ⟨_, _, rfl, rfl⟩, rfl⟩, rfl⟩

/-- C122.  If the initialisation of a chain, with the CAN layer first in the stack, fails, all layers are off and nobody can use the bus: socket and driver are closed, no thread
is left, and this stays so, whatever other threads try, until the CAN layer is called again. -/
theorem C122_failed (id : Nat) (r : Rest) (tr : List Method) (ts : List (Tree World)) (hc : ∀ t ∈ ts, ∃ ks, Consists t ks) (hu : ∀ t ∈ ts, Uniform .off t)
    (e : Env World) (he : AtMostWarn e.status) (hq : e.world.bus.pc = .idle) :
    let x := (Tree.group true .off (.leaf id .off (layer .can r) tr :: ts)).init e
    ¬ AtMostWarn x.2.status → x.2.world.hung = false →
    Uniform .off x.1 ∧ BusClosed x.2.world.bus ∧ ∀ es, BusClosed (x.2.world.run es).bus := by
  intro x hs hh
  have hsv : sv e ≤ 1 := (sv_atMostWarn e).2 he
  have hs' : 1 < sv x.2 := by
    rcases Nat.lt_or_ge 1 (sv x.2) with h | h
    · exact h
    · exact absurd ((sv_atMostWarn x.2).1 h) hs
  have hoff : Uniform .off (Tree.group true .off (.leaf id .off (layer .can r) tr :: ts)) := by
    rw [uniform_group]
    refine ⟨rfl, fun t ht => ?_⟩
    rcases List.mem_cons.1 ht with rfl | ht
    · rw [uniform_leaf]
    · exact hu t ht
  refine ⟨(init_uniform _ e hoff).2 hs', ?_⟩
  suffices h : x.2.world.bus.pc = .idle ∧ BusClosed x.2.world.bus from
    ⟨h.2, fun es => by rw [bus_run]; exact closed_run _ _ (canEvs_noCall es) h.1 h.2⟩
  -- the whole is shut down
  have hdef : x = finishInit (.group true .init (seqS Tree.init (.leaf id .off (layer .can r) tr :: ts) true e).1) (seqS Tree.init (.leaf id .off (layer .can r) tr :: ts) true e).2 := by
    show Tree.init _ _ = _
    rw [Tree.init]
    simp [(bounded_iff e).2 hsv, initList_eq]
  generalize hR : seqS Tree.init (.leaf id .off (layer .can r) tr :: ts) true e = R at hdef
  have hbad : 1 < sv R.2 := by
    rcases Nat.lt_or_ge 1 (sv R.2) with h | h
    · exact h
    · rw [hdef] at hs'
      unfold finishInit at hs'
      rw [if_neg (by rw [not_bounded_iff]; omega)] at hs'
      simp only at hs'
      omega
  have hw : x.2 = (seqR Tree.shutdown R.1 R.2).2 := by
    rw [hdef]
    unfold finishInit
    rw [if_pos ((not_bounded_iff _).2 hbad), Tree.shutdown]
    simp [shutdownRev_eq]
  have hlayer : Lyr (layer .can r) := ⟨_, _, rfl⟩
  -- the CAN layer itself
  by_cases hcan : sv (callHandler id (layer .can r) .init .init e) ≤ 1
  · have hci : (Tree.leaf id .off (layer .can r) tr).init e = (.leaf id .ready (layer .can r) (tr ++ [.init]), callHandler id (layer .can r) .init .init e) := by
      rw [Tree.init]
      simp only [if_true, (bounded_iff e).2 hsv]
      unfold finishInit
      rw [if_neg (by rw [not_bounded_iff]; omega)]
    have hR' : R = (.leaf id .ready (layer .can r) (tr ++ [.init]) :: (seqS Tree.init ts true (callHandler id (layer .can r) .init .init e)).1,
        (seqS Tree.init ts true (callHandler id (layer .can r) .init .init e)).2) := by
      rw [← hR, seqS, hci]
      simp only
      rw [if_neg (by rw [Bool.true_and, not_bounded_iff]; omega)]
    have hev : ∀ t ∈ ts, Verif.Spec.Sup.EveryLeaf Lyr t := fun t ht => by
      obtain ⟨ks, h⟩ := hc t ht
      exact consists_every t ks h
    obtain ⟨f1, f2⟩ := seqS_fair Tree.init ts true (fun t _ => init_fair t) hev (callHandler id (layer .can r) .init .init e)
    generalize seqS Tree.init ts true (callHandler id (layer .can r) .init .init e) = Q at hR' f1 f2
    obtain ⟨-, g2⟩ := seqR_fair Tree.shutdown Q.1 (fun t _ => shutdown_fair t) f1 Q.2
    rw [hR'] at hw
    simp only [seqR, Tree.shutdown] at hw
    have hw' : x.2 = callHandler id (layer .can r) .shutdown .shutdown (seqR Tree.shutdown Q.1 Q.2).2 := by
      rw [hw]; simp
    have hcalm := calm_trans (call_calm id _ hlayer .init .init e) (calm_trans f2 g2)
    rw [hw'] at hh ⊢
    exact can_closed r .shutdown _ (seqR Tree.shutdown Q.1 Q.2).2.status (fun h => (hcalm (fun _ => hq) h).2) hh
  · have hbad' : 1 < sv (callHandler id (layer .can r) .init .init e) := by omega
    have hci : (Tree.leaf id .off (layer .can r) tr).init e =
        (.leaf id .off (layer .can r) (tr ++ [.init] ++ [.shutdown]), callHandler id (layer .can r) .shutdown .shutdown (callHandler id (layer .can r) .init .init e)) := by
      rw [Tree.init]
      simp only [if_true, (bounded_iff e).2 hsv]
      unfold finishInit
      rw [if_pos ((not_bounded_iff _).2 hbad'), Tree.shutdown]
      simp
    have hbad2 := Nat.lt_of_lt_of_le hbad' (callHandler_mono id (layer .can r) .shutdown .shutdown (callHandler id (layer .can r) .init .init e))
    have hR' : R = (.leaf id .off (layer .can r) (tr ++ [.init] ++ [.shutdown]) :: ts, callHandler id (layer .can r) .shutdown .shutdown (callHandler id (layer .can r) .init .init e)) := by
      rw [← hR, seqS, hci]
      simp only
      rw [if_pos (by rw [Bool.true_and, not_bounded_iff]; exact hbad2)]
    have hw' : x.2 = callHandler id (layer .can r) .shutdown .shutdown (callHandler id (layer .can r) .init .init e) := by
      rw [hw, hR']
      rw [seqR_off]
      intro t ht
      rcases List.mem_cons.1 ht with rfl | ht
      · rw [uniform_leaf]
      · exact hu t ht
    have hcalm := call_calm id _ hlayer .init .init e
    rw [hw'] at hh ⊢
    exact can_closed r .shutdown _ (callHandler id (layer .can r) .init .init e).status (fun h => (hcalm (fun _ => hq) h).2) hh

/-- the drive does not react in time -/
private def stuck122 : List Ev := ([.tick 0, .tick 0, .tick 0, .tick 0, .write, .tick 5000] : List Hand.HEv).map (Ev.motor 1)

example : (∀ t ∈ (chain122 stuck122).tail, ∃ ks, Consists t ks) ∧
    ¬ AtMostWarn ((Tree.group true .off (chain122 stuck122)).init env122).2.status ∧ ((Tree.group true .off (chain122 stuck122)).init env122).2.world.hung = false := by
  refine ⟨?_, ?_, by decide +kernel⟩
  · intro t ht
    simp only [chain122, leaf122, List.tail_cons, List.mem_cons, List.not_mem_nil, or_false] at ht
    rcases ht with rfl | rfl
    · exact ⟨[.node 1], by simp only [Consists, ConsistsAll]; exact ⟨[.node 1], [], rfl, ⟨_, _, rfl, rfl⟩, rfl⟩⟩
    · exact ⟨[.motor 1], by simp only [Consists, ConsistsAll]; exact ⟨[.motor 1], [], rfl, ⟨_, _, rfl, rfl⟩, rfl⟩⟩
  · unfold AtMostWarn
    decide +kernel

/-- C122 does not hold for the end of the initialisation: a node that leaves the operational state while the motors are initialised goes unnoticed, the chain is initialised with
success. -/
theorem C122_now_false : ∃ f : List Ev,
    let x := (Tree.group true .off (chain122 f)).init env122
    x.2.status = .initial ∧ x.1.state = .ready ∧ ((x.2.world.node 1).node.state = 127 ∧ (x.2.world.motor 1).m.hs = .enabled) :=
  ⟨.node 1 (.frame (news122 127) 100) :: motorSteps122, by decide +kernel, by decide +kernel, by decide +kernel, by decide +kernel⟩

/-- C122, recovery.  If the recovery of a whole halted chain ends with no more than a warning, whatever else happened meanwhile, then, one after the other in the order of the
layers: the driver was ready with its socket open and one thread in its event loop; each node was told to start; each drive reported that operation is enabled.
Missing: that the nodes are operational, the answer to the start command is not looked at (see `C122_recovered_false`). -/
theorem C122_recovered_partial (t : Tree World) (ks : List Kind) (hc : Consists t ks) (hd : ks.Nodup) (hu : Uniform .error t) (e : Env World) (hq : Steady e.world ks)
    (hs : AtMostWarn (t.recover e).2.status) : Passes e.world (t.recover e).2.world (ks.flatMap again) :=
  (tree_again t e ks hu hc hd hq ((sv_atMostWarn _).2 hs)).1

/-- the driver lost its socket, the node is stopped, the motor made a quick stop -/
private def halted122 : World :=
  { can := [], node := fun _ => { node122 with node := { node122.node with listening := true, state := 4, hb := { node122.node.hb with buf := 100 } } },
    motor := fun _ => { motor122 with m := { motor122.m with hs := .quickStop, target := .quickStop } }, hung := false }
private def recovery122 (answer : List Nmt.IEv) : List (Tree World) :=
  [.leaf 0 .error (layer .can (rest122 fun _ => (times 7 go ++ bringUp).map .can)) [],
   .leaf 1 .error (layer (.node 1) (rest122 fun _ => answer.map (.node 1))) [],
   .leaf 2 .error (layer (.motor 1) (rest122 fun _ => ([.tick 0, .tick 0, .tick 0, .tick 0, .write, .read 0x27 0, .tick 1, .tick 1] : List Hand.HEv).map (.motor 1))) []]

example : Consists (.group true .error (recovery122 [.frame (news122 5) 10, .wake])) [.can, .node 1, .motor 1] ∧
    Uniform .error (.group true .error (recovery122 [.frame (news122 5) 10, .wake])) ∧
    Steady halted122 [.can, .node 1, .motor 1] ∧
    AtMostWarn ((Tree.group true .error (recovery122 [.frame (news122 5) 10, .wake])).recover { world := halted122, status := .initial, log := [] }).2.status := by
  refine ⟨?_, by simp [Uniform, UniformAll, recovery122], ⟨rfl, fun i _ => ⟨rfl, _, rfl⟩⟩, Or.inl (by decide +kernel)⟩
  simp only [Consists, ConsistsAll, recovery122]
  exact ⟨[.can], _, rfl, ⟨_, _, rfl, rfl⟩, [.node 1], [.motor 1], rfl, ⟨_, _, rfl, rfl⟩, [.motor 1], [], rfl, ⟨_, _, rfl, rfl⟩, rfl⟩

/-- C122 is false for the recovery of nodes: a chain is recovered with success, the motor enabled, although the node ignores the start command and stays stopped. -/
theorem C122_recovered_false : ∃ answer : List Nmt.IEv,
    let x := (Tree.group true .error (recovery122 answer)).recover { world := halted122, status := .initial, log := [] }
    x.2.status = .initial ∧ x.1.state = .ready ∧ (x.2.world.node 1).node.state = 4 ∧ (x.2.world.motor 1).m.hs = .enabled :=
  ⟨[.expire 2000 none false], by decide +kernel, by decide +kernel, by decide +kernel, by decide +kernel⟩

end Verif.Props
