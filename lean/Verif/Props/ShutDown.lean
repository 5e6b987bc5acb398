import Verif.Lemmas.ShutDown
import Verif.Props.StartUp

/-!
# C126: what the answer to the shutdown of a whole chain means
-/

namespace Verif.Props
open Verif Verif.Lay Verif.SUp Verif.Spec Verif.Spec.SUp

private def node126 (i : Nat) : Nmt.Initing :=
  { node := { Nmt.Node.fresh i true { present := true, dflt := some 0, conf := some 100, buf := 100, valid := true } with state := 5, synced := true }, pc := .done .fine,
    log := [], recovering := false }
private def motor126 : Hand.Sys :=
  { m := { cw := 0x0F, sfr := false, hs := .enabled, sw := 0x27, target := .enabled, modes := M402.registered 0x04 (fun _ => none), drives := some 0x04, selected := some 3,
           modeId := 3, phase := .idle },
    switching := .enabled, limit := 5000, pc := .finished true, halting := none, msgs := [] }
/-- everything runs -/
private def world126 : World := { can := .call .init :: bringUp, node := node126, motor := fun _ => motor126, hung := false }
private def rest126 (start f : List Ev) (closing : List Nmt.SEv) : Rest :=
  { sched := fun m _ => if m = .init then start else f, first := fun _ => (0x40, 0), now := fun _ => 0, closing := fun _ => closing, others := fun _ _ _ => ([], none) }
private def motorSteps126 : List Ev :=
  ([.tick 0, .tick 0, .tick 0, .tick 0, .write, .read 0x40 0, .tick 1, .tick 1] : List Hand.HEv).map (Ev.motor 1)
private def news126 (i : Nat) (b : Byte) : Frame :=
  { id := BitVec.ofNat 29 (0x700 + i), isError := false, isRtr := false, isExtended := false, data := #v[b, 0, 0, 0, 0, 0, 0, 0], dlc := 1 }
private def nodeStart126 (i : Nat) : List Ev :=
  ([.next .works 0, .next .works 0, .next .works 0, .frame (news126 i 0) 10, .wake, .finish true false, .next .works 20, .next .works 30, .next .works 40,
    .next .works 50, .frame (news126 i 5) 60, .wake] : List Nmt.IEv).map (Ev.node i)
private def motorStart126 : List Ev :=
  ([.tick 0, .tick 0, .tick 0, .tick 0, .write, .read 0x21 0, .tick 1, .tick 1, .tick 1, .write, .read 0x23 0, .tick 2, .tick 2, .tick 2, .write,
    .read 0x27 0, .tick 3, .tick 3] : List Hand.HEv).map (Ev.motor 1)
private def fine126 : List Nmt.SEv := [.next none true, .next none true, .next none true, .next none true]
/-- bus, a group with two nodes, a group with one motor; `closing`: the steps of the shutdown of the nodes, `f`: what happens while the motor is shut down -/
private def chain126 (f : List Ev) (closing : List Nmt.SEv) : List (Tree World) :=
  [.leaf 0 .ready (layer .can (rest126 (bringUp.map .can) (takeDown.map .can) [])) [], .group false .ready [.leaf 1 .ready (layer (.node 1) (rest126 (nodeStart126 1) [] closing)) [],
   .leaf 2 .ready (layer (.node 2) (rest126 (nodeStart126 2) [] closing)) []], .group false .ready [.leaf 3 .ready (layer (.motor 1) (rest126 motorStart126 f [])) []]]
private def env126 : Env World := { world := world126, status := .initial, log := [] }
private def tree126 (f : List Ev) (closing : List Nmt.SEv) : Tree World := .group true .ready (chain126 f closing)

/-- C126.  If a whole chain is shut down and the answer is no more than a warning, whatever else happened meanwhile, then, one after the other, the last layer of a stack first:
each drive reported that switching on is disabled, its motor has no mode selected any more; each device was told to stop, by one frame, and its node listens no longer; the
socket was closed and no thread was left in the driver.  At the end all layers are off and as they were before they were first started.
Missing: motors that are halted meanwhile (see `C126_halt_false`). -/
theorem C126_ordered_partial (t : Tree World) (ks : List Kind) (hc : Closes t ks) (hd : ks.Nodup) (st : LayerState) (hst : st ≠ .off) (hu : Uniform st t) (e : Env World)
    (hq : Steady e.world ks) (hs : AtMostWarn (t.shutdown e).2.status) :
    Passes e.world (t.shutdown e).2.world (ks.flatMap down) ∧ Uniform .off (t.shutdown e).1 ∧ Quiet (t.shutdown e).2.world ks := by
  have h := tree_down t e st ks hst hu hc hd hq ((sv_atMostWarn _).2 hs)
  exact ⟨h.passes, shutdown_uniform st t e hu, h.idle, h.stopped⟩

private theorem closes126 : Closes (tree126 motorSteps126 fine126) [.motor 1, .node 1, .node 2, .can] := by
  have h1 : NotHalted (rest126 motorStart126 motorSteps126 []) := by intro w i; simp [rest126, motorSteps126]
  have h2 : ∀ x c, NotHalted (rest126 x [] c) := by intro x c w i; simp [rest126]
  have h3 : NotHalted (rest126 (bringUp.map .can) (takeDown.map .can) []) := by intro w i; simp [rest126]
  simp only [Closes, ClosesAll, tree126, chain126]
  exact ⟨[.can], [.motor 1, .node 1, .node 2], ⟨_, _, rfl, h3, rfl⟩, ⟨[.node 1, .node 2], [.motor 1], ⟨[.node 1], [.node 2], ⟨_, _, rfl, h2 _ _, rfl⟩,
    ⟨[.node 2], [], ⟨_, _, rfl, h2 _ _, rfl⟩, rfl, rfl⟩, rfl⟩, ⟨[.motor 1], [], ⟨[.motor 1], [], ⟨_, _, rfl, h1, rfl⟩, rfl, rfl⟩, rfl, rfl⟩, rfl⟩, rfl⟩

example : Closes (tree126 motorSteps126 fine126) [.motor 1, .node 1, .node 2, .can] ∧ Uniform .ready (tree126 motorSteps126 fine126) ∧
    Steady world126 [.motor 1, .node 1, .node 2, .can] ∧ Running world126.bus ∧ AtMostWarn ((tree126 motorSteps126 fine126).shutdown env126).2.status := by
  refine ⟨closes126, by simp [Uniform, UniformAll, tree126, chain126], ⟨by decide +kernel, fun i _ => ⟨rfl, _, rfl⟩⟩, ?_, Or.inl (by decide +kernel)⟩
  unfold Running
  decide +kernel

/-- C126.  Whatever goes wrong when a chain, with the CAN layer first in the stack, is shut down: if it returns, all layers are off and nobody can use the bus, socket and driver
are closed, no thread is left, and this stays so, whatever other threads try, until the CAN layer is called again. -/
theorem C126_closed (id : Nat) (r : Rest) (tr : List Method) (ts : List (Tree World)) (st : LayerState) (hst : st ≠ .off) (hc : ∀ t ∈ ts, ∃ ks, Consists t ks)
    (hu : ∀ t ∈ ts, Uniform st t) (e : Env World) (hq : e.world.bus.pc = .idle) :
    let x := (Tree.group true st (.leaf id st (layer .can r) tr :: ts)).shutdown e
    x.2.world.hung = false → Uniform .off x.1 ∧ BusClosed x.2.world.bus ∧ ∀ es, BusClosed (x.2.world.run es).bus := by
  intro x hh
  refine ⟨shutdown_uniform st _ e ?_, ?_⟩
  · rw [uniform_group]
    refine ⟨rfl, fun t ht => ?_⟩
    rcases List.mem_cons.1 ht with rfl | ht
    · rw [uniform_leaf]
    · exact hu t ht
  suffices h : x.2.world.bus.pc = .idle ∧ BusClosed x.2.world.bus from
    ⟨h.2, fun es => by rw [bus_run]; exact closed_run _ _ (canEvs_noCall es) h.1 h.2⟩
  have hev : ∀ t ∈ ts, Verif.Spec.Sup.EveryLeaf Lyr t := fun t ht => by
    obtain ⟨ks, h⟩ := hc t ht
    exact consists_every t ks h
  obtain ⟨-, g2⟩ := seqR_fair Tree.shutdown ts (fun t _ => shutdown_fair t) hev e
  have hx : x.2 = callHandler id (layer .can r) .shutdown .shutdown (seqR Tree.shutdown ts e).2 := by
    show (Tree.shutdown _ _).2 = _
    rw [Tree.shutdown]
    simp [hst, shutdownRev_eq, seqR, Tree.shutdown]
  rw [hx] at hh ⊢
  exact can_closed r .shutdown _ (seqR Tree.shutdown ts e).2.status (fun h => (g2 (fun _ => hq) h).2) hh

/-- the nodes do not answer -/
private def dead126 : List Nmt.SEv := [.next none false]

example : (∀ t ∈ (chain126 motorSteps126 dead126).tail, ∃ ks, Consists t ks) ∧ (∀ t ∈ chain126 motorSteps126 dead126, Uniform .ready t) ∧ Running world126.bus ∧
    ((tree126 motorSteps126 dead126).shutdown env126).2.world.hung = false ∧ ¬ AtMostWarn ((tree126 motorSteps126 dead126).shutdown env126).2.status := by
  refine ⟨?_, by simp [Uniform, UniformAll, chain126], by unfold Running; decide +kernel, by decide +kernel, by unfold AtMostWarn; decide +kernel⟩
  intro t ht
  simp only [chain126, List.tail_cons, List.mem_cons, List.not_mem_nil, or_false] at ht
  rcases ht with rfl | rfl
  · exact ⟨[.node 1, .node 2], by simp only [Consists, ConsistsAll]; exact ⟨[.node 1], [.node 2], rfl, ⟨_, _, rfl, rfl⟩, [.node 2], [], rfl, ⟨_, _, rfl, rfl⟩, rfl⟩⟩
  · exact ⟨[.motor 1], by simp only [Consists, ConsistsAll]; exact ⟨[.motor 1], [], rfl, ⟨_, _, rfl, rfl⟩, rfl⟩⟩

/-- C126, restart.  A chain that was shut down with no more than a warning can be started again, and then the answer to the initialisation means the same as at first. -/
theorem C126_restart_partial (t : Tree World) (ks ks' : List Kind) (hc : Closes t ks) (hd : ks.Nodup) (st : LayerState) (hst : st ≠ .off) (hu : Uniform st t) (e : Env World)
    (hq : Steady e.world ks) (hs : AtMostWarn (t.shutdown e).2.status) (hc' : Consists t ks') (hp : ks'.Perm ks) (e' : Env World) (he : e'.world = (t.shutdown e).2.world)
    (hs' : AtMostWarn ((t.shutdown e).1.init e').2.status) : Passes e'.world ((t.shutdown e).1.init e').2.world (ks'.flatMap moments) := by
  obtain ⟨-, h2, h3⟩ := C126_ordered_partial t ks hc hd st hst hu e hq hs
  refine C122_started_partial _ ks' (shutdown_consists t ks' hc' e) (hp.nodup_iff.2 hd) h2 e' ?_ hs'
  rw [he]
  exact ⟨h3.1, fun i hi => h3.2 i (hp.mem_iff.1 hi)⟩

example : Consists (tree126 motorSteps126 fine126) [.can, .node 1, .node 2, .motor 1] ∧ ([.can, .node 1, .node 2, .motor 1] : List Kind).Perm [.motor 1, .node 1, .node 2, .can] ∧
    AtMostWarn (((tree126 motorSteps126 fine126).shutdown env126).1.init { world := ((tree126 motorSteps126 fine126).shutdown env126).2.world, status := .initial, log := [] }).2.status := by
  refine ⟨?_, by decide, Or.inl (by decide +kernel)⟩
  simp only [Consists, ConsistsAll, tree126, chain126]
  exact ⟨[.can], _, rfl, ⟨_, _, rfl, rfl⟩, [.node 1, .node 2], [.motor 1], rfl, ⟨[.node 1], [.node 2], rfl, ⟨_, _, rfl, rfl⟩, [.node 2], [], rfl, ⟨_, _, rfl, rfl⟩, rfl⟩,
    [.motor 1], [], rfl, ⟨[.motor 1], [], rfl, ⟨_, _, rfl, rfl⟩, rfl⟩, rfl⟩

/-- C126 is false for a device that does not answer: the heartbeat cannot be switched off, so it is not told to stop.  The chain is shut down and the bus closed while the device
is still operational, as the master knows. -/
theorem C126_device_false : ∃ closing : List Nmt.SEv,
    let x := (tree126 motorSteps126 closing).shutdown env126
    x.1.state = .off ∧ x.2.world.hung = false ∧ x.2.world.bus.sock = false ∧ (x.2.world.node 1).log = [] ∧ (x.2.world.node 1).node.state = 5 ∧ (x.2.world.node 1).node.listening = true :=
  ⟨dead126, by decide +kernel, by decide +kernel, by decide +kernel, rfl, by decide +kernel, by decide +kernel⟩

/-- C126 is false for a motor that is halted while it is shut down: the chain is shut down without any report, and the drive never left the quick stop. -/
theorem C126_halt_false : ∃ f : List Ev,
    let x := (tree126 f fine126).shutdown env126
    x.2.status = .initial ∧ x.1.state = .off ∧ (x.2.world.motor 1).m.hs = .quickStop :=
  ⟨([.tick 0, .tick 0, .haltLook, .haltAct, .tick 0, .tick 0, .write, .read 0x07 0, .tick 1, .tick 1] : List Hand.HEv).map (Ev.motor 1),
    by decide +kernel, by decide +kernel, by decide +kernel⟩

end Verif.Props
