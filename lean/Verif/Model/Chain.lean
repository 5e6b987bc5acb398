import Verif.Model.Layer

/-!
# The chain node: services, control thread, diagnostics
canopen_chain_node/src/ros_chain.cpp, canopen_chain_node/include/canopen_chain_node/ros_chain.h

`RosChain` is a `LayerStack` with its own `handleWrite` and `handleShutdown`; the stack part is a `Tree` (`Model/Layer.lean`).  The four
services hold `mutex_`, so they run one after the other.  Read/write cycles of the control thread that overlap a service are not modelled
here, but see `raceInit` below.  Logging to the console is left out.
-/

namespace Verif.Chain
open Verif Verif.Lay

variable {σ : Type}

/-- `EMCYHandler::resetErrors` of one handler as the chain calls it (canopen_chain_node/src/ros_chain.cpp:179): it reports to the status
and may throw -/
abbrev Resetter (σ : Type) := σ → Status → σ × List Report × Option Text

/-- a publisher (canopen_chain_node/src/ros_chain.cpp:33-37): it reads an object and may throw -/
abbrev Publisher (σ : Type) := σ → σ × Option Text

/-- canopen_chain_node/include/canopen_chain_node/ros_chain.h:133-210 `RosChain`.
`owned` is `thread_` (`some b`: a thread object exists, `b`: the thread has executed canopen_chain_node/src/ros_chain.cpp:74).  `leftNew` and
`leftLooping` count threads whose object was replaced at 142 while they were not finished.  `sync`: a SYNC is configured.  `timer` says whether the heartbeat timer was
started and not stopped since.  `blocked`: a service waits for a thread that will not end, `bad`: a null pointer was used. -/
structure Chain (σ : Type) where
  tree : Tree σ
  resetFirst : Bool
  emcys : List (Resetter σ)
  pubs : List (Publisher σ)
  sync : Bool
  running : Bool
  owned : Option Bool
  leftNew : Nat
  leftLooping : Nat
  timer : Bool
  blocked : Bool
  bad : Bool

/-- canopen_chain_node/src/ros_chain.cpp:598-604 the constructor, with the layers added by `setup` (606-611) -/
def Chain.fresh (ms : List (Tree σ)) (resetFirst : Bool) (emcys : List (Resetter σ)) (pubs : List (Publisher σ)) (sync : Bool) : Chain σ :=
  { tree := .group true .off ms, resetFirst := resetFirst, emcys := emcys, pubs := pubs, sync := sync, running := false, owned := none, leftNew := 0,
    leftLooping := 0, timer := false, blocked := false, bad := false }

/-- number of threads in the loop canopen_chain_node/src/ros_chain.cpp:76-91 -/
def Chain.looping (c : Chain σ) : Nat := c.leftLooping + (if c.owned = some true then 1 else 0)

/-- the answer of a service, `std_srvs::Trigger::Response` (canopen_chain_node/src/ros_chain.cpp:134, 171, 222, 236) -/
structure Resp where
  success : Bool
  message : Text
  deriving DecidableEq

/-- canopen_chain_node/src/ros_chain.cpp:142: the new thread; `begins`: it reaches 74 before the service looks at `running_` -/
def Chain.newThread (c : Chain σ) (begins : Bool) : Chain σ :=
  { c with
    leftNew := c.leftNew + (if c.owned = some false then 1 else 0)
    leftLooping := c.leftLooping + (if c.owned = some true then 1 else 0)
    owned := some begins
    running := c.running || begins }

/-- canopen_chain_node/src/ros_chain.cpp:212, 214-219: what `handleShutdown` does besides shutting down the members.  All threads in the loop
leave it when `running_` is false.  A thread that has not reached 74 sets `running_` again.  Without a SYNC it is then interrupted in the
sleep of 89, with one it goes on for ever because the layers are off and nothing in the loop waits. -/
def Chain.stopThread (c : Chain σ) : Chain σ :=
  let c := { c with timer := false }
  if c.running then
    match c.owned with
    | some true => { c with running := false, owned := none, leftLooping := 0 }
    | some false => if c.sync then { c with blocked := true } else { c with owned := none }
    | none => { c with bad := true }
  else c

/-- `Layer::init` of the chain (canopen_master/include/canopen_master/layer.h:86-95): if it fails, `shutdown` has called
`RosChain::handleShutdown` (canopen_chain_node/src/ros_chain.cpp:210-220) -/
def Chain.initLayer (c : Chain σ) (e : Env σ) : Chain σ × Env σ :=
  let r := c.tree.init e
  (if r.1.state = .off then { c.stopThread with tree := r.1 } else { c with tree := r.1 }, r.2)

/-- `Layer::shutdown` of the chain (canopen_master/include/canopen_master/layer.h:96-102 with canopen_chain_node/src/ros_chain.cpp:210-220) -/
def Chain.shutdownLayer (c : Chain σ) (e : Env σ) : Chain σ × Env σ :=
  let r := c.tree.shutdown e
  (if c.tree.state ≠ .off then { c.stopThread with tree := r.1 } else c, r.2)

/-- a fresh status object for a service or cycle (canopen_chain_node/src/ros_chain.cpp:77, 143, 177, 227, 241, 582) -/
def start (e : Env σ) : Env σ := { e with status := .initial }

/-- canopen_chain_node/src/ros_chain.cpp:134-170 `handle_init`.  The `catch` blocks are not reached: exceptions of handlers are caught by the
layers. -/
def Chain.handleInit (c : Chain σ) (e : Env σ) (begins : Bool) : Chain σ × Env σ × Resp :=
  if c.tree.state.toNat > LayerState.off.toNat then (c, e, ⟨true, "already initialized".toList⟩)
  else
    let r := (c.newThread begins).initLayer (start e)
    if !r.2.status.boundedWarn then
      let d := r.1.tree.diag r.2
      let s := { r.1 with tree := d.1 }.shutdownLayer d.2
      (s.1, s.2, ⟨false, d.2.status.reason⟩)
    else ({ r.1 with timer := true }, r.2, ⟨decide (r.2.status.sev = .ok), r.2.status.reason⟩)

/-- canopen_master/include/canopen_master/layer.h:173-176, 182-192 `callFunc<Warn>(&EMCYHandler::resetErrors)`: exception if any, and whether
all were called; `ok` is `okay_on_start` -/
def resetAll (ok : Bool) : List (Resetter σ) → Env σ → Env σ × Option Text × Bool
  | [], e => (e, none, true)
  | f :: fs, e =>
    let r := f e.world e.status
    let e' := { e with world := r.1, status := r.2.1.foldl Status.report e.status }
    match r.2.2 with
    | some t => (e', some t, false)
    | none => if ok && !e'.status.boundedWarn then (e', none, false) else resetAll ok fs e'

/-- canopen_chain_node/src/ros_chain.cpp:179: the condition -/
def Chain.resetErrors (c : Chain σ) (e : Env σ) : Env σ × Option Text × Bool :=
  if c.resetFirst then resetAll e.status.boundedWarn c.emcys e else (e, none, true)

/-- canopen_chain_node/src/ros_chain.cpp:171-201 `handle_recover` -/
def Chain.handleRecover (c : Chain σ) (e : Env σ) : Chain σ × Env σ × Resp :=
  if c.tree.state.toNat > LayerState.init.toNat then
    let q := c.resetErrors (start e)
    match q.2.1 with
    | some t => (c, q.1, ⟨false, t⟩)
    | none =>
      let r := if q.2.2 then c.tree.recover q.1 else (c.tree, q.1)
      let d := if !r.2.status.boundedWarn then r.1.diag r.2 else r
      ({ c with tree := d.1 }, d.2, ⟨d.2.status.boundedWarn, d.2.status.reason⟩)
  else (c, e, ⟨false, "not running".toList⟩)

/-- canopen_chain_node/src/ros_chain.cpp:222-234 `handle_shutdown` -/
def Chain.handleShutdown (c : Chain σ) (e : Env σ) : Chain σ × Env σ × Resp :=
  if c.tree.state.toNat > LayerState.init.toNat then
    let r := c.tree.halt (start e)
    let s := { c with tree := r.1 }.shutdownLayer r.2
    (s.1, s.2, ⟨true, []⟩)
  else (c, e, ⟨true, "not running".toList⟩)

/-- canopen_chain_node/src/ros_chain.cpp:236-247 `handle_halt` -/
def Chain.handleHalt (c : Chain σ) (e : Env σ) : Chain σ × Env σ × Resp :=
  if c.tree.state.toNat > LayerState.init.toNat then
    let r := c.tree.halt (start e)
    ({ c with tree := r.1 }, r.2, ⟨true, []⟩)
  else (c, e, ⟨true, "not running".toList⟩)

/-- canopen_chain_node/src/ros_chain.cpp:206: the publishers one after the other; an exception is caught by `Layer::write`
(canopen_master/include/canopen_master/layer.h:81) and reported -/
def publishAll : List (Publisher σ) → Env σ → Env σ
  | [], e => e
  | f :: fs, e =>
    let r := f e.world
    match r.2 with
    | some t => { e with world := r.1, status := e.status.set .error t }
    | none => publishAll fs { e with world := r.1 }

/-- canopen_chain_node/src/ros_chain.cpp:203-208 `handleWrite` in `Layer::write` -/
def Chain.writeLayer (c : Chain σ) (e : Env σ) : Chain σ × Env σ :=
  let r := c.tree.write e
  ({ c with tree := r.1 }, if c.tree.state.toNat > LayerState.shutdown.toNat then publishAll c.pubs r.2 else r.2)

/-- canopen_chain_node/src/ros_chain.cpp:77-81: one cycle of the control thread -/
def Chain.cycle (c : Chain σ) (e : Env σ) : Chain σ × Env σ :=
  let r := c.tree.read (start e)
  { c with tree := r.1 }.writeLayer r.2

/-- what happens to the chain: services (canopen_chain_node/src/ros_chain.cpp:134-247), a thread beginning late (74; `left`: one whose
object was replaced), cycles of the control thread (76-91) -/
inductive Ev where
  | init (begins : Bool)
  | recover
  | halt
  | shutdown
  | begin (left : Bool)
  | cycle
  deriving DecidableEq

/-- canopen_chain_node/src/ros_chain.cpp:74: a created thread begins -/
def Chain.begin (c : Chain σ) (left : Bool) : Chain σ :=
  if left then
    if c.leftNew > 0 then { c with leftNew := c.leftNew - 1, leftLooping := c.leftLooping + 1, running := true } else c
  else if c.owned = some false then { c with owned := some true, running := true }
  else c

/-- one event, with the answer if it is a service (canopen_chain_node/src/ros_chain.cpp:73-92, 134-247).  While a service is blocked no other
one runs. -/
def Chain.step (c : Chain σ) (e : Env σ) : Ev → Chain σ × Env σ × Option Resp
  | .begin left => (c.begin left, e, none)
  | .cycle => if c.looping > 0 then let r := c.cycle e; (r.1, r.2, none) else (c, e, none)
  | .init b => if c.blocked then (c, e, none) else let r := c.handleInit e b; (r.1, r.2.1, some r.2.2)
  | .recover => if c.blocked then (c, e, none) else let r := c.handleRecover e; (r.1, r.2.1, some r.2.2)
  | .halt => if c.blocked then (c, e, none) else let r := c.handleHalt e; (r.1, r.2.1, some r.2.2)
  | .shutdown => if c.blocked then (c, e, none) else let r := c.handleShutdown e; (r.1, r.2.1, some r.2.2)

/-- a history (canopen_chain_node/src/ros_chain.cpp:73-92, 134-247) -/
def Chain.run (c : Chain σ) (e : Env σ) : List Ev → Chain σ × Env σ
  | [] => (c, e)
  | v :: vs =>
    let r := c.step e v
    r.1.run r.2.1 vs

/-! ## diagnostics -/

/-- a diagnostics summary: level and message (canopen_chain_node/src/ros_chain.cpp:580-596); key/value pairs are left out -/
structure Summary where
  level : Sev
  message : Text
  deriving DecidableEq

/-- canopen_chain_node/src/ros_chain.cpp:580-596 `report_diagnostics`; the condition of 589 is always true
(canopen_master/include/canopen_master/layer.h:15, 35) -/
def Chain.report (c : Chain σ) (e : Env σ) : Env σ × Summary :=
  if c.tree.state = .off then (e, ⟨.warn, "Not initialized".toList⟩)
  else if !c.running then (e, ⟨.error, "Thread is not running".toList⟩)
  else
    let r := c.tree.diag (start e)
    (r.2, ⟨r.2.status.sev, r.2.status.reason⟩)

/-- an entry of a node's log (canopen_chain_node/include/canopen_chain_node/ros_chain.h:45-53): level, name and getter (`none`: it throws) -/
structure LogEntry (σ : Type) where
  level : Sev
  name : Text
  get : σ → σ × Option Text

/-- canopen_chain_node/include/canopen_chain_node/ros_chain.h:45-53 `log_entry`: the value added to the report, if any -/
def LogEntry.log (en : LogEntry σ) (level : Sev) (w : σ) : σ × List (Text × Text) :=
  if level.toNat ≥ en.level.toNat then
    let r := en.get w
    (r.1, [(en.name, r.2.getD "<ERROR>".toList)])
  else (w, [])

/-- canopen_chain_node/include/canopen_chain_node/ros_chain.h:87: all entries -/
def logAll (level : Sev) : List (LogEntry σ) → σ → σ × List (Text × Text)
  | [], w => (w, [])
  | en :: es, w =>
    let r := en.log level w
    let q := logAll level es r.1
    (q.1, r.2 ++ q.2)

/-- canopen_chain_node/include/canopen_chain_node/ros_chain.h:76-91 `Logger::log`; `unknown`: the node's state is `Unknown`; `ms` are the node,
its emergency handler and further layers (`DiagGroup::diag`, canopen_master/include/canopen_master/layer.h:248-254) -/
def nodeLog (unknown : Bool) (ms : List (Tree σ)) (entries : List (LogEntry σ)) (e : Env σ) :
    List (Tree σ) × Env σ × Summary × List (Text × Text) :=
  if unknown then (ms, e, ⟨.warn, "Not initialized".toList⟩, [])
  else
    let r := diagList ms (start e)
    let q := logAll r.2.status.sev entries r.2.world
    (r.1, { r.2 with world := q.1 }, ⟨r.2.status.sev, r.2.status.reason⟩, q.2)

/-! ## initialising while the control thread runs -/

/-- one of the two calls of a cycle (canopen_chain_node/src/ros_chain.cpp:79-80) on the stack while it is being initialised; a cycle has its
own status object (77).  `true` is read. -/
def cycleCall (ms : List (Tree σ)) (w : σ) (log : List (Nat × Method)) (rd : Bool) : List (Tree σ) × Env σ :=
  let e : Env σ := ⟨w, .initial, log⟩
  let r := if rd then (Tree.group true .init ms).read e else (Tree.group true .init ms).write e
  (match r.1 with | .group _ _ ms' => ms' | .leaf .. => ms, r.2)

/-- several such calls one after the other; the third component says whether all of them ended without an error
(canopen_chain_node/src/ros_chain.cpp:76-91) -/
def cycleCalls : List Bool → List (Tree σ) → Env σ → List (Tree σ) × Env σ × Bool
  | [], ms, e => (ms, e, true)
  | b :: bs, ms, e =>
    let r := cycleCall ms e.world e.log b
    let q := cycleCalls bs r.1 { e with world := r.2.world, log := r.2.log }
    (q.1, q.2.1, r.2.status.boundedWarn && q.2.2)

/-- canopen_master/include/canopen_master/layer.h:182-192 `call<Warn>(&Layer::init)` on the members from number `i` on, where before each member's
initialisation the control thread makes the calls `sched i` (the status of the initialisation is `e.status`).  Simplification: the calls of
the control thread do not overlap the initialisation of a single member.  Last component: no call of the control thread failed. -/
def raceInit (sched : Nat → List Bool) : Nat → Nat → List (Tree σ) → Env σ → List (Tree σ) × Env σ × Bool
  | 0, _, ms, e => (ms, e, true)
  | n + 1, i, ms, e =>
    let q := cycleCalls (sched i) ms e
    match q.1[i]? with
    | none => (q.1, q.2.1, q.2.2)
    | some t =>
      let r := t.init q.2.1
      let ms' := q.1.set i r.1
      if !r.2.status.boundedWarn then (ms', r.2, q.2.2)
      else
        let z := raceInit sched n (i + 1) ms' r.2
        (z.1, z.2.1, q.2.2 && z.2.2)

/-- `Layer::init` of the chain with the control thread running (canopen_master/include/canopen_master/layer.h:86-95) -/
def raceChain (sched : Nat → List Bool) (ms : List (Tree σ)) (e : Env σ) : Tree σ × Env σ × Bool :=
  let r := raceInit sched ms.length 0 ms e
  let f := finishInit (.group true .init r.1) r.2.1
  (f.1, f.2, r.2.2)

end Verif.Chain
