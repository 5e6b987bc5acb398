import Verif.Model.Master
import Verif.Model.Text

/-!
# The programs that produce SYNC with the kernel
canopen_chain_node/src/sync_node.cpp, canopen_master/src/bcm_sync.cpp, on top of `BCMsync` (canopen_master/include/canopen_master/bcm_sync.h)
and the stack of layers (canopen_master/include/canopen_master/layer.h)
-/

namespace Verif.SyncN
open Verif Verif.Lay

/-! ## Configuration -/

/-- parameters of the node (canopen_chain_node/src/sync_node.cpp:45-80): `int` values are 32 bit, so the numbers are in that range; `device` only
matters as given or not -/
structure Params where
  interval : Option Int
  overflow : Option Int
  device : Option Text
  syncId : Option Int
  monitored : Option (List Int)
  heartbeat : Option Text
  ignored : Option (List Int)

/-- what `BCMsync` is made from: its `SyncProperties` and the sets of nodes (canopen_chain_node/src/sync_node.cpp:67-84,
canopen_master/src/bcm_sync.cpp:51-55) -/
structure Config where
  props : Sync.Props
  monitored : List Int
  ignored : List Int

/-- the constructor of `SyncProperties` (canopen_master/include/canopen_master/canopen.h:174) called with `int` (sync_node.cpp:67, bcm_sync.cpp:51): the
period is cut to 16, the overflow to 8 bits -/
def props (h : Header) (ms overflow : Int) : Sync.Props := { header := h, period := BitVec.ofInt 16 ms, overflow := BitVec.ofInt 8 overflow }

/-- canopen_chain_node/src/sync_node.cpp:71-84: the monitored nodes, or else the ignored ones; `getParam` replaces the content of the vector.
`junk` stands for the uninitialised payload of the parsed frame, which is not looked at. -/
def nodeSets (p : Params) (junk : Vector Byte 8) : List Int × List Int :=
  match p.monitored with
  | some ns => (ns, [])
  | none =>
    let own := match p.heartbeat with
      | none => []
      | some msg =>
        let f := Txt.toframe junk msg
        if f.isValid ∧ f.id &&& ~~~ (127 : BitVec 29) = 0x700 then [((f.id &&& 127).toNat : Int)] else []
    ([], p.ignored.getD own)

/-- canopen_chain_node/src/sync_node.cpp:44-84: the configuration, or `none` if the program ends with an error message.  The printing of an
uninitialised interval (line 47) is left out. -/
def configure (p : Params) (junk : Vector Byte 8) : Option Config :=
  match p.interval with
  | none => none
  | some ms =>
    if ms ≤ 0 then none
    else
      let o := p.overflow.getD 0
      if o = 1 ∨ o > 240 then none
      else if p.device.isNone then none
      else
        let ns := nodeSets p junk
        some { props := props (Header.msg (BitVec.ofInt 32 (p.syncId.getD 0x080))) ms o, monitored := ns.1, ignored := ns.2 }

/-- node numbers as natural numbers for `Bcm.State`: a node number is a byte (`skipNode(uint8_t)`, canopen_master/include/canopen_master/bcm_sync.h:39),
negative members of the sets never match, they are mapped beyond the bytes -/
def nodeNo (n : Int) : Nat := if n < 0 then 256 + n.natAbs else n.toNat

/-- `BCMsync` made from a configuration (canopen_chain_node/src/sync_node.cpp:69-84, canopen_master/src/bcm_sync.cpp:51-55) -/
def Config.create (c : Config) (junk : Vector Byte 8) : Bcm.State :=
  Bcm.State.create c.props junk (c.monitored.map nodeNo) (c.ignored.map nodeNo)

/-! ## The command line tool -/

/-- value of the leading decimal digits (part of `atoi`, canopen_master/src/bcm_sync.cpp:13, 23, 36) -/
def digits : Text → Nat → Nat
  | [], a => a
  | c :: t, a => if c.isDigit then digits t (10 * a + (c.toNat - 48)) else a

/-- `atoi` (canopen_master/src/bcm_sync.cpp:13, 23, 36): white space, a sign, digits; `none`: the value is no `int`, undefined behaviour -/
def atoi (s : Text) : Option Int :=
  let ns := Txt.takeSign (s.dropWhile Txt.isSpace)
  let v : Int := if ns.1 then -(digits ns.2 0 : Int) else digits ns.2 0
  if -2147483648 ≤ v ∧ v ≤ 2147483647 then some v else none

/-- result of reading the command line (canopen_master/src/bcm_sync.cpp:7-44): the device and the configuration, a refusal, or undefined behaviour -/
inductive Args where
  | ok (device : Text) (c : Config)
  | refused
  | ub

/-- the loop canopen_master/src/bcm_sync.cpp:34-44 over the rest of the arguments; the sets collected so far -/
def ids : List Text → List Int → List Int → Option (Option (List Int × List Int))
  | [], m, i => some (some (m, i))
  | a :: as, m, i =>
    if a.take 2 = ['-', '-'] then some (some (m, i))
    else
      match atoi a with
      | none => none
      | some id =>
        if id > 0 ∧ id < 128 then ids as (m ++ [id]) i
        else if id < 0 ∧ id > -128 then ids as m (i ++ [-id])
        else some none

/-- the optional overflow canopen_master/src/bcm_sync.cpp:20-30: the overflow and the remaining arguments -/
def overflowArg : List Text → Option (Option (Int × List Text))
  | [] => some (some (0, []))
  | a :: as =>
    if a.head? ≠ some '-' ∧ a.head? ≠ some '+' then
      match atoi a with
      | none => none
      | some o => if o = 1 ∨ o < 0 ∨ o > 240 then some none else some (some (o, as))
    else some (some (0, a :: as))

/-- canopen_master/src/bcm_sync.cpp:7-55: the arguments after the name of the program -/
def parseArgs : List Text → Args
  | device :: ms :: header :: rest =>
    match atoi ms with
    | none => .ub
    | some period =>
      let h := Txt.toheader header
      if !h.isValid then .refused
      else
        match overflowArg rest with
        | none => .ub
        | some none => .refused
        | some (some (o, rest)) =>
          match ids rest [] [] with
          | none => .ub
          | some none => .refused
          | some (some (m, i)) => .ok device { props := props h period o, monitored := m, ignored := i }
  | _ => .refused

/-! ## The node at work -/

/-- what the outside does around one call of a handler: the frames received before it (with the kernel's answer to a request to start SYNC), whether the
driver is ready or, for initialisation and recovery of the bus, whether they succeed (canopen_master/include/canopen_master/can_layer.h:32-109),
and whether the socket of the broadcast manager and the filter could be set up (canopen_master/include/canopen_master/bcm_sync.h:99-114) -/
structure Answer where
  frames : List (Frame × Bool)
  ready : Bool
  bcm : Bool
  filter : Bool

/-- the SYNC layer and the answers to come (canopen_chain_node/src/sync_node.cpp:66-89) -/
structure World where
  bcm : Bcm.State
  answers : Nat → Answer

/-- frames delivered to the listener (canopen_master/include/canopen_master/bcm_sync.h:46, 117) -/
def feed (fs : List (Frame × Bool)) (s : Bcm.State) : Bcm.State := s.run (fs.map fun q => .frame q.1 q.2)

/-- the world after the frames before the next handler (canopen_master/include/canopen_master/bcm_sync.h:46-76) -/
def World.next (w : World) : World := { bcm := feed (w.answers 0).frames w.bcm, answers := fun n => w.answers (n + 1) }

/-- `CANLayer` (canopen_master/include/canopen_master/can_layer.h:32-109) as far as its reports go: an error while the driver is not ready, or if initialisation or
recovery did not make it ready.  Simplification: warnings about time-outs and running threads are left out. -/
def canLayer : Handlers World where
  run m st w _ :=
    let a := w.answers 0
    let rs : List Report := match m with
      | .read | .write => if st.toNat > LayerState.init.toNat ∧ !a.ready then [.error "CAN not ready".toList] else []
      | .diag => if a.ready then [] else [.error "CAN layer not ready".toList]
      | .init | .recover => if a.ready then [] else [.error "CAN is not ready".toList]
      | .shutdown | .halt => []
    (w.next, rs, none)

/-- reports of `BCMsync::handleInit` (canopen_master/include/canopen_master/bcm_sync.h:99-115) -/
def initReports (a : Answer) : List Report :=
  if !a.bcm then [.error "BCM_init failed".toList] else if !a.filter then [.warn "could not set filter".toList] else []

/-- `BCMsync` as a layer (canopen_master/include/canopen_master/bcm_sync.h:77-137) -/
def syncLayer : Handlers World where
  run m _ w _ :=
    let a := w.answers 0
    let w := w.next
    match m with
    | .read | .write => (w, [], none)
    | .diag => (w, if w.bcm.running then [] else [.warn "sync is not running".toList], none)
    | .init => ({ w with bcm := w.bcm.handleInit a.bcm a.filter }, initReports a, none)
    | .shutdown => ({ w with bcm := w.bcm.handleShutdown }, [], none)
    | .halt => ({ w with bcm := w.bcm.handleHalt }, [], none)
    | .recover => ({ w with bcm := w.bcm.handleShutdown.handleInit a.bcm a.filter }, initReports a, none)

/-- the node: its stack and its SYNC layer (canopen_chain_node/src/sync_node.cpp:69, 86-89) -/
structure Node where
  stack : Tree World
  bcm : Bcm.State

/-- canopen_chain_node/src/sync_node.cpp:69-89 -/
def Node.start (c : Config) (junk : Vector Byte 8) : Node :=
  { stack := .group true .off [.leaf 0 .off canLayer [], .leaf 1 .off syncLayer []], bcm := c.create junk }

/-- what is shown: the status of the layers, or that SYNC is not initialised (canopen_chain_node/src/sync_node.cpp:23, 32) -/
inductive Shown where
  | status (s : Status)
  | notInitialized
  deriving DecidableEq, Repr

/-- canopen_chain_node/src/sync_node.cpp:18-36 `report_diagnostics`.  `r.bounded<Unbounded>()` (line 22) always holds
(canopen_master/include/canopen_master/layer.h:15, 35); the values added to the report are left out. -/
def Node.report (n : Node) (answers : Nat → Answer) : Node × Shown :=
  let r := n.stack.read { world := { bcm := n.bcm, answers := answers }, status := .initial, log := [] }
  let d := r.1.diag r.2
  if d.1.state ≠ .off then
    if !d.2.status.boundedWarn then
      let v := d.1.recover { d.2 with status := .initial }
      ({ stack := v.1, bcm := v.2.world.bcm }, .status d.2.status)
    else ({ stack := d.1, bcm := d.2.world.bcm }, .status d.2.status)
  else
    let i := d.1.init { d.2 with status := .initial }
    ({ stack := i.1, bcm := i.2.world.bcm }, .notInitialized)

/-- what happens to the node: a diagnostic timer (canopen_chain_node/src/sync_node.cpp:91-95), frames in between
(canopen_master/include/canopen_master/bcm_sync.h:46) -/
inductive Ev where
  | report (answers : Nat → Answer)
  | frame (f : Frame) (ok : Bool)

/-- one event (canopen_chain_node/src/sync_node.cpp:18-36, canopen_master/include/canopen_master/bcm_sync.h:46-76) -/
def Node.step (n : Node) : Ev → Node
  | .report a => (n.report a).1
  | .frame f ok => { n with bcm := n.bcm.step (.frame f ok) }

/-- a history of the node (canopen_chain_node/src/sync_node.cpp:91-98) -/
def Node.run (n : Node) : List Ev → Node
  | [] => n
  | e :: es => (n.step e).run es

end Verif.SyncN
