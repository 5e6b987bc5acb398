import Verif.Model.MotorStack
import Verif.Model.CanLayer
import Verif.Model.NodeLayer
import Verif.Model.Nodes

/-!
# The layers of a chain that watch bus, nodes and emergency messages
canopen_master/include/canopen_master/can_layer.h:32-41, canopen_master/src/node.cpp:148-164, canopen_master/src/emcy.cpp:43-51, 72-81

The driver, the nodes and the emergency handlers are those of `Verif.Drv`, `Verif.Nmt` and `Verif.Emcy`; the motors those of `Verif.MStk`.  Here a
frame goes from the driver to the nodes, and their layers look at what it left.
-/

namespace Verif.Sup
open Verif Verif.Lay Verif.Drv Verif.Nmt Verif.MStk

/-- what is behind the layers of a chain: the driver, the nodes and their emergency handlers by number, the entries 0x1014 of the latter and the time (in
milliseconds), canopen_chain_node/src/ros_chain.cpp:253-263, 524-578 -/
structure Bus where
  driver : Driver
  nodes : Nat → Node
  emcys : Nat → Emcy.Handler
  cobs : Nat → BitVec 32
  now : Int

/-- what happens meanwhile: a read of the socket ends (socketcan_interface/include/socketcan_interface/asio_base.h:74-82), anybody sends a frame with
the result `ec` of the system call (asio_base.h:115-117), time passes -/
inductive In where
  | read (k : KFrame)
  | readError (e : Int)
  | send (f : Frame) (ec : Int)
  | time (d : Nat)

/-- the frame goes to the listeners of its header (socketcan_interface/include/socketcan_interface/dispatcher.h:104-109), here those of the nodes
(canopen_master/src/node.cpp:177) and of the emergency handlers (canopen_master/src/emcy.cpp:62-63).  Simplification: that the dispatcher does this is C09 and
C112; an exception of `handleNMT` (C112) does not end the program. -/
def Bus.deliver (b : Bus) (f : Frame) : Bus :=
  { b with
    nodes := fun i => if (b.nodes i).listening ∧ f.key = (Many.nmtHeader (b.nodes i).id).key then ((b.nodes i).handleNMT f b.now).1 else b.nodes i
    emcys := fun i => if f.key = (Emcy.header (b.cobs i)).key then (b.emcys i).handleEMCY f else b.emcys i }

/-- one of these (socketcan_interface/include/socketcan_interface/asio_base.h:74-82, 115-117).  Simplification: frames with more than 8 bytes are not
sent. -/
def Bus.step (b : Bus) : In → Bus
  | .read k => ({ b with driver := b.driver.readOk k }).deliver (fromKernel b.driver.input k)
  | .readError e => { b with driver := b.driver.readError e }
  | .send f ec =>
    match b.driver.send f ec with
    | .ok (_, d) => { b with driver := d }
    | _ => b
  | .time d => { b with now := b.now + d }

/-- several (socketcan_interface/include/socketcan_interface/asio_base.h:74-82, 115-117) -/
def Bus.run (b : Bus) (es : List In) : Bus := es.foldl Bus.step b

/-- The CAN layer (canopen_master/include/canopen_master/can_layer.h:32-41).  `pre` is what happens before the handler looks at the state, `o` the other
handlers. -/
def canHandlers (pre : World Bus → List In) (o : Handlers (World Bus)) : Handlers (World Bus) where
  run m st w s :=
    match m with
    | .read | .write =>
      let b := w.rest.run (pre w)
      ({ w with rest := b }, CanL.cycleReports b.driver.state st, none)
    | .halt => (w, [], none)
    | _ => o.run m st w s

/-- what process data can change in a read cycle (canopen_master/src/pdo.cpp:282-331): the objects 0x6041 and 0x6061 of the motors, and what is reported -/
structure PdoIn where
  status : Nat → Option (BitVec 16)
  display : Nat → Option (BitVec 8)
  reports : List Lay.Report

/-- The layer of node `i` (canopen_master/src/node.cpp:148-164, 216-218): `pre` happens before, `sdo` is the answer if the heartbeat interval must be asked for, `pdo`
what `pdo_.read` does; in a write cycle `out` are the frames `pdo_.write` sends with the results of the system call, and whether it returns true. -/
def nodeHandlers (pre : World Bus → List In) (sdo : World Bus → Option (BitVec 16)) (pdo : World Bus → PdoIn) (out : World Bus → List (Frame × Int) × Bool)
    (o : Handlers (World Bus)) (i : Nat) : Handlers (World Bus) where
  run m st w s :=
    match m with
    | .read =>
      let b := w.rest.run (pre w)
      let w := { w with rest := b }
      match (b.nodes i).handleRead st b.now (sdo w) with
      | .nothing => (w, [], none)
      | .heartbeatProblem => (w, [.error "heartbeat problem".toList], none)
      | .notOperational => (w, [.error "not operational".toList], none)
      | .exception => (w, [], some "heartbeat interval".toList)
      | .pdo => ({ w with status := (pdo w).status, display := (pdo w).display }, (pdo w).reports, none)
    | .write =>
      let b := w.rest.run (pre w)
      let w := { w with rest := b }
      match (b.nodes i).handleWrite st (out w).2 with
      | .nothing => (w, [], none)
      | .notOperational => (w, [.error "not operational".toList], none)
      | .problem => ({ w with rest := b.run ((out w).1.map fun p => .send p.1 p.2) }, [.error "PDO write problem".toList], none)
      | .written => ({ w with rest := b.run ((out w).1.map fun p => .send p.1 p.2) }, [], none)
    | .halt => (w, [], none)
    | _ => o.run m st w s

/-- The emergency handler of node `i` (canopen_master/src/emcy.cpp:72-81, 144-146) -/
def emcyHandlers (pre : World Bus → List In) (o : Handlers (World Bus)) (i : Nat) : Handlers (World Bus) where
  run m st w s :=
    match m with
    | .read =>
      let b := w.rest.run (pre w)
      ({ w with rest := b }, if (b.emcys i).handleRead st then [.error "Node has emergency error".toList] else [], none)
    | .write => (w, [], none)
    | .halt => (w, [], none)
    | _ => o.run m st w s

end Verif.Sup
