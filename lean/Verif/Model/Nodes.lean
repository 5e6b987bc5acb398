import Verif.Model.Dispatcher
import Verif.Model.Node
import Verif.Model.Master
import Verif.Model.Pdo
import Verif.Model.SdoChannel

/-!
# All nodes of a bus behind one receiving thread
canopen_master/src/node.cpp, canopen_master/src/sdo.cpp, canopen_master/src/emcy.cpp, canopen_master/src/pdo.cpp,
socketcan_interface/include/socketcan_interface/dispatcher.h

The parts of a node that listen for frames are modelled in `Verif.Nmt`, `Verif.Chan`, `Verif.Emcy` and `Verif.Pdo`.  Here the listeners of all nodes are
registered at the dispatcher of one driver (`Verif.Disp`), whose thread calls them.
-/

namespace Verif.Many
open Verif

/-- the listening parts of a node: canopen_master/src/node.cpp:177, canopen_master/src/sdo.cpp:395, canopen_master/src/emcy.cpp:63,
canopen_master/src/pdo.cpp:228 (by the number of the PDO) -/
inductive Part where
  | nmt | sdo | emcy
  | rpdo (k : Nat)
  deriving DecidableEq, Repr

/-- a listener, by node and part (canopen_master/include/canopen_master/canopen.h:240, 38, 152, 131) -/
abbrev Lst := Nat × Part

/-- a node with its parts (canopen_master/include/canopen_master/canopen.h:189-258, 145-168, 71-143; the emergency handler is a layer beside the node,
canopen_chain_node/src/ros_chain.cpp:569-571).  Simplification: each emergency handler belongs to one node. -/
structure Station where
  node : Nmt.Node
  chan : Chan.State
  emcy : Emcy.Handler
  rpdos : Nat → Option Pdo.Rpdo

/-- canopen_master/src/node.cpp:177: the header of the error control messages of a node -/
def nmtHeader (id : Byte) : Header := Header.msg (0x700#32 + id.setWidth 32)

/-- a part handles a frame: canopen_master/src/node.cpp:115-121, socketcan_interface/include/socketcan_interface/reader.h:29-38,
canopen_master/src/emcy.cpp:43-51, canopen_master/src/pdo.cpp:298-324.  The flag tells whether it returned normally. -/
def Station.handle (s : Station) (p : Part) (f : Frame) (now : Int) : Station × Bool :=
  match p with
  | .nmt =>
    let r := s.node.handleNMT f now
    ({ s with node := r.1 }, !(r.2.any fun o => match o with | .escaped => true | _ => false))
  | .sdo => ({ s with chan := { s.chan with reader := s.chan.reader.handleFrame f } }, true)
  | .emcy => ({ s with emcy := s.emcy.handleEMCY f }, true)
  | .rpdo k =>
    match s.rpdos k with
    | none => (s, true)
    | some r =>
      match r.handleFrame f with
      | .ok r' => ({ s with rpdos := fun j => if j = k then some r' else s.rpdos j }, true)
      | _ => (s, false)

/-- the driver's dispatcher of frames, the nodes, and whether the program still runs: an exception that leaves a handler leaves
`io_service::run` and the function of its thread, which ends the program (socketcan_interface/include/socketcan_interface/asio_base.h:45-47, 95-113,
socketcan_interface/include/socketcan_interface/threading.h:41-43) -/
structure Net where
  disp : Disp.Filtered (BitVec 32) Lst
  nodes : Nat → Station
  alive : Bool

/-- nobody listens yet (socketcan_interface/include/socketcan_interface/asio_base.h:84-87) -/
def Net.fresh (nodes : Nat → Station) : Net := { disp := .empty, nodes := nodes, alive := true }

/-- what happens: socketcan_interface/include/socketcan_interface/asio_base.h:45-47, 74-76 (a frame arrives),
socketcan_interface/include/socketcan_interface/dispatcher.h:91-96 and 30-35 (a part starts and stops listening), and `own`: anything the program does with one node (commands, accesses, cycles, waiting that ends) -/
inductive Ev where
  | frame (f : Frame) (now : Int)
  | listen (l : Lst) (h : Header)
  | drop (l : Lst) (h : Header)
  | own (i : Nat) (g : Station → Station)

/-- replace one node (canopen_master/include/canopen_master/canopen.h:189-258) -/
def Net.put (n : Net) (i : Nat) (s : Station) : Net := { n with nodes := fun j => if j = i then s else n.nodes j }

/-- socketcan_interface/include/socketcan_interface/dispatcher.h:42-48: the listeners are called one after the other; an exception ends this -/
def Net.call (n : Net) (f : Frame) (now : Int) : List Lst → Net
  | [] => n
  | l :: ls =>
    let r := (n.nodes l.1).handle l.2 f now
    if r.2 then (n.put l.1 r.1).call f now ls else { n.put l.1 r.1 with alive := false }

/-- one step (socketcan_interface/include/socketcan_interface/dispatcher.h:30-35, 91-96, 104-109) -/
def Net.act (n : Net) : Ev → Net
  | .frame f now => n.call f now (n.disp.dispatch f.key)
  | .listen l h => { n with disp := n.disp.createKeyed h.key l }
  | .drop l h => { n with disp := n.disp.destroy (some h.key) l }
  | .own i g => n.put i (g (n.nodes i))

/-- nothing happens once the program has ended (socketcan_interface/include/socketcan_interface/asio_base.h:95-113) -/
def Net.step (n : Net) (e : Ev) : Net := if n.alive then n.act e else n

/-- a history (socketcan_interface/include/socketcan_interface/dispatcher.h:30-35, 91-96, 104-109) -/
def Net.run (n : Net) (es : List Ev) : Net := es.foldl Net.step n

end Verif.Many
