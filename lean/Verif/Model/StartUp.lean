import Verif.Model.CanLayer
import Verif.Model.NodeLayer
import Verif.Model.MotorHandlers

/-!
# The layers of a chain while they are initialised, recovered and shut down
canopen_master/include/canopen_master/can_layer.h:70-110, canopen_master/src/node.cpp:176-215, canopen_402/src/motor.cpp:471-547 as handlers of
`Verif.Lay`

The driver with its thread, the nodes and the motors are those of `Verif.CanL`, `Verif.Nmt` and `Verif.Hand`.  While the handler of one layer is executed, all
other threads go on: the driver's thread, senders, the receiving thread of the nodes and the control thread that reads and writes the motors.  What they do
meanwhile is a schedule, an arbitrary function of the situation.
-/

namespace Verif.SUp
open Verif Verif.Lay

/-- What is behind the layers (canopen_chain_node/src/ros_chain.cpp:253-263, 524-578, canopen_motor_node/src/motor_chain.cpp:61-84): the history of the CAN layer
with its driver, the nodes and the motors by number; `hung`: a handler has not returned. -/
structure World where
  can : List CanL.Ev
  node : Nat → Nmt.Initing
  motor : Nat → Hand.Sys
  hung : Bool

/-- the CAN layer and its driver (canopen_master/include/canopen_master/can_layer.h:10-27) -/
def World.bus (w : World) : CanL.Sys := (CanL.Sys.fresh true).run w.can

/-- steps of any thread, in the CAN layer, a node or a motor (socketcan_interface/include/socketcan_interface/asio_base.h:48-121, canopen_master/src/node.cpp:115-140,
canopen_402/src/motor.cpp:245-437) -/
inductive Ev where
  | can (e : CanL.Ev)
  | node (i : Nat) (e : Nmt.IEv)
  | motor (i : Nat) (e : Hand.HEv)

/-- one of these; no handler is called this way (canopen_master/include/canopen_master/layer.h:86-123: the layers are called one after the other) -/
def World.step (w : World) : Ev → World
  | .can (.call _) => w
  | .can e => { w with can := w.can ++ [e] }
  | .node i e => { w with node := fun j => if j = i then (w.node i).step e else w.node j }
  | .motor _ (.call _) => w
  | .motor i e => { w with motor := fun j => if j = i then (w.motor i).step e else w.motor j }

/-- several (canopen_master/include/canopen_master/layer.h:86-123) -/
def World.run (w : World) (es : List Ev) : World := es.foldl World.step w

/-- the handlers that are modelled in detail (canopen_master/include/canopen_master/can_layer.h:70-110, canopen_master/src/node.cpp:176-215,
canopen_402/src/motor.cpp:471-547); `es`: what the receiving thread and the calling thread do during the shutdown of a node -/
inductive Start where
  | can (c : CanL.Call)
  | node (i : Nat)
  | nodeAgain (i : Nat) (now : Int)
  | nodeStop (i : Nat) (es : List Nmt.SEv)
  | motor (i : Nat) (c : Hand.Call)

/-- `handleShutdown` of a node from beginning to end (canopen_master/src/node.cpp:210-215): the steps `es`, then those that are left of it; none of them waits
without a time limit.  Simplification: what other threads do to other parts meanwhile happens before or after; nothing of it touches the node. -/
def stopNode (i : Nmt.Initing) (es : List Nmt.SEv) : Nmt.Initing :=
  let c := i.node.beginShutdown.run (es ++ List.replicate 4 (.next none false))
  { i with node := c.node, log := c.sent.map .sent, pc := .done (match c.pc with
    | .done r => r
    | _ => .exception) }

/-- the handler is entered (canopen_master/include/canopen_master/can_layer.h:70, 89, 105, canopen_master/src/node.cpp:176, 202, 210,
canopen_402/src/motor.cpp:471, 514, 535) -/
def World.begin (w : World) : Start → World
  | .can c => { w with can := w.can ++ [.call c] }
  | .node i => { w with node := fun j => if j = i then (w.node i).node.beginInit else w.node j }
  | .nodeAgain i now => { w with node := fun j => if j = i then (w.node i).node.beginRecover now else w.node j }
  | .nodeStop i es => { w with node := fun j => if j = i then stopNode (w.node i) es else w.node j }
  | .motor i c => { w with motor := fun j => if j = i then (w.motor i).begin c else w.motor j }

/-- the handler has not returned (canopen_master/include/canopen_master/can_layer.h:70-110, canopen_master/src/node.cpp:176-215, canopen_402/src/motor.cpp:471-547) -/
def busy : Start → World → Bool
  | .can _, w => w.bus.pc ≠ .idle
  | .node i, w | .nodeAgain i _, w | .nodeStop i _, w => match (w.node i).pc with
    | .done _ => false
    | _ => true
  | .motor i _, w => !(w.motor i).free

/-- the schedule ends when the handler returns, not earlier (canopen_master/include/canopen_master/layer.h:54-61) -/
def World.ends (c : Start) (w : World) : List Ev → Bool
  | [] => !busy c w
  | e :: es => busy c w && (w.step e).ends c es

/-- What the handler has reported when it returns: reports to the status and the exception, if it was left by one
(canopen_master/include/canopen_master/can_layer.h:72-86, 94, canopen_master/src/node.cpp:182-200, 205-208, 210-215, canopen_402/src/motor.cpp:304, 309, 348, 367, 372, 487,
499, 504, 509, 544).  Simplification: the texts of nodes and motors are left out. -/
def result : Start → World → List Report × Option Text
  | .can _, w => (w.bus.reports, none)
  | .node i, w | .nodeAgain i _, w | .nodeStop i _, w => match (w.node i).pc with
    | .done .fine => ([], none)
    | .done .error => ([.error "node".toList], none)
    | _ => ([], some "node".toList)
  | .motor i _, w => match (w.motor i).pc with
    | .threw => ((w.motor i).msgs.map fun _ => .error "motor".toList, some "motor".toList)
    | _ => ((w.motor i).msgs.map fun _ => .error "motor".toList, none)

/-- a layer of a chain: the CAN layer, a node, a motor, or another one (canopen_chain_node/src/ros_chain.cpp:329, 378, 443, 609,
canopen_motor_node/src/motor_chain.cpp:68-69, 78) -/
inductive Kind where
  | can
  | node (i : Nat)
  | motor (i : Nat)
  | other (i : Nat)
  deriving DecidableEq, Repr

/-- Which handler it is (canopen_master/include/canopen_master/can_layer.h:70-110, canopen_master/src/node.cpp:176-215, canopen_402/src/motor.cpp:471-547); `first` is what
`handleInit` of a motor reads from the drive (475), `now` the time, `closing` the steps
of the shutdown of a node.  `none`: the handlers of other layers, cycles, diagnostics and `halt`. -/
def starts (k : Kind) (m : Method) (first : BitVec 16 × BitVec 8) (now : Int) (closing : List Nmt.SEv) : Option Start :=
  match k, m with
  | .can, .init => some (.can .init)
  | .can, .shutdown => some (.can .shutdown)
  | .can, .recover => some (.can .recover)
  | .node i, .init => some (.node i)
  | .node i, .recover => some (.nodeAgain i now)
  | .node i, .shutdown => some (.nodeStop i closing)
  | .motor i, .init => some (.motor i (.init first.1 first.2))
  | .motor i, .shutdown => some (.motor i .shutdown)
  | .motor i, .recover => some (.motor i .recover)
  | _, _ => none

/-- What is left open: what happens during the handlers, what a motor reads first, the time, the steps of the shutdown of a node, and the reports of the handlers that are not modelled here
(canopen_master/include/canopen_master/layer.h:132-141). -/
structure Rest where
  sched : Method → World → List Ev
  first : World → BitVec 16 × BitVec 8
  now : World → Int
  closing : World → List Nmt.SEv
  others : Method → World → Status → List Report × Option Text

/-- The handlers of a layer (canopen_master/include/canopen_master/layer.h:132-141).  Simplification: a handler that does not return is noted and counts as left by an
exception; handlers not modelled here do not call those that are. -/
def layer (k : Kind) (r : Rest) : Handlers World where
  run m _ w s :=
    match starts k m (r.first w) (r.now w) (r.closing w) with
    | some c =>
      let w' := (w.begin c).run (r.sched m w)
      if (w.begin c).ends c (r.sched m w) then (w', result c w') else ({ w' with hung := true }, [], some "does not return".toList)
    | none => (w.run (r.sched m w), r.others m w s)

end Verif.SUp
