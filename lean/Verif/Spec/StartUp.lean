import Verif.Model.StartUp
import Verif.Spec.CanLayer
import Verif.Spec.NodeLayer
import Verif.Spec.MotorHandlers
import Verif.Spec.Layer

/-!
# Starting a chain: notions used to state C122
-/

namespace Verif.Spec.SUp
open Verif Verif.Lay Verif.SUp Verif.Spec

/-- something happens: a step of any thread, or a handler is called -/
inductive Act where
  | ev (e : Ev)
  | call (c : Start)

def act (w : World) : Act → World
  | .ev e => w.step e
  | .call c => w.begin c

/-- the second situation comes later than the first, or is the same -/
def Later (w w' : World) : Prop := ∃ as : List Act, w' = as.foldl act w

/-- between the two situations there were, in this order, situations as described -/
def Passes (w w' : World) : List (World → Prop) → Prop
  | [] => Later w w'
  | P :: Ps => ∃ v, Later w v ∧ P v ∧ Passes v w' Ps

mutual
/-- the layers of a tree are these, in the order in which they were added -/
def Consists : Tree World → List Kind → Prop
  | .leaf _ _ h _, ks => ∃ k r, h = layer k r ∧ ks = [k]
  | .group _ _ ms, ks => ConsistsAll ms ks
def ConsistsAll : List (Tree World) → List Kind → Prop
  | [], ks => ks = []
  | t :: ts, ks => ∃ a b, ks = a ++ b ∧ Consists t a ∧ ConsistsAll ts b
end

/-- the device has confirmed the reset after it was told to, the reset was followed by the whole set-up, and what is known since of its state is that it is operational -/
def NodeUp (i : Nmt.Initing) : Prop :=
  i.node.state = 5 ∧ i.node.listening = true ∧ NodeLayer.work i.log = NodeLayer.plan i.node.id ∧
  ∃ l1 l2, i.log = l1 ++ .isReset :: l2 ∧ Nmt.Item.told 0 ∈ l1 ∧ NodeLayer.Latest l2 5

/-- the motor was initialised without an error; it is homed, or cannot be -/
def MotorUp (s : Hand.Sys) : Prop := s.pc = .finished true ∧ s.msgs = [] ∧ (s.m.selected = none ∨ s.m.canAlloc 6 = some false)

/-- what is to be seen, one after the other, when a layer is started: the driver is ready, its socket is open and one thread executes its event loop; the node is
operational and set up; the drive reports that operation is enabled, and the motor is ready -/
def moments : Kind → List (World → Prop)
  | .can => [fun w => Running w.bus]
  | .node i => [fun w => NodeUp (w.node i)]
  | .motor i => [fun w => (w.motor i).m.hs = .enabled, fun w => MotorUp (w.motor i)]
  | .other _ => []

/-- the node is as its constructor or `shutdown` leaves it -/
def Stopped (i : Nmt.Initing) : Prop := i.node.listening = false ∧ i.node.state = 255 ∧ i.node.phase = .idle ∧ ∃ r, i.pc = .done r

/-- nothing is started: no call on the CAN layer is under way, and the nodes among the layers are stopped -/
def Quiet (w : World) (ks : List Kind) : Prop := w.bus.pc = .idle ∧ ∀ i, Kind.node i ∈ ks → Stopped (w.node i)

/-- nobody can use the bus: the socket is closed, no thread executes the driver, and the driver refuses to send -/
def BusClosed (s : CanL.Sys) : Prop := s.sock = false ∧ s.thread = false ∧ s.worker = .none ∧ s.st.driver ≠ .ready

/-- the node was told to start, and the handler has returned normally -/
def NodeAgain (i : Nmt.Initing) : Prop := i.pc = .done .fine ∧ NodeLayer.work i.log = [.sent (NodeLayer.command 1 i.node.id)]

/-- the motor was recovered without an error -/
def MotorAgain (s : Hand.Sys) : Prop := s.pc = .finished true ∧ s.msgs = []

/-- what is to be seen when a layer is recovered: the driver is ready, its socket is open and one thread executes its event loop; the node was told to start; the
drive reports that operation is enabled, and the motor is ready -/
def again : Kind → List (World → Prop)
  | .can => [fun w => Running w.bus]
  | .node i => [fun w => NodeAgain (w.node i)]
  | .motor i => [fun w => (w.motor i).m.hs = .enabled, fun w => MotorAgain (w.motor i)]
  | .other _ => []

/-- no handler of the node is under way -/
def Rested (i : Nmt.Initing) : Prop := i.node.phase = .idle ∧ ∃ r, i.pc = .done r

/-- no call on the CAN layer is under way, nor on the nodes among the layers -/
def Steady (w : World) (ks : List Kind) : Prop := w.bus.pc = .idle ∧ ∀ i, Kind.node i ∈ ks → Rested (w.node i)

end Verif.Spec.SUp
