import Verif.Spec.StartUp

/-!
# Shutting down a chain: notions used to state C126
-/

namespace Verif.Spec.SUp
open Verif Verif.Lay Verif.SUp Verif.Spec

/-- the device was told to stop, by one frame and no other; the node does not listen any more and knows nothing of the state of the device -/
def NodeDown (i : Nmt.Initing) : Prop := i.log = [.sent (NodeLayer.command 2 i.node.id)] ∧ Stopped i

/-- the motor was shut down without an error, and no mode is selected -/
def MotorDown (s : Hand.Sys) : Prop := s.pc = .finished true ∧ s.msgs = [] ∧ s.m.selected = none

/-- what is to be seen, one after the other, when a layer is shut down: the drive reports that switching on is disabled, and the motor is shut down; the node was told to
stop; the bus is closed -/
def down : Kind → List (World → Prop)
  | .can => [fun w => BusClosed w.bus]
  | .node i => [fun w => NodeDown (w.node i)]
  | .motor i => [fun w => (w.motor i).m.hs = .disabled, fun w => MotorDown (w.motor i)]
  | .other _ => []

/-- nobody halts a motor while this layer is shut down -/
def NotHalted (r : Rest) : Prop := ∀ w i, Ev.motor i .haltAct ∉ r.sched .shutdown w

mutual
/-- the layers of a tree are these, in the order in which they are to be shut down: the last one of a stack first, the first one of a group first -/
def Closes : Tree World → List Kind → Prop
  | .leaf _ _ h _, ks => ∃ k r, h = layer k r ∧ NotHalted r ∧ ks = [k]
  | .group stack _ ms, ks => ClosesAll stack ms ks
def ClosesAll : Bool → List (Tree World) → List Kind → Prop
  | _, [], ks => ks = []
  | stack, t :: ts, ks => ∃ a b, Closes t a ∧ ClosesAll stack ts b ∧ ks = if stack then b ++ a else a ++ b
end

end Verif.Spec.SUp
