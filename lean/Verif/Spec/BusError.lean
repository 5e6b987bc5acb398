import Verif.Model.BusError

/-! # Error frames of the bus: notions used to state C123 -/

namespace Verif.Spec.BErr
open Verif Verif.Drv Verif.BErr

/-- the frames for which the listeners are called while the layer listens -/
def heard : Sys → List Ev → List Frame
  | _, [] => []
  | s, e :: es => (match e with | .deliver => if s.listening then s.strand.take 1 else [] | _ => []) ++ heard (s.step e) es

/-- the kernel says that this is an error frame (bit 29 of the identifier word) -/
def IsErrorFrame (k : KFrame) : Prop := k.canId.getLsbD 29 = true

/-- one of the error classes that are fatal is set -/
def Fatal (mask : BitVec 32) (k : KFrame) : Prop := ∃ i, i < 29 ∧ k.canId.getLsbD i = true ∧ mask.getLsbD i = true

/-- the driver is not initialised again, the layer goes on listening, and no other error frame is read -/
def Calm : Ev → Prop
  | .op (.init _ _ _ _ _) => False
  | .op (.readOk k) => ¬ IsErrorFrame k
  | .unlisten => False
  | _ => True

/-- the payload of a frame of the kernel -/
def payload (k : KFrame) : List Byte := k.data.toList.take k.dlc.toNat

end Verif.Spec.BErr
