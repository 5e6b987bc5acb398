import Verif.Model.Measure
import Verif.Spec.Pdo

/-!
# What the measured values of a joint should be

Histories are lists of events, *latest first*.
-/

namespace Verif.Spec.Meas
open Verif Verif.Meas Verif.Spec.Pdo

/-- the integer a byte sequence stands for, least significant byte first, two's complement if signed -/
def IsInteger (signed : Bool) (bytes : List Byte) (n : Int) : Prop :=
  (∃ m : Int, n = (bytes.zipIdx.map fun p => (p.1.toNat : Int) * 256 ^ p.2).sum + m * 256 ^ bytes.length) ∧
    if signed then -(256 ^ bytes.length : Int) ≤ 2 * n ∧ 2 * n < 256 ^ bytes.length else 0 ≤ n ∧ n < 256 ^ bytes.length

/-- the last frame -/
def lastFrame : List Ev → Option Frame
  | [] => none
  | .frame f :: _ => some f
  | _ :: h => lastFrame h

/-- the last value of object `i`: that of the last frame, or the one known at first -/
def lastValue (objs : List Verif.Pdo.Obj) (i : Nat) (h : List Ev) : Option (List Byte) :=
  match lastFrame h with
  | some f => some (slice (sizesOf objs) i f)
  | none => initOf objs i

/-- the value of object `i` when the handle last looked and there was one -/
def looked (objs : List Verif.Pdo.Obj) (i : Nat) : List Ev → Option (List Byte)
  | [] => none
  | .sync j :: h => if j = i then (match lastValue objs i h with | some v => some v | none => looked objs i h) else looked objs i h
  | _ :: h => looked objs i h

/-- the history up to the last evaluation of the conversions -/
def evaluated : List Ev → Option (List Ev)
  | [] => none
  | .eval :: h => some h
  | _ :: h => evaluated h

end Verif.Spec.Meas
