import Verif.Model.Pdo

/-!
# What PDO users expect

Of the model only types (`Frame`, the operations of a schedule) are used.  `sizes` are the sizes in bytes of the mapped objects in mapping
order.
-/

namespace Verif.Spec.Pdo
open Verif Verif.Pdo

/-- the sizes of mapped objects -/
def sizesOf (objs : List Obj) : List Nat := objs.map Obj.size

/-- the initial values of mapped objects -/
def initOf (objs : List Obj) (i : Nat) : Option (List Byte) := objs[i]?.bind Obj.init

/-- a mapping that fits in a frame: not empty, at most 8 bytes, initial values of the right size -/
def Fits (objs : List Obj) : Prop :=
  objs ≠ [] ∧ (sizesOf objs).sum ≤ 8 ∧ ∀ o, o ∈ objs → ∀ v, o.init = some v → v.length = o.size

/-- where the `i`-th mapped object starts -/
def offset (sizes : List Nat) (i : Nat) : Nat := (sizes.take i).sum

/-- the bytes of the `i`-th mapped object in a frame -/
def slice (sizes : List Nat) (i : Nat) (f : Frame) : List Byte := (f.data.toList.drop (offset sizes i)).take (sizes.getD i 0)

/-! Histories of a TPDO are lists of operations, *latest first*. -/

/-- number of objects picked up so far -/
def picks : List TOp → Nat
  | [] => 0
  | .pick :: h => picks h + 1
  | .write _ _ :: h => picks h

/-- the latest value of object `i`: the last one of the right size that was written, or the initial one -/
def latest (sizes : List Nat) (init : Nat → Option (List Byte)) (i : Nat) : List TOp → Option (List Byte)
  | [] => init i
  | .pick :: h => latest sizes init i h
  | .write j v :: h => if j = i ∧ v.length = sizes.getD i 0 then some v else latest sizes init i h

/-- the history up to the last time object `i` was picked up; objects take turns -/
def atTurn (n i : Nat) : List TOp → Option (List TOp)
  | [] => none
  | .pick :: h => if picks h % n = i then some h else atTurn n i h
  | .write _ _ :: h => atTurn n i h

/-- object `i` was written (with the right size) since it was last picked up -/
def written (sizes : List Nat) (i : Nat) : List TOp → Prop
  | [] => False
  | .pick :: h => picks h % sizes.length ≠ i ∧ written sizes i h
  | .write j v :: h => (j = i ∧ v.length = sizes.getD i 0) ∨ written sizes i h

/-! Histories of one object of an RPDO, latest first. -/

/-- the value of object `i` in the last frame -/
def received (sizes : List Nat) (i : Nat) : List ROp → Option (List Byte)
  | [] => none
  | .frame f :: _ => some (slice sizes i f)
  | .read _ _ :: h => received sizes i h

/-- a frame arrived since object `i` was last read (with a value of the right size) -/
def news (sizes : List Nat) (i : Nat) : List ROp → Prop
  | [] => False
  | .frame _ :: _ => True
  | .read j v :: h => ¬ (j = i ∧ v.length = sizes.getD i 0) ∧ news sizes i h

/-! Supervision: events of an RPDO, latest first. -/

/-- cycles since the last frame; `none` when there was no frame at all -/
def silence : List SEv → Option Nat
  | [] => none
  | .frame _ :: _ => some 0
  | .cycle :: h => (silence h).map (· + 1)

end Verif.Spec.Pdo
