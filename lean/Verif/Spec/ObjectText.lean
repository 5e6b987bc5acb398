import Verif.Model.ObjectText
import Verif.Spec.Dict

/-!
# Objects as text: data types of CiA 301 and notions used to state C87
-/

namespace Verif.Spec
open Verif Verif.OD

/-- data types of the standard that the library supports, by their number -/
def standardTypes : List (Nat × Ty) :=
  [(0x02, .int .i8), (0x03, .int .i16), (0x04, .int .i32), (0x05, .int .u8), (0x06, .int .u16), (0x07, .int .u32), (0x08, .real32),
   (0x09, .string), (0x0a, .string), (0x0b, .string), (0x0f, .string), (0x10, .real64), (0x15, .int .i64), (0x1b, .int .u64)]

/-- decimal text of a number -/
def decimal (v : Int) : Text := (toString v).toList

/-- the answer to a write with the given outcome: success without an exception, else failure with its text (`none`: undefined behaviour) -/
def answerTo (info : OD.Err → Text) : Outcome OD.Err Unit → Option Answer
  | .ok _ => some ⟨true, [], []⟩
  | .throws y => some ⟨false, info y, []⟩
  | .ub => none

/-- the answer reports success -/
def Succeeded (a : Option Answer) : Prop := ∃ r, a = some r ∧ r.success = true

/-- the answer reports failure and carries no value -/
def Failed (a : Option Answer) : Prop := ∃ r, a = some r ∧ r.success = false ∧ r.value = []

/-- the object of a service request: node, key, dictionary entry and type are known, and `d` is its record in the storage -/
structure Addressed (mem : Mem) (ns : Nodes) (node object : Text) (s : Storage) (e : Entry) (ty : Ty) (s1 : Storage) (d : Data) : Prop where
  known : ns.find node = some s
  listed : s.dict.get (Key.fromText object) = some e
  type : (e.dataType.toNat, ty) ∈ standardTypes
  record : s.entry mem (Key.fromText object) ty = (s1, .ok d)

end Verif.Spec
