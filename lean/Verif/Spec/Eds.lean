import Verif.Spec.Dict
import Verif.Spec.Storage

/-!
# What a section of an EDS file says about an object
-/

namespace Verif.Spec
open Verif Verif.OD

/-- the data type codes of CiA 301 for integers -/
def intTypes : List (BitVec 16 × IntTy) :=
  [(0x0002#16, .i8), (0x0003#16, .i16), (0x0004#16, .i32), (0x0015#16, .i64), (0x0005#16, .u8), (0x0006#16, .u16), (0x0007#16, .u32), (0x001B#16, .u64)]

/-- the data type codes of CiA 301 for numbers with fraction and for texts and octets -/
def otherTypes : List (BitVec 16 × Ty) :=
  [(0x0008#16, .real32), (0x0010#16, .real64), (0x0009#16, .string), (0x000A#16, .string), (0x000B#16, .string), (0x000F#16, .string)]

/-- `h` is the value given by `text` (or absent) for an object of data type `dt`: an absent text gives no value but the type, an integer
literal gives the integer, for every node. -/
def ValueOf (dt : BitVec 16) (text : Option Text) (h : HoldAny) : Prop :=
  (∀ p ∈ intTypes, p.1 = dt →
    (text = none → h = .empty (.int p.2)) ∧
    (∀ a s b v, text = some (a ++ s ++ b) → Blank a → Blank b → IntLit s v → FitsTy p.2 v →
      ∃ x, h = .val (.int p.2 x) ∧ intValue p.2 x = v)) ∧
  (∀ p ∈ otherTypes, p.1 = dt → h.type = some p.2 ∧ (text = none → h.isEmpty = true)) ∧
  ((∃ p ∈ intTypes, p.1 = dt) ∨ ∃ p ∈ otherTypes, p.1 = dt)

/-- the entry says what the section (given by its key lookup) says -/
structure Describes (get : Text → Option Text) (e : Entry) : Prop where
  name : (get "Denotation".toList = some e.desc) ∨ (get "Denotation".toList = none ∧ get "ParameterName".toList = some e.desc)
  type : ∃ s, get "DataType".toList = some s ∧ ∀ v, IntLit s v → FitsTy .u16 v → e.dataType = BitVec.ofInt 16 v
  rights : ∃ a, get "AccessType".toList = some a ∧ ∃ p ∈ accessTable, a.map Char.toLower = p.1.toList ∧
    e.readable = p.2.readable ∧ e.writable = p.2.writable ∧ e.constant = p.2.constant
  dflt : ValueOf e.dataType (get "DefaultValue".toList) e.defVal
  conf : ValueOf e.dataType (get "ParameterValue".toList) e.initVal

end Verif.Spec
