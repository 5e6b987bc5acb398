import Verif.Model.Frame

/-!
# What the filters are supposed to do (documented meaning), on the level of bits and numbers
-/

namespace Verif.Spec

open Verif

/-- numeric identifier word of a frame as the kernel and the filters see it: id plus flag weights -/
def idWord (h : Header) : Nat :=
  h.id.toNat + (if h.isError then 2 ^ 29 else 0) + (if h.isRtr then 2 ^ 30 else 0)
    + (if h.isExtended then 2 ^ 31 else 0)

/-- the word a frame is filtered by: all error frames share the bare error bit -/
def filterWord (h : Header) : Nat := if h.isError then 2 ^ 29 else idWord h

/-- two words agree on every bit selected by the mask -/
def AgreeOn (mask a b : Nat) : Prop := ∀ i, mask.testBit i = true → a.testBit i = b.testBit i

end Verif.Spec
