import Verif.Model.Merge

/-! Specification of parameter merging. -/

namespace Verif.Spec.Merge
open Verif.Merge

/-- The value at a path. -/
def at? : XVal → List String → Option XVal
  | v, [] => some v
  | .leaf _, _ :: _ => none
  | .struct fs, k :: p => match fs.get? k with
    | none => none
    | some v => at? v p

/-- The tree says nothing about the path: the path leaves the tree at a struct that lacks the next name. -/
def Silent (t : XVal) (p : List String) : Prop := ∃ q k r fs, p = q ++ k :: r ∧ at? t q = some (.struct fs) ∧ fs.get? k = none

/-- The tree has a plain value at a proper beginning of the path. -/
def Blocked (t : XVal) (p : List String) : Prop := ∃ q k r x, p = q ++ k :: r ∧ at? t q = some (.leaf x)

/-- names of the entries -/
def names : Fields → List String
  | .nil => []
  | .cons k _ rest => k :: names rest

mutual
/-- All structs in the tree have distinct names. -/
def Proper : XVal → Prop
  | .leaf _ => True
  | .struct fs => ProperFields fs
/-- distinct names in all entries -/
def ProperFields : Fields → Prop
  | .nil => True
  | .cons k v rest => k ∉ names rest ∧ Proper v ∧ ProperFields rest
end

end Verif.Spec.Merge
