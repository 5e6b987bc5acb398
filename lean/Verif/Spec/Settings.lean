import Verif.Model.Settings
import Verif.Spec.Driver

/-!
# What settings mean (C93)
-/

namespace Verif.Spec
open Verif Verif.Cfg Verif.Drv

/-- a path written with slashes -/
def joinPath : List Text → Text
  | [] => []
  | [s] => s
  | s :: p => s ++ '/' :: joinPath p

/-- the value at a path below a tree: each step is a member of a struct -/
inductive ValueAt : Tree → List Text → Tree → Prop where
  | last {fs n w} : fs.lookup n = some w → ValueAt (.struct fs) [n] w
  | step {fs n w p x} : fs.lookup n = some w → ValueAt w p x → ValueAt (.struct fs) (n :: p) x

/-- `s` writes the unsigned 32 bit number `n` in decimal, with leading zeros and a plus sign allowed -/
def DecimalText (s : Text) (n : Nat) : Prop :=
  ∃ (plus : Bool) (z : Nat), s = (if plus then ['+'] else []) ++ List.replicate z '0' ++ (toString n).toList ∧ n < 2 ^ 32

/-- `s` writes a negative number (or zero) `-n` -/
def MinusText (s : Text) (n : Nat) : Prop :=
  ∃ z : Nat, s = '-' :: (List.replicate z '0' ++ (toString n).toList) ∧ n < 2 ^ 32

/-- the setting `n` has value `v`: given in a form that means `v`, or absent and `v` the default -/
def Setting {α : Type} (means : Text → α → Prop) (st : Settings) (n : Text) (dflt v : α) : Prop :=
  (st n = none ∧ v = dflt) ∨ ∃ r, st n = some r ∧ means r v

/-- what is last set for a name in a history of settings -/
def lastSet (n : Text) : List (Text × Val) → Option Val
  | [] => none
  | (m, v) :: h => match lastSet n h with
    | some w => some w
    | none => if m = n then some v else none

/-- a settings map on which a history of `set` was performed -/
def afterSets (h : List (Text × Val)) : SMap := h.foldl (fun m e => SMap.set m e.1 e.2) []

end Verif.Spec
