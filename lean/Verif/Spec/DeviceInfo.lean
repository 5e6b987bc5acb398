import Verif.Model.DeviceInfo
import Verif.Spec.Dict

/-!
# What the device information of an EDS file says
-/

namespace Verif.Spec.Info
open Verif Verif.OD Verif.Spec

/-- names are the same but for case -/
def SameName (a b : Text) : Prop := a.map Char.toLower = b.map Char.toLower

/-- the (first) entry of this name has the value `s` -/
def Says (sec : List (Text × Text)) (key : String) (s : Text) : Prop :=
  ∃ l k r, sec = l ++ (k, s) :: r ∧ SameName k key.toList ∧ ∀ p ∈ l, ¬ SameName p.1 key.toList

/-- there is no entry of this name -/
def Silent (sec : List (Text × Text)) (key : String) : Prop := ∀ p ∈ sec, ¬ SameName p.1 key.toList

/-- a number written in decimal, perhaps between blanks -/
def Plain (s : Text) (n : Nat) : Prop := ∃ a d b, s = a ++ d ++ b ∧ Blank a ∧ Blank b ∧ Numeral 10 d n

/-- a truth value, perhaps between blanks -/
def Flag (s : Text) (v : Bool) : Prop :=
  ∃ a d b, s = a ++ d ++ b ∧ Blank a ∧ Blank b ∧ (d, v) ∈ [(['1'], true), (['0'], false), ("true".toList, true), ("false".toList, false)]

/-- all entries whose names begin with `pre` are truth values of numbers as `num` says -/
def WellFormed (pre : String) (num : Text → Nat → Prop) (sec : List (Text × Text)) : Prop :=
  ∀ t v, (pre.toList ++ t, v) ∈ sec → (∃ n, num t n ∧ n < 65536) ∧ ∃ b, Flag v b

end Verif.Spec.Info
