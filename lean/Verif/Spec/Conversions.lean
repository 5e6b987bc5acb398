import Verif.Model.Conversions

/-! # The conversions of a joint: notions used to state C124 -/

namespace Verif.Spec.Cnv
open Verif Verif.Cnv
open Verif.Rob (Kind)
open Verif.M402 (Dbl)

/-- the conversion assigns a value to this name -/
def Assigns (p : Program) (n : Text) : Prop := p.first.target = some n ∨ ∃ i ∈ p.rest, i.target = some n

/-- the name stands for an object that holds a number: "obj" and its key -/
def Names {κ : Type} (S : Setup κ) (n : Text) (key : κ) : Prop := ∃ t, n = "obj".toList ++ t ∧ S.parse t = some key ∧ S.number key = true

/-- no conversion from the device but this one assigns to copies of objects -/
def Discreet {κ : Type} (S : Setup κ) (c : Conv) : Prop := ∀ c', c' ≠ c → (∃ k, c' = .fromDevice k) → ∀ n key, Assigns (S.prog c') n → ¬ Names S n key

/-- what concerns a conversion: copies of objects, itself, and for a conversion to the device its command -/
def Concerns {κ : Type} : Conv → Ev κ → Bool
  | _, .sync _ => true
  | c, .eval c' => c' == c
  | c, .reset c' => c' == c
  | .toDevice k, .command k' _ => k' == k
  | .fromDevice _, .command _ _ => false

/-- the values one conversion gave -/
def results (c : Conv) (out : List (Conv × Dbl)) : List Dbl := (out.filter fun x => x.1 == c).map (·.2)

/-- the command after a history -/
def command {κ : Type} (k : Kind) (v : Dbl) : List (Ev κ) → Dbl
  | [] => v
  | .command k' v' :: es => command k (if k' = k then v' else v) es
  | _ :: es => command k v es

end Verif.Spec.Cnv
