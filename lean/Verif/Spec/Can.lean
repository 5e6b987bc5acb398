import Verif.Model.Frame

/-!
# Specification vocabulary for frames, text and filters
Written without the model's helper functions.
-/

namespace Verif.Spec

open Verif

/-- Two frames are observably the same: identifier, flags, length and the `dlc` payload bytes agree. -/
def SameFrame (f g : Frame) : Prop :=
  f.id = g.id ∧ f.isError = g.isError ∧ f.isRtr = g.isRtr ∧ f.isExtended = g.isExtended ∧
  f.dlc = g.dlc ∧ ∀ i : Nat, (h : i < 8) → i < f.dlc.toNat → f.data[i] = g.data[i]

/-- Identifier and length in the range CAN allows. -/
def ValidFrame (f : Frame) : Prop :=
  f.dlc.toNat ≤ 8 ∧ (f.isExtended = false → f.id.toNat < 2048)

/-- What a hexadecimal digit means. -/
def hexDigitVal (c : Char) : Option Nat :=
  if '0' ≤ c ∧ c ≤ '9' then some (c.toNat - 48)
  else if 'a' ≤ c ∧ c ≤ 'f' then some (c.toNat - 87)
  else if 'A' ≤ c ∧ c ≤ 'F' then some (c.toNat - 55)
  else none

def IsHex (c : Char) : Prop := (hexDigitVal c).isSome

instance : DecidablePred IsHex := fun c => inferInstanceAs (Decidable ((hexDigitVal c).isSome = true))

/-- A text denotes a byte string: two hex digits per byte, high nibble first. -/
def Denotes : Text → List Byte → Prop
  | [], [] => True
  | a :: b :: t, x :: xs =>
    (∃ h l, hexDigitVal a = some h ∧ hexDigitVal b = some l ∧ x.toNat = 16 * h + l) ∧ Denotes t xs
  | _, _ => False

/-- Positional value of a text of hex digits (most significant first). -/
def hexValue (s : Text) : Nat := s.foldl (fun a c => 16 * a + (hexDigitVal c).getD 0) 0

/-- `s` is a non-empty text of hex digits with value `n`. -/
def HexNumeral (s : Text) (n : Nat) : Prop := s ≠ [] ∧ (∀ c ∈ s, IsHex c) ∧ hexValue s = n

end Verif.Spec
