import Verif.Model.Eds
import Verif.Spec.Can

/-!
# What numbers, octet strings and access codes in an EDS file mean
Written without the model's parsing functions.
-/

namespace Verif.Spec
open Verif Verif.OD

/-- `s` is a non-empty text of digits of base `b` (at most 16) with positional value `n` -/
def Numeral (b : Nat) (s : Text) (n : Nat) : Prop :=
  s ≠ [] ∧ (∀ c ∈ s, ∃ d, hexDigitVal c = some d ∧ d < b) ∧ s.foldl (fun a c => b * a + (hexDigitVal c).getD 0) 0 = n

/-- unsigned integer literals as in C: decimal without leading zero, `0x` hexadecimal, `0` octal -/
inductive UnsignedLit : Text → Nat → Prop where
  | dec {s n} : Numeral 10 s n → s.head? ≠ some '0' → UnsignedLit s n
  | hex {s n} : Numeral 16 s n → UnsignedLit ('0' :: 'x' :: s) n
  | heX {s n} : Numeral 16 s n → UnsignedLit ('0' :: 'X' :: s) n
  | oct {s n} : Numeral 8 s n → UnsignedLit ('0' :: s) n
  | zero : UnsignedLit ['0'] 0

/-- integer literals with optional sign -/
inductive IntLit : Text → Int → Prop where
  | plain {s n} : UnsignedLit s n → IntLit s n
  | minus {s n} : UnsignedLit s n → IntLit ('-' :: s) (-(n : Int))
  | plus {s n} : UnsignedLit s n → IntLit ('+' :: s) n

/-- the mathematical value of a machine integer of the type -/
def intValue (t : IntTy) (v : BitVec t.width) : Int := if t.signed then v.toInt else v.toNat

/-- the value is representable -/
def FitsTy (t : IntTy) (v : Int) : Prop :=
  if t.signed then -(2 ^ (t.width - 1) : Int) ≤ v ∧ v < 2 ^ (t.width - 1) else 0 ≤ v ∧ v < 2 ^ t.width

/-- what is left of a value in 64 bits: signed numbers saturate; unsigned ones become the largest value if the magnitude does not fit -/
def in64 (signed : Bool) (v : Int) : Int :=
  if signed then max (-9223372036854775808) (min 9223372036854775807 v)
  else if -18446744073709551616 < v ∧ v < 18446744073709551616 then v else 18446744073709551615

/-- blanks -/
def Blank (s : Text) : Prop := ∀ c ∈ s, c = ' ' ∨ c = '\t' ∨ c = '\n' ∨ c = '\r'

/-- `$NODEID` in any letter case -/
def IsNodeIdWord (s : Text) : Prop := s.map Char.toLower = "$nodeid".toList

end Verif.Spec
