/-! Specification of the unit conversion functions. -/

namespace Verif.Spec.Conv

/-- `y` is the representative of `x` in the half-open interval from `lo` to `hi`. -/
def IsNorm (x lo hi y : Rat) : Prop := lo ≤ y ∧ y < hi ∧ ∃ k : Int, y = x + k * (hi - lo)

/-- Mean of a nonempty list of numbers. -/
def mean (l : List Rat) : Rat := l.sum / (l.length : Rat)

/-- Numbers of double precision: 53 significant bits; the range of the exponent is left out. -/
def IsDouble (x : Rat) : Prop := ∃ m e : Int, -2 ^ 53 < m ∧ m < 2 ^ 53 ∧ x = m * (2 : Rat) ^ e

/-- `y` is the double next to `x`; if two are equally near, the one whose significand (of 53 bits) is even. -/
def RoundsTo (x y : Rat) : Prop :=
  IsDouble y ∧ ∀ z, IsDouble z → Rat.abs (x - y) ≤ Rat.abs (x - z) ∧
    (Rat.abs (x - y) = Rat.abs (x - z) → z ≠ y → ∃ m e : Int, 2 ^ 52 ≤ m.natAbs ∧ m.natAbs ≤ 2 ^ 53 ∧ m % 2 = 0 ∧ y = m * (2 : Rat) ^ e)

end Verif.Spec.Conv
