import Verif.Model.Convert
import Verif.Spec.Convert

/-! Rounding to double precision: `roundDouble` is round to nearest, ties to even; it keeps the order and the doubles. -/

namespace Verif.Conv
open Verif.Spec.Conv

theorem two_pos (e : Int) : (0 : Rat) < 2 ^ e := Rat.zpow_pos (by decide)

theorem two_add (a b : Int) : (2 : Rat) ^ (a + b) = 2 ^ a * 2 ^ b := Rat.zpow_add (by decide) a b

theorem two_nat (n : Nat) : (2 : Rat) ^ (n : Int) = 2 ^ n := Rat.zpow_natCast 2 n

theorem one_le_two_nat (n : Nat) : (1 : Rat) ≤ 2 ^ n := by
  induction n with
  | zero => decide
  | succ n ih => rw [Rat.pow_succ]; grind

theorem two_mono {a b : Int} (h : a ≤ b) : (2 : Rat) ^ a ≤ 2 ^ b := by
  obtain ⟨n, rfl⟩ : ∃ n : Nat, b = a + n := ⟨(b - a).toNat, by omega⟩
  rw [two_add, two_nat]
  have h1 := Rat.mul_le_mul_of_nonneg_left (one_le_two_nat n) (Rat.le_of_lt (two_pos a))
  grind

theorem two_succ (a : Int) : (2 : Rat) ^ (a + 1) = 2 * 2 ^ a := by rw [Rat.zpow_add_one (by decide)]; grind

theorem p52 : (2 : Rat) ^ (52 : Nat) = 4503599627370496 := by decide +kernel
theorem p53 : (2 : Rat) ^ (53 : Nat) = 9007199254740992 := by decide +kernel

theorem natCast_pow2 (n : Nat) : (((2 ^ n : Nat) : Int) : Rat) = 2 ^ n := by
  induction n with
  | zero => decide
  | succ n ih =>
    rw [Rat.pow_succ, ← ih, Nat.pow_succ, Int.natCast_mul, Rat.intCast_mul]
    rfl

/-- the exponent of the last bit -/
theorem ulpExp_spec (q : Rat) (hq : 0 < q) : 4503599627370496 * (2 : Rat) ^ ulpExp q ≤ q ∧ q < 9007199254740992 * (2 : Rat) ^ ulpExp q := by
  have hn : 0 < q.num := by
    have h1 := Rat.num_nonneg.mpr (Rat.le_of_lt hq)
    have h2 : q.num ≠ 0 := fun h => by rw [Rat.num_eq_zero] at h; grind
    omega
  have hna : q.num.natAbs ≠ 0 := by omega
  have hd : q.den ≠ 0 := q.den_nz
  have a1 : (2 : Rat) ^ (Nat.log2 q.num.natAbs) ≤ (q.num : Rat) := by
    rw [← natCast_pow2]
    have := Nat.log2_self_le hna
    exact Rat.intCast_le_intCast.mpr (by omega)
  have a2 : (q.num : Rat) < (2 : Rat) ^ (Nat.log2 q.num.natAbs + 1) := by
    rw [← natCast_pow2]
    have := Nat.lt_log2_self (n := q.num.natAbs)
    exact Rat.intCast_lt_intCast.mpr (by omega)
  have b1 : (2 : Rat) ^ (Nat.log2 q.den) ≤ (q.den : Rat) := by
    have h := Nat.log2_self_le hd
    have : ((2 ^ Nat.log2 q.den : Nat) : Int) ≤ ((q.den : Nat) : Int) := by omega
    have := Rat.intCast_le_intCast.mpr this
    rw [natCast_pow2] at this
    exact this
  have b2 : (q.den : Rat) < (2 : Rat) ^ (Nat.log2 q.den + 1) := by
    have h := Nat.lt_log2_self (n := q.den)
    have : ((q.den : Nat) : Int) < ((2 ^ (Nat.log2 q.den + 1) : Nat) : Int) := by omega
    have := Rat.intCast_lt_intCast.mpr this
    rw [natCast_pow2] at this
    exact this
  have hqd : q * (q.den : Rat) = q.num := by
    have h : (q.den : Rat) ≠ 0 := by exact_mod_cast hd
    have e : q = (q.num : Rat) / (q.den : Rat) := by
      have := Rat.num_divInt_den q
      rw [Rat.divInt_eq_div] at this
      exact this.symm
    have := Rat.div_mul_cancel (a := (q.num : Rat)) h
    rw [← e] at this
    exact this
  generalize hla : Nat.log2 q.num.natAbs = la at *
  generalize hlb : Nat.log2 q.den = lb at *
  rw [Rat.pow_succ] at a2 b2
  have dpos : (0 : Rat) < 2 ^ lb := by have := one_le_two_nat lb; grind
  -- 2^la < q * 2^(lb+1) and q * 2^lb < 2^(la+1)
  have c1 : (2 : Rat) ^ la < q * (2 ^ lb * 2) := by
    have := Rat.mul_lt_mul_of_pos_left b2 hq
    grind
  have c2 : q * (2 : Rat) ^ lb < 2 ^ la * 2 := by
    have := Rat.mul_le_mul_of_nonneg_left b1 (Rat.le_of_lt hq)
    grind
  have key : (2 : Rat) ^ ((la : Int) - lb - 52) * 2 ^ lb * 4503599627370496 = 2 ^ la := by
    have e : ((la : Int) - lb - 52) + lb + 52 = la := by omega
    have h1 := two_add (((la : Int) - lb - 52) + lb) 52
    have h2 := two_add ((la : Int) - lb - 52) lb
    rw [e] at h1
    rw [h2, two_nat, two_nat lb] at h1
    have h3 : (2 : Rat) ^ (52 : Int) = 4503599627370496 := by decide +kernel
    rw [h3] at h1
    exact h1.symm
  generalize hE : (2 : Rat) ^ ((la : Int) - lb - 52) = E at key
  have hEpos : 0 < E := by rw [← hE]; exact two_pos _
  have d1 : E * 2251799813685248 < q := by
    apply Rat.lt_of_mul_lt_mul_right (c := (2 : Rat) ^ lb) _ (Rat.le_of_lt dpos)
    grind
  have d2 : q < E * 9007199254740992 := by
    apply Rat.lt_of_mul_lt_mul_right (c := (2 : Rat) ^ lb) _ (Rat.le_of_lt dpos)
    grind
  unfold ulpExp
  rw [hla, hlb]
  dsimp only
  rw [hE, p52]
  split
  · have h1 := two_succ ((la : Int) - lb - 52 - 1)
    rw [show (la : Int) - lb - 52 - 1 + 1 = (la : Int) - lb - 52 by omega, hE] at h1
    grind
  · rw [hE]; grind

/-- nearest integer -/
theorem roundEven_near (q : Rat) : q - 1 / 2 ≤ (roundEven q : Rat) ∧ (roundEven q : Rat) ≤ q + 1 / 2 ∧
    ((roundEven q : Rat) = q - 1 / 2 ∨ (roundEven q : Rat) = q + 1 / 2 → roundEven q % 2 = 0) := by
  have h1 := Rat.floor_le q
  have h2 := Rat.lt_floor (x := q)
  unfold roundEven
  dsimp only
  have hc : ((q.floor + 1 : Int) : Rat) = (q.floor : Rat) + 1 := by rw [Rat.intCast_add]; rfl
  split
  · grind
  · split
    · rw [hc]; grind
    · split
      · refine ⟨by grind, by grind, fun _ => by assumption⟩
      · rw [hc]; refine ⟨by grind, by grind, fun _ => by omega⟩

theorem roundEven_mono {a b : Rat} (h : a ≤ b) : roundEven a ≤ roundEven b := by
  obtain ⟨a1, a2, a3⟩ := roundEven_near a
  obtain ⟨b1, b2, b3⟩ := roundEven_near b
  by_cases hlt : roundEven a ≤ roundEven b
  · exact hlt
  · exfalso
    have h1 : roundEven b + 1 ≤ roundEven a := by omega
    have h2 := Rat.intCast_le_intCast.mpr h1
    rw [Rat.intCast_add] at h2
    have h3 : (roundEven b : Rat) = b - 1 / 2 := by
      have : ((1 : Int) : Rat) = 1 := rfl
      grind
    have h4 : (roundEven a : Rat) = a + 1 / 2 := by
      have : ((1 : Int) : Rat) = 1 := rfl
      grind
    have e1 := a3 (Or.inr h4)
    have e2 := b3 (Or.inl h3)
    have h5 : (roundEven a : Rat) = roundEven b + 1 := by
      have : ((1 : Int) : Rat) = 1 := rfl
      grind
    have h6 : roundEven a = roundEven b + 1 := by
      have : ((roundEven a : Int) : Rat) = ((roundEven b + 1 : Int) : Rat) := by rw [h5, Rat.intCast_add]; rfl
      exact Rat.intCast_inj.mp this
    omega

theorem roundEven_int (n : Int) : roundEven (n : Rat) = n := by
  obtain ⟨a1, a2, -⟩ := roundEven_near n
  have h1 : (roundEven n : Rat) < ((n + 1 : Int) : Rat) := by rw [Rat.intCast_add]; have : ((1 : Int) : Rat) = 1 := rfl; grind
  have h2 : ((n - 1 : Int) : Rat) < (roundEven n : Rat) := by rw [Rat.intCast_sub]; have : ((1 : Int) : Rat) = 1 := rfl; grind
  have := Rat.intCast_lt_intCast.mp h1
  have := Rat.intCast_lt_intCast.mp h2
  omega

theorem roundDouble_zero : roundDouble 0 = 0 := by unfold roundDouble; rw [if_pos rfl]

theorem roundDouble_pos {q : Rat} (hq : 0 < q) : roundDouble q = (roundEven (q / 2 ^ ulpExp q) : Rat) * 2 ^ ulpExp q := by
  unfold roundDouble
  rw [if_neg (by grind), if_pos hq]

theorem roundDouble_neg (q : Rat) : roundDouble (-q) = -roundDouble q := by
  unfold roundDouble
  by_cases h0 : q = 0
  · subst h0; rfl
  · rw [if_neg (by grind), if_neg h0]
    by_cases hp : 0 < q
    · rw [if_neg (by grind), if_pos hp, Rat.neg_neg]
    · rw [if_pos (by grind), if_neg hp, Rat.neg_neg]

/-- the significand of a positive number has 53 bits -/
theorem significand {q : Rat} (hq : 0 < q) : 4503599627370496 ≤ roundEven (q / 2 ^ ulpExp q) ∧ roundEven (q / 2 ^ ulpExp q) ≤ 9007199254740992 := by
  obtain ⟨h1, h2⟩ := ulpExp_spec q hq
  have hp := two_pos (ulpExp q)
  have hne : (2 : Rat) ^ ulpExp q ≠ 0 := by grind
  have hc := Rat.div_mul_cancel (a := q) hne
  generalize (2 : Rat) ^ ulpExp q = P at *
  have e1 : ((4503599627370496 : Int) : Rat) ≤ q / P := by
    apply Rat.le_of_mul_le_mul_right (c := P) _ hp
    rw [hc]; exact h1
  have e2 : q / P ≤ ((9007199254740992 : Int) : Rat) := by
    apply Rat.le_of_mul_le_mul_right (c := P) _ hp
    rw [hc]; exact Rat.le_of_lt h2
  have a := roundEven_mono e1
  have b := roundEven_mono e2
  rw [roundEven_int] at a b
  exact ⟨a, b⟩

theorem roundDouble_bounds {q : Rat} (hq : 0 < q) :
    4503599627370496 * (2 : Rat) ^ ulpExp q ≤ roundDouble q ∧ roundDouble q ≤ 9007199254740992 * (2 : Rat) ^ ulpExp q := by
  obtain ⟨a, b⟩ := significand hq
  rw [roundDouble_pos hq]
  have hp := Rat.le_of_lt (two_pos (ulpExp q))
  exact ⟨Rat.mul_le_mul_of_nonneg_right (Rat.intCast_le_intCast.mpr a) hp, Rat.mul_le_mul_of_nonneg_right (Rat.intCast_le_intCast.mpr b) hp⟩

theorem ulpExp_mono {a b : Rat} (ha : 0 < a) (h : a ≤ b) : ulpExp a ≤ ulpExp b := by
  have hb : 0 < b := by grind
  by_cases hlt : ulpExp a ≤ ulpExp b
  · exact hlt
  · exfalso
    have h1 := (ulpExp_spec a ha).1
    have h2 := (ulpExp_spec b hb).2
    have h3 := two_mono (a := ulpExp b + 1) (b := ulpExp a) (by omega)
    rw [two_succ] at h3
    grind

theorem roundDouble_mono_pos {a b : Rat} (ha : 0 < a) (h : a ≤ b) : roundDouble a ≤ roundDouble b := by
  have hb : 0 < b := by grind
  have hu := ulpExp_mono ha h
  by_cases he : ulpExp a = ulpExp b
  · rw [roundDouble_pos ha, roundDouble_pos hb, he]
    have hp := two_pos (ulpExp b)
    have hne : (2 : Rat) ^ ulpExp b ≠ 0 := by grind
    have ca := Rat.div_mul_cancel (a := a) hne
    have cb := Rat.div_mul_cancel (a := b) hne
    have : a / 2 ^ ulpExp b ≤ b / 2 ^ ulpExp b := by
      apply Rat.le_of_mul_le_mul_right (c := (2 : Rat) ^ ulpExp b) _ hp
      rw [ca, cb]; exact h
    exact Rat.mul_le_mul_of_nonneg_right (Rat.intCast_le_intCast.mpr (roundEven_mono this)) (Rat.le_of_lt hp)
  · have h1 := (roundDouble_bounds ha).2
    have h2 := (roundDouble_bounds hb).1
    have h3 := two_mono (a := ulpExp a + 1) (b := ulpExp b) (by omega)
    rw [two_succ] at h3
    grind

theorem roundDouble_pos_pos {q : Rat} (hq : 0 < q) : 0 < roundDouble q := by
  have h1 := (roundDouble_bounds hq).1
  have := two_pos (ulpExp q)
  grind

/-- rounding keeps the order -/
theorem roundDouble_mono {a b : Rat} (h : a ≤ b) : roundDouble a ≤ roundDouble b := by
  by_cases ha : 0 < a
  · exact roundDouble_mono_pos ha h
  · by_cases hb : 0 < b
    · have h1 := roundDouble_pos_pos hb
      by_cases h0 : a = 0
      · rw [h0, roundDouble_zero]; grind
      · have h2 := roundDouble_pos_pos (q := -a) (by grind)
        rw [roundDouble_neg] at h2
        grind
    · by_cases h0 : b = 0
      · subst h0
        rw [roundDouble_zero]
        by_cases h1 : a = 0
        · rw [h1, roundDouble_zero]; grind
        · have h2 := roundDouble_pos_pos (q := -a) (by grind)
          rw [roundDouble_neg] at h2
          grind
      · have h2 := roundDouble_mono_pos (a := -b) (b := -a) (by grind) (by grind)
        rw [roundDouble_neg, roundDouble_neg] at h2
        grind

/-- a positive double is a multiple of the weight of its last bit -/
theorem double_multiple {z : Rat} (hz : 0 < z) (hd : IsDouble z) : ∃ n : Int, z = n * (2 : Rat) ^ ulpExp z := by
  obtain ⟨m, e, h1, h2, h3⟩ := hd
  obtain ⟨h4, h5⟩ := ulpExp_spec z hz
  have he : ulpExp z ≤ e := by
    by_cases he : ulpExp z ≤ e
    · exact he
    · exfalso
      have h6 := two_mono (a := e + 1) (b := ulpExp z) (by omega)
      rw [two_succ] at h6
      have h7 : (m : Rat) ≤ ((9007199254740991 : Int) : Rat) := Rat.intCast_le_intCast.mpr (by omega)
      have h8 := Rat.mul_le_mul_of_nonneg_right h7 (Rat.le_of_lt (two_pos e))
      have h9 := two_pos e
      have : ((9007199254740991 : Int) : Rat) = 9007199254740991 := rfl
      grind
  obtain ⟨n, hn⟩ : ∃ n : Nat, e = ulpExp z + n := ⟨(e - ulpExp z).toNat, by omega⟩
  refine ⟨m * ((2 ^ n : Nat) : Int), ?_⟩
  have e1 : (2 : Rat) ^ e = 2 ^ ulpExp z * 2 ^ n := by rw [hn, two_add, two_nat]
  rw [Rat.intCast_mul, natCast_pow2]
  rw [e1] at h3
  grind

theorem roundDouble_double {z : Rat} (hd : IsDouble z) : roundDouble z = z := by
  have pos : ∀ z, 0 < z → IsDouble z → roundDouble z = z := by
    intro z hz hd
    obtain ⟨n, hn⟩ := double_multiple hz hd
    have hp := two_pos (ulpExp z)
    rw [roundDouble_pos hz]
    have : z / 2 ^ ulpExp z = (n : Rat) := by
      have h1 : z / 2 ^ ulpExp z = n * (2 : Rat) ^ ulpExp z / 2 ^ ulpExp z := by rw [← hn]
      rw [h1, Rat.mul_div_cancel (by grind)]
    rw [this, roundEven_int]
    exact hn.symm
  by_cases h0 : z = 0
  · rw [h0, roundDouble_zero]
  · by_cases hp : 0 < z
    · exact pos z hp hd
    · have := pos (-z) (by grind) (by
        obtain ⟨m, e, h1, h2, h3⟩ := hd
        refine ⟨-m, e, by omega, by omega, ?_⟩
        rw [h3, Rat.intCast_neg]; grind)
      rw [roundDouble_neg] at this
      grind

theorem isDouble_neg {z : Rat} (hd : IsDouble z) : IsDouble (-z) := by
  obtain ⟨m, e, h1, h2, h3⟩ := hd
  refine ⟨-m, e, by omega, by omega, ?_⟩
  rw [h3, Rat.intCast_neg]; grind

theorem roundDouble_isDouble (q : Rat) : IsDouble (roundDouble q) := by
  have pos : ∀ q, 0 < q → IsDouble (roundDouble q) := by
    intro q hq
    obtain ⟨h1, h2⟩ := significand hq
    rw [roundDouble_pos hq]
    by_cases h : roundEven (q / 2 ^ ulpExp q) = 9007199254740992
    · refine ⟨4503599627370496, ulpExp q + 1, by decide, by decide, ?_⟩
      rw [h, two_succ]
      have a : ((9007199254740992 : Int) : Rat) = 9007199254740992 := rfl
      have b : ((4503599627370496 : Int) : Rat) = 4503599627370496 := rfl
      rw [a, b]; grind
    · exact ⟨_, _, by omega, by omega, rfl⟩
  by_cases h0 : q = 0
  · rw [h0, roundDouble_zero]; exact ⟨0, 0, by decide, by decide, by decide +kernel⟩
  · by_cases hp : 0 < q
    · exact pos q hp
    · have := isDouble_neg (pos (-q) (by grind))
      rw [roundDouble_neg, Rat.neg_neg] at this
      exact this

/-- to the nearest, ties to even -/
theorem roundDouble_spec (q : Rat) : RoundsTo q (roundDouble q) := by
  have pos : ∀ q, 0 < q → RoundsTo q (roundDouble q) := by
    intro q hq
    refine ⟨roundDouble_isDouble q, ?_⟩
    intro z hz
    obtain ⟨s1, s2⟩ := significand hq
    obtain ⟨u1, u2⟩ := ulpExp_spec q hq
    have hp := two_pos (ulpExp q)
    have hrd := roundDouble_pos hq
    have hc := Rat.div_mul_cancel (a := q) (b := (2 : Rat) ^ ulpExp q) (by grind)
    -- it is enough to compare with a multiple of the last bit between
    have near : ∀ n : Int, Rat.abs (q - roundDouble q) ≤ Rat.abs (q - n * (2 : Rat) ^ ulpExp q) ∧
        (Rat.abs (q - roundDouble q) = Rat.abs (q - n * (2 : Rat) ^ ulpExp q) → (n : Rat) * 2 ^ ulpExp q ≠ roundDouble q →
          roundEven (q / 2 ^ ulpExp q) % 2 = 0) := by
      intro n
      rw [hrd]
      obtain ⟨r1, r2, r3⟩ := roundEven_near (q / 2 ^ ulpExp q)
      generalize hx : q / 2 ^ ulpExp q = x at *
      generalize hM : roundEven x = M at *
      generalize (2 : Rat) ^ ulpExp q = P at *
      have e1 : q - M * P = (x - M) * P := by grind
      have e2 : q - n * P = (x - n) * P := by grind
      rw [e1, e2]
      have habs : ∀ y : Rat, Rat.abs (y * P) = Rat.abs y * P := by
        intro y
        by_cases hy : 0 ≤ y
        · rw [Rat.abs_of_nonneg hy, Rat.abs_of_nonneg (by have := Rat.mul_nonneg hy (Rat.le_of_lt hp); exact this)]
        · rw [Rat.abs_of_nonpos (x := y) (by grind), Rat.abs_of_nonpos (x := y * P) (by have := Rat.mul_nonneg (a := -y) (b := P) (by grind) (Rat.le_of_lt hp); rw [Rat.neg_mul] at this; grind), Rat.neg_mul]
      rw [habs, habs]
      by_cases hMn : M = n
      · subst hMn
        exact ⟨Rat.le_refl, fun _ h => absurd rfl h⟩
      · have hdist : 1 / 2 ≤ Rat.abs (x - n) := by
          rcases Int.lt_or_gt_of_ne hMn with h | h
          · have := Rat.intCast_le_intCast.mpr (show M + 1 ≤ n by omega)
            rw [Rat.intCast_add] at this
            have h1 : ((1 : Int) : Rat) = 1 := rfl
            rw [Rat.abs_of_nonpos (by grind)]; grind
          · have := Rat.intCast_le_intCast.mpr (show n + 1 ≤ M by omega)
            rw [Rat.intCast_add] at this
            have h1 : ((1 : Int) : Rat) = 1 := rfl
            rw [Rat.abs_of_nonneg (by grind)]; grind
        have hM2 : Rat.abs (x - M) ≤ 1 / 2 := by
          by_cases hs : 0 ≤ x - M
          · rw [Rat.abs_of_nonneg hs]; grind
          · rw [Rat.abs_of_nonpos (by grind)]; grind
        refine ⟨Rat.mul_le_mul_of_nonneg_right (by grind) (Rat.le_of_lt hp), ?_⟩
        intro he _
        have he' : Rat.abs (x - M) = Rat.abs (x - n) := by
          have h1 : Rat.abs (x - M) ≤ Rat.abs (x - n) := Rat.le_of_mul_le_mul_right (c := P) (by rw [he]; exact Rat.le_refl) hp
          have h2 : Rat.abs (x - n) ≤ Rat.abs (x - M) := Rat.le_of_mul_le_mul_right (c := P) (by rw [he]; exact Rat.le_refl) hp
          grind
        apply r3
        by_cases hs : 0 ≤ x - M
        · rw [Rat.abs_of_nonneg hs] at he' hM2; grind
        · rw [Rat.abs_of_nonpos (by grind)] at he' hM2; grind
    have fin : ∀ n : Int, Rat.abs (q - n * (2 : Rat) ^ ulpExp q) ≤ Rat.abs (q - z) →
        (Rat.abs (q - n * (2 : Rat) ^ ulpExp q) = Rat.abs (q - z) → z ≠ roundDouble q → (n : Rat) * 2 ^ ulpExp q ≠ roundDouble q) →
        Rat.abs (q - roundDouble q) ≤ Rat.abs (q - z) ∧
        (Rat.abs (q - roundDouble q) = Rat.abs (q - z) → z ≠ roundDouble q →
          ∃ m e : Int, 2 ^ 52 ≤ m.natAbs ∧ m.natAbs ≤ 2 ^ 53 ∧ m % 2 = 0 ∧ roundDouble q = m * (2 : Rat) ^ e) := by
      intro n h1 h2
      obtain ⟨k1, k2⟩ := near n
      refine ⟨by grind, fun he hne => ?_⟩
      have := k2 (by grind) (h2 (by grind) hne)
      exact ⟨_, _, by omega, by omega, this, hrd⟩
    by_cases hpz : 0 < z ∧ ulpExp q ≤ ulpExp z
    · obtain ⟨hz0, hu⟩ := hpz
      obtain ⟨n, hn⟩ := double_multiple hz0 hz
      obtain ⟨k, hk⟩ : ∃ k : Nat, ulpExp z = ulpExp q + k := ⟨(ulpExp z - ulpExp q).toNat, by omega⟩
      have hz2 : z = ((n * ((2 ^ k : Nat) : Int) : Int) : Rat) * 2 ^ ulpExp q := by
        have e1 : (2 : Rat) ^ ulpExp z = 2 ^ ulpExp q * 2 ^ k := by rw [hk, two_add, two_nat]
        rw [Rat.intCast_mul, natCast_pow2]
        rw [e1] at hn
        grind
      refine fin (n * ((2 ^ k : Nat) : Int)) ?_ ?_
      · rw [← hz2]; exact Rat.le_refl
      · rw [← hz2]; exact fun _ h => h
    · -- z is at most the smallest number of the binade of q
      have hzle : z ≤ 4503599627370496 * (2 : Rat) ^ ulpExp q := by
        by_cases hz0 : 0 < z
        · have hlt : ulpExp z + 1 ≤ ulpExp q := by
            have : ¬ ulpExp q ≤ ulpExp z := fun h => hpz ⟨hz0, h⟩
            omega
          have h3 := two_mono hlt
          rw [two_succ] at h3
          have := (ulpExp_spec z hz0).2
          grind
        · grind
      have hc1 : ((4503599627370496 : Int) : Rat) = 4503599627370496 := rfl
      refine fin 4503599627370496 ?_ ?_
      · rw [hc1, Rat.abs_of_nonneg (by grind), Rat.abs_of_nonneg (by grind)]; grind
      · rw [hc1, Rat.abs_of_nonneg (by grind), Rat.abs_of_nonneg (by grind)]
        intro h1 h2
        have : z = 4503599627370496 * (2 : Rat) ^ ulpExp q := by grind
        rw [← this]; exact h2
  by_cases h0 : q = 0
  · subst h0
    rw [roundDouble_zero]
    refine ⟨⟨0, 0, by decide, by decide, by decide +kernel⟩, fun z _ => ⟨?_, ?_⟩⟩
    · rw [Rat.sub_self, Rat.abs_zero]; exact Rat.abs_nonneg
    · rw [Rat.sub_self, Rat.abs_zero]
      intro h hz
      have := Rat.abs_eq_zero_iff.mp h.symm
      grind
  · by_cases hp : 0 < q
    · exact pos q hp
    · obtain ⟨h1, h2⟩ := pos (-q) (by grind)
      rw [roundDouble_neg] at h1 h2
      have h1' := isDouble_neg h1
      rw [Rat.neg_neg] at h1'
      refine ⟨h1', fun z hz => ?_⟩
      have flip : ∀ a : Rat, Rat.abs (-q - -a) = Rat.abs (q - a) := by
        intro a
        have : -q - -a = -(q - a) := by grind
        rw [this, Rat.abs_neg]
      obtain ⟨k1, k2⟩ := h2 (-z) (isDouble_neg hz)
      rw [flip, flip] at k1 k2
      refine ⟨k1, fun he hne => ?_⟩
      obtain ⟨m, e, m1, m2, m3, m4⟩ := k2 he (by intro h; apply hne; grind)
      refine ⟨-m, e, by omega, by omega, by omega, ?_⟩
      rw [Rat.intCast_neg]; grind

/-- the relative error -/
theorem roundDouble_error {q B : Rat} (h1 : -B ≤ q) (h2 : q ≤ B) :
    q - B / 9007199254740992 ≤ roundDouble q ∧ roundDouble q ≤ q + B / 9007199254740992 := by
  have pos : ∀ q, 0 < q → q ≤ B → q - B / 9007199254740992 ≤ roundDouble q ∧ roundDouble q ≤ q + B / 9007199254740992 := by
    intro q hq hB
    obtain ⟨r1, r2, -⟩ := roundEven_near (q / 2 ^ ulpExp q)
    have hp := two_pos (ulpExp q)
    have hc := Rat.div_mul_cancel (a := q) (b := (2 : Rat) ^ ulpExp q) (by grind)
    have hu := (ulpExp_spec q hq).1
    rw [roundDouble_pos hq]
    have a1 := Rat.mul_le_mul_of_nonneg_right r1 (Rat.le_of_lt hp)
    have a2 := Rat.mul_le_mul_of_nonneg_right r2 (Rat.le_of_lt hp)
    grind
  by_cases hp : 0 < q
  · exact pos q hp h2
  · by_cases h0 : q = 0
    · subst h0; rw [roundDouble_zero]; grind
    · have := pos (-q) (by grind) (by grind)
      rw [roundDouble_neg] at this
      grind

/-- each round of the first loop brings the value nearer by half the width -/
theorem normDown_double {lo hi : Rat} (hw : IsDouble (hi - lo)) (hl : IsDouble lo) (hlo : -(4503599627370496 * (hi - lo)) ≤ lo)
    (hpos : lo < hi) :
    ∀ (n : Nat) (x : Rat), x ≤ 4503599627370496 * (hi - lo) → x < hi + n * ((hi - lo) / 2) → hi ≤ x →
      ∃ y, (∀ m, n + 1 ≤ m → normDown roundDouble lo hi m x = some y) ∧ lo ≤ y ∧ y < hi := by
  intro n
  induction n with
  | zero =>
    intro x hx1 hx2 hx3
    exfalso
    have : ((0 : Nat) : Rat) = 0 := rfl
    grind
  | succ n ih =>
    intro x hx1 hx2 hx3
    have hrw : roundDouble (hi - lo) = hi - lo := roundDouble_double hw
    obtain ⟨e1, e2⟩ := roundDouble_error (q := x - (hi - lo)) (B := 4503599627370496 * (hi - lo)) (by grind) (by grind)
    have hge : lo ≤ roundDouble (x - (hi - lo)) := by
      have := roundDouble_mono (a := lo) (b := x - (hi - lo)) (by grind)
      rw [roundDouble_double hl] at this
      exact this
    have hcast : ((n + 1 : Nat) : Rat) = (n : Rat) + 1 := by exact_mod_cast rfl
    rw [hcast] at hx2
    by_cases hlt : hi ≤ roundDouble (x - (hi - lo))
    · obtain ⟨y, h1, h2⟩ := ih (roundDouble (x - (hi - lo))) (by grind) (by grind) hlt
      refine ⟨y, ?_, h2⟩
      intro m hm
      obtain ⟨m', rfl⟩ : ∃ m', m = m' + 1 := ⟨m - 1, by omega⟩
      rw [normDown, if_pos hx3, hrw]
      exact h1 m' (by omega)
    · refine ⟨_, ?_, hge, by grind⟩
      intro m hm
      obtain ⟨m', rfl⟩ : ∃ m', m = m' + 2 := ⟨m - 2, by omega⟩
      rw [normDown, if_pos hx3, hrw, normDown, if_neg hlt]

/-- and of the second -/
theorem normUp_double {lo hi : Rat} (hw : IsDouble (hi - lo)) (hh : IsDouble hi) (hhi : hi ≤ 4503599627370496 * (hi - lo))
    (hpos : lo < hi) :
    ∀ (n : Nat) (x : Rat), -(4503599627370496 * (hi - lo)) ≤ x → lo < x + n * ((hi - lo) / 2) → x < lo →
      ∃ y, (∀ m, n + 1 ≤ m → normUp roundDouble lo hi m x = some y) ∧ lo ≤ y ∧ y ≤ hi := by
  intro n
  induction n with
  | zero =>
    intro x hx1 hx2 hx3
    exfalso
    have : ((0 : Nat) : Rat) = 0 := rfl
    grind
  | succ n ih =>
    intro x hx1 hx2 hx3
    have hrw : roundDouble (hi - lo) = hi - lo := roundDouble_double hw
    obtain ⟨e1, e2⟩ := roundDouble_error (q := x + (hi - lo)) (B := 4503599627370496 * (hi - lo)) (by grind) (by grind)
    have hle : roundDouble (x + (hi - lo)) ≤ hi := by
      have := roundDouble_mono (a := x + (hi - lo)) (b := hi) (by grind)
      rw [roundDouble_double hh] at this
      exact this
    have hcast : ((n + 1 : Nat) : Rat) = (n : Rat) + 1 := by exact_mod_cast rfl
    rw [hcast] at hx2
    by_cases hlt : roundDouble (x + (hi - lo)) < lo
    · obtain ⟨y, h1, h2⟩ := ih (roundDouble (x + (hi - lo))) (by grind) (by grind) hlt
      refine ⟨y, ?_, h2⟩
      intro m hm
      obtain ⟨m', rfl⟩ : ∃ m', m = m' + 1 := ⟨m - 1, by omega⟩
      rw [normUp, if_pos hx3, hrw]
      exact h1 m' (by omega)
    · refine ⟨_, ?_, by grind, hle⟩
      intro m hm
      obtain ⟨m', rfl⟩ : ∃ m', m = m' + 2 := ⟨m - 2, by omega⟩
      rw [normUp, if_pos hx3, hrw, normUp, if_neg hlt]

theorem exists_steps (a w : Rat) (hw : 0 < w) : ∃ n : Nat, a < n * w := by
  refine ⟨((a / w).floor + 1).toNat, ?_⟩
  have h1 := Rat.lt_floor (x := a / w)
  have h2 : (((a / w).floor + 1 : Int) : Rat) ≤ ((((a / w).floor + 1).toNat : Int) : Rat) := Rat.intCast_le_intCast.mpr (by omega)
  rw [Rat.intCast_add] at h2
  have h3 : ((1 : Int) : Rat) = 1 := rfl
  have h4 : a / w < ((((a / w).floor + 1).toNat : Int) : Rat) := by grind
  have := Rat.mul_lt_mul_of_pos_right h4 hw
  rw [Rat.div_mul_cancel (by grind)] at this
  exact this

theorem norm_double {x lo hi : Rat} (hw : IsDouble (hi - lo)) (hl : IsDouble lo) (hh : IsDouble hi) (hpos : lo < hi)
    (hx1 : -(4503599627370496 * (hi - lo)) ≤ x) (hx2 : x ≤ 4503599627370496 * (hi - lo))
    (hlo : -(4503599627370496 * (hi - lo)) ≤ lo) (hhi : hi ≤ 4503599627370496 * (hi - lo)) :
    ∃ y N, (∀ n, N ≤ n → norm roundDouble n x lo hi = some y) ∧ lo ≤ y ∧ y ≤ hi ∧ (lo ≤ x → y < hi) := by
  by_cases h1 : hi ≤ x
  · obtain ⟨n, hn⟩ := exists_steps (x - hi) ((hi - lo) / 2) (by grind)
    obtain ⟨y, k1, k2, k3⟩ := normDown_double hw hl hlo hpos n x hx2 (by grind) h1
    refine ⟨y, n + 1, fun m hm => ?_, k2, by grind, fun _ => k3⟩
    obtain ⟨m', rfl⟩ : ∃ m', m = m' + 1 := ⟨m - 1, by omega⟩
    unfold norm
    rw [k1 _ hm]
    show normUp roundDouble lo hi (m' + 1) y = some y
    rw [normUp, if_neg (by grind)]
  · by_cases h2 : x < lo
    · obtain ⟨n, hn⟩ := exists_steps (lo - x) ((hi - lo) / 2) (by grind)
      obtain ⟨y, k1, k2, k3⟩ := normUp_double hw hh hhi hpos n x hx1 (by grind) h2
      refine ⟨y, n + 1, fun m hm => ?_, k2, k3, fun h => by grind⟩
      obtain ⟨m', rfl⟩ : ∃ m', m = m' + 1 := ⟨m - 1, by omega⟩
      unfold norm
      rw [normDown, if_neg h1]
      exact k1 _ hm
    · refine ⟨x, 1, fun m hm => ?_, by grind, by grind, by grind⟩
      obtain ⟨m', rfl⟩ : ∃ m', m = m' + 1 := ⟨m - 1, by omega⟩
      unfold norm
      rw [normDown, if_neg h1]
      show normUp roundDouble lo hi (m' + 1) x = some x
      rw [normUp, if_neg h2]

end Verif.Conv
