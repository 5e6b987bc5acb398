import Verif.Lemmas.Convert
import Verif.Lemmas.Merge
import Verif.Lemmas.Rounding

/-! C59, C60, C71, C72: unit conversion functions and merging of parameters. -/

set_option linter.unusedVariables false

namespace Verif.Props
open Verif.Conv Verif.Spec.Conv

/-! ### C59 -/

/-- C59 in exact arithmetic: for `lo < hi` the function returns (for every large enough number of iterations) a value in
the half-open interval that differs from `x` by a multiple of the width, and there is only one such value.
(Partial: rounding of doubles is left out; see `C59_double_bounds`, `C59_double_returns_max`, `C59_double_hangs`.) -/
theorem C59_norm_partial (x lo hi : Rat) (h : lo < hi) :
    ∃ y N, (∀ n, N ≤ n → norm id n x lo hi = some y) ∧ IsNorm x lo hi y ∧ ∀ z, IsNorm x lo hi z → z = y := by
  obtain ⟨y, N, h1, h2⟩ := norm_exact x lo hi h
  exact ⟨y, N, h2, h1, fun z hz => isNorm_unique hz h1⟩

example : norm id 10 (-450) 0 360 = some 270 ∧ norm id 10 725 (-180) 180 = some 5 := by decide +kernel

/-- C59: without `lo < hi` the function never returns. -/
theorem C59_needs_interval (x lo hi : Rat) (h : hi ≤ lo) (n : Nat) : norm id n x lo hi = none := norm_diverges x lo hi h n

example : (5 : Rat) ≤ 5 := by decide +kernel

/-- C59 in floating point: with any rounding that keeps order, for an upper limit and a width that need no rounding, a
value that is returned lies in the *closed* interval. -/
theorem C59_double_bounds (rd : Rat → Rat) (hm : ∀ a b, a ≤ b → rd a ≤ rd b) (x lo hi : Rat) (hw : rd (hi - lo) = hi - lo)
    (hh : rd hi = hi) (n : Nat) (y : Rat) (hy : norm rd n x lo hi = some y) : lo ≤ y ∧ y ≤ hi := by
  unfold norm at hy
  cases h : normDown rd lo hi n x with
  | none => rw [h] at hy; simp at hy
  | some v =>
    rw [h] at hy
    have hv := normDown_lt rd lo hi n x v h
    exact normUp_bounds rd lo hi hm hw hh n v y (by grind) hy

example : roundDouble (360 - 0) = 360 - 0 ∧ roundDouble 360 = 360 ∧ norm roundDouble 5 725 0 360 = some 5 := by decide +kernel

/-- C59, arithmetic: the rounding of the model is that of IEEE double precision, to the nearest and ties to even; it keeps the order and every double. -/
theorem C59_rounding (q : Rat) : RoundsTo q (roundDouble q) ∧ (∀ p, p ≤ q → roundDouble p ≤ roundDouble q) ∧ (IsDouble q → roundDouble q = q) :=
  ⟨roundDouble_spec q, fun _ h => roundDouble_mono h, roundDouble_double⟩

/-- a tie: 2^53 + 1 is rounded to the even significand -/
example : roundDouble (2 ^ 53 + 1) = 2 ^ 53 ∧ roundDouble (2 ^ 53 + 3) = 2 ^ 53 + 4 ∧ roundDouble (1 / 10) = 3602879701896397 / 2 ^ 55 := by decide +kernel

/-- C59 in floating point, for all doubles whose size is at most 2^52 times the width of the interval: the function returns, the value is in the closed interval,
and it is the upper limit only if the argument was below the lower one. -/
theorem C59_double_partial (x lo hi : Rat) (hw : IsDouble (hi - lo)) (hl : IsDouble lo) (hh : IsDouble hi) (hpos : lo < hi)
    (hb : ∀ v ∈ [x, lo, hi], -(2 ^ 52 * (hi - lo)) ≤ v ∧ v ≤ 2 ^ 52 * (hi - lo)) :
    ∃ y N, (∀ n, N ≤ n → norm roundDouble n x lo hi = some y) ∧ lo ≤ y ∧ y ≤ hi ∧ (lo ≤ x → y < hi) := by
  rw [p52] at hb
  have h1 := hb x (by simp)
  have h2 := hb lo (by simp)
  have h3 := hb hi (by simp)
  exact norm_double hw hl hh hpos h1.1 h1.2 h2.1 h3.2

/-- degrees -/
example : IsDouble (360 - 0) ∧ IsDouble 0 ∧ IsDouble 360 ∧ ∀ v ∈ [1000000, 0, 360], -(2 ^ 52 * (360 - 0 : Rat)) ≤ v ∧ v ≤ 2 ^ 52 * (360 - 0) :=
  ⟨⟨360, 0, by decide, by decide, by decide +kernel⟩, ⟨0, 0, by decide, by decide, by decide +kernel⟩, ⟨360, 0, by decide, by decide, by decide +kernel⟩,
    by decide +kernel⟩

/-- C59: a value that is inside already is returned as it is, in any arithmetic. -/
theorem C59_inside (rd : Rat → Rat) (x lo hi : Rat) (h1 : lo ≤ x) (h2 : x < hi) (n : Nat) : norm rd (n + 1) x lo hi = some x := by
  have a : ¬ hi ≤ x := by grind
  have b : ¬ x < lo := by grind
  simp [norm, normDown, normUp, if_neg a, if_neg b]

example : (0 : Rat) ≤ 90 ∧ (90 : Rat) < 360 := by decide +kernel

/-- C59 fails for doubles: a tiny negative angle is normalised to the excluded upper limit. -/
theorem C59_double_returns_max : ∃ x lo hi : Rat, roundDouble x = x ∧ roundDouble lo = lo ∧ roundDouble hi = hi ∧ lo < hi ∧
    norm roundDouble 2 x lo hi = some hi := by
  refine ⟨-1 / 2 ^ 60, 0, 360, ?_⟩
  decide +kernel

/-- C59 fails for doubles: for a large value the function never returns. -/
theorem C59_double_hangs : ∃ x lo hi : Rat, roundDouble x = x ∧ roundDouble lo = lo ∧ roundDouble hi = hi ∧ lo < hi ∧
    ∀ n, norm roundDouble n x lo hi = none := by
  refine ⟨2 ^ 60, 0, 1, by decide +kernel, by decide +kernel, by decide +kernel, by decide +kernel, ?_⟩
  intro n
  unfold norm
  rw [normDown_stuck roundDouble 0 1 (2 ^ 60) (by decide +kernel) (by decide +kernel)]
  rfl

/-! ### C71 -/

/-- C71, what `avg` computes: the sum of the values before the first NaN, divided by their number *plus one*.
(Partial: the property says divided by their number.) -/
theorem C71_avg_partial (valid : List Rat) (rest : List (Option Rat)) (hrest : rest = [] ∨ ∃ t, rest = none :: t) :
    avg (valid.map some ++ rest) = valid.sum / ((valid.length : Rat) + 1) := by
  unfold avg
  rw [avgLoop_spec]
  have ht : (valid.map some ++ rest).takeWhile (·.isSome) = valid.map some := by
    rw [List.takeWhile_append_of_pos (by simp)]
    rcases hrest with h | ⟨t, h⟩ <;> rw [h] <;> simp
  rw [ht]
  simp only [List.filterMap_map, List.length_map]
  have : List.filterMap (id ∘ some) valid = valid := by
    induction valid with
    | nil => rfl
    | cons v l ih => simp
  rw [this]
  congr 1
  · grind
  · simp

example : avg [some 2, some 4, none, some 9] = 2 := by decide +kernel

/-- C71 fails: the average of a single number is half of it. -/
theorem C71_avg_wrong : ∃ valid : List Rat, valid ≠ [] ∧ avg (valid.map some) ≠ mean valid :=
  ⟨[2], by simp, by decide +kernel⟩

/-! ### C72 -/

/-- C72: after a reset the first valid input is taken as it is; with a factor between 0 and 1 each further output lies
between the previous output and the input. -/
theorem C72_smooth (v o alpha : Rat) (h0 : 0 ≤ alpha) (h1 : alpha ≤ 1) : smooth (some v) none alpha = some v ∧
    ∃ y, smooth (some v) (some o) alpha = some y ∧ ((o ≤ y ∧ y ≤ v) ∨ (v ≤ y ∧ y ≤ o)) := by
  refine ⟨rfl, _, rfl, ?_⟩
  by_cases h : o ≤ v
  · left
    have a := Rat.mul_le_mul_of_nonneg_left h h0
    have b := Rat.mul_le_mul_of_nonneg_left h (by grind : (0 : Rat) ≤ 1 - alpha)
    grind
  · right
    have h' : v ≤ o := by grind
    have a := Rat.mul_le_mul_of_nonneg_left h' h0
    have b := Rat.mul_le_mul_of_nonneg_left h' (by grind : (0 : Rat) ≤ 1 - alpha)
    grind

example : smooth (some 10) (some 0) (1/4) = some (5/2) := by decide +kernel

/-- C72: with a constant input the distance to it shrinks by the factor `1 - alpha` in each cycle. -/
theorem C72_converges (v alpha : Rat) (n : Nat) : ∀ o, ∃ y, smoothRun alpha (some o) (List.replicate n (some v)) = some y ∧
    y - v = (1 - alpha) ^ n * (o - v) := by
  induction n with
  | zero => intro o; exact ⟨o, rfl, by grind⟩
  | succ n ih =>
    intro o
    obtain ⟨y, h1, h2⟩ := ih (alpha * v + (1 - alpha) * o)
    refine ⟨y, h1, ?_⟩
    rw [h2, Rat.pow_succ]
    grind

example : smoothRun (1/2) (some 0) [some 8, some 8, some 8] = some 7 := by decide +kernel

/-- C72: an invalid input makes the output jump to zero, wherever it was before. -/
theorem C72_nan_is_zero (o : Option Rat) (alpha : Rat) : smooth none o alpha = some 0 := by cases o <;> rfl

example : smooth none (some 100) (1/10) = some 0 := by decide +kernel

/-! ### C60 -/

open Verif.Merge Verif.Spec.Merge

/-- defaults of the example -/
def exDefaults : XVal := .struct (.cons "eds_pkg" (.leaf 1) (.cons "motor_layer" (.struct (.cons "switching_state" (.leaf 5) .nil)) .nil))
/-- node parameters of the example -/
def exNode : XVal := .struct (.cons "id" (.leaf 3) (.cons "motor_layer" (.struct (.cons "monitor" (.leaf 0) .nil)) .nil))

/-- C60: every plain value the node defines is kept. -/
theorem C60_node_wins (params defaults m : XVal) (hd : Proper defaults) (hm : merge params defaults = some m)
    (p : List String) (x : Nat) (h : at? params p = some (.leaf x)) : at? m p = some (.leaf x) := by
  cases params with
  | leaf z => simp [merge] at hm
  | struct a =>
    cases defaults with
    | leaf z => simp [merge] at hm
    | struct b =>
      simp only [merge, Option.some.injEq] at hm
      subst hm
      exact at_leaf p a b (by simpa only [Proper] using hd) x h

example : ((merge exNode exDefaults).bind (at? · ["id"])) = some (.leaf 3) := rfl

/-- C60: for every path the node says nothing about, the merged parameters are the defaults. -/
theorem C60_default (params defaults m : XVal) (hd : Proper defaults) (hm : merge params defaults = some m)
    (p : List String) (h : Silent params p) : at? m p = at? defaults p := by
  cases params with
  | leaf z => simp [merge] at hm
  | struct a =>
    cases defaults with
    | leaf z => simp [merge] at hm
    | struct b =>
      simp only [merge, Option.some.injEq] at hm
      subst hm
      exact at_silent p a b (by simpa only [Proper] using hd) h

example : Silent exNode ["motor_layer", "switching_state"] ∧ Proper exDefaults ∧
    ((merge exNode exDefaults).bind (at? · ["motor_layer", "switching_state"])) = some (.leaf 5) :=
  ⟨⟨["motor_layer"], "switching_state", [], _, rfl, rfl, rfl⟩, by simp [exDefaults, Proper, ProperFields, names], rfl⟩

/-- C60: a struct of the node is kept as it is where the defaults have no struct. -/
theorem C60_struct (params defaults m : XVal) (hd : Proper defaults) (hm : merge params defaults = some m)
    (p : List String) (v : XVal) (h : at? params p = some v) (hn : ∀ fs, at? defaults p ≠ some (.struct fs)) : at? m p = some v := by
  cases params with
  | leaf z => simp [merge] at hm
  | struct a =>
    cases defaults with
    | leaf z => simp [merge] at hm
    | struct b =>
      simp only [merge, Option.some.injEq] at hm
      subst hm
      exact at_struct p a b (by simpa only [Proper] using hd) v h hn

example : at? exNode ["motor_layer", "monitor"] = some (.leaf 0) := rfl

/-- C60: where the node has a plain value, nothing of the defaults below it survives. -/
theorem C60_blocked (params defaults m : XVal) (hd : Proper defaults) (hm : merge params defaults = some m)
    (p : List String) (h : Blocked params p) : at? m p = none := by
  cases params with
  | leaf z => simp [merge] at hm
  | struct a =>
    cases defaults with
    | leaf z => simp [merge] at hm
    | struct b =>
      simp only [merge, Option.some.injEq] at hm
      subst hm
      exact at_blocked p a b (by simpa only [Proper] using hd) h

example : Blocked (.struct (.cons "motor_layer" (.leaf 1) .nil)) ["motor_layer", "switching_state"] :=
  ⟨["motor_layer"], "switching_state", [], 1, rfl, rfl⟩

/-- C60: every path is of one of the kinds treated above: the node has a value there, says nothing about it, or has a
plain value above it. -/
theorem C60_complete (params : XVal) (p : List String) : (∃ v, at? params p = some v) ∨ Silent params p ∨ Blocked params p := by
  induction p generalizing params with
  | nil => exact Or.inl ⟨params, rfl⟩
  | cons k p ih =>
    cases params with
    | leaf x => exact Or.inr (Or.inr ⟨[], k, p, x, rfl, rfl⟩)
    | struct fs =>
      cases hk : fs.get? k with
      | none => exact Or.inr (Or.inl ⟨[], k, p, fs, rfl, rfl, hk⟩)
      | some v =>
        rcases ih v with ⟨w, hw⟩ | ⟨q, k', r, fs', e, h1, h2⟩ | ⟨q, k', r, x, e, h1⟩
        · exact Or.inl ⟨w, by simp only [at?, hk]; exact hw⟩
        · exact Or.inr (Or.inl ⟨k :: q, k', r, fs', by rw [e]; rfl, by simp only [at?, hk]; exact h1, h2⟩)
        · exact Or.inr (Or.inr ⟨k :: q, k', r, x, by rw [e]; rfl, by simp only [at?, hk]; exact h1⟩)

end Verif.Props
