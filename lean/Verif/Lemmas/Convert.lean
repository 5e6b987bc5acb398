import Verif.Model.Convert
import Verif.Spec.Convert

set_option linter.unusedSimpArgs false
set_option linter.unusedVariables false

namespace Verif.Conv
open Verif.Spec.Conv

theorem normDown_exact (lo hi : Rat) (hlt : lo < hi) (k : Nat) : ∀ x : Rat, x < hi + (k : Rat) * (hi - lo) →
    ∃ y : Rat, ∃ j : Int, y = x + (j : Rat) * (hi - lo) ∧ y < hi ∧ (y = x ∨ lo ≤ y) ∧ ∀ n, k < n → normDown id lo hi n x = some y := by
  induction k with
  | zero =>
    intro x hx
    have hx : x < hi := by
      have : ((0 : Nat) : Rat) = 0 := rfl
      rw [this] at hx
      grind
    refine ⟨x, 0, by grind, hx, Or.inl rfl, ?_⟩
    intro n hn
    match n, hn with
    | n + 1, _ => simp only [normDown]; rw [if_neg (by grind)]
  | succ k ih =>
    intro x hx
    have e : ((k + 1 : Nat) : Rat) = (k : Rat) + 1 := by simp
    rw [e] at hx
    by_cases hge : hi ≤ x
    · obtain ⟨y, j, hy, h1, h2, h3⟩ := ih (x - (hi - lo)) (by grind)
      refine ⟨y, j - 1, ?_, h1, ?_, ?_⟩
      · rw [hy, Rat.intCast_sub]
        have : ((1 : Int) : Rat) = 1 := rfl
        grind
      · right
        rcases h2 with h2 | h2
        · rw [h2]; grind
        · exact h2
      · intro n hn
        match n, hn with
        | n + 1, hn =>
          simp only [normDown, id]
          rw [if_pos hge]
          exact h3 n (by omega)
    · refine ⟨x, 0, by grind, by grind, Or.inl rfl, ?_⟩
      intro n hn
      match n, hn with
      | n + 1, _ => simp only [normDown]; rw [if_neg hge]

theorem normUp_exact (lo hi : Rat) (hlt : lo < hi) (k : Nat) : ∀ x : Rat, x < hi → lo - (k : Rat) * (hi - lo) ≤ x →
    ∃ y : Rat, ∃ j : Int, y = x + (j : Rat) * (hi - lo) ∧ y < hi ∧ lo ≤ y ∧ ∀ n, k < n → normUp id lo hi n x = some y := by
  induction k with
  | zero =>
    intro x hx hl
    have hl : lo ≤ x := by
      have : ((0 : Nat) : Rat) = 0 := rfl
      rw [this] at hl
      grind
    refine ⟨x, 0, by grind, hx, hl, ?_⟩
    intro n hn
    match n, hn with
    | n + 1, _ => simp only [normUp]; rw [if_neg (by grind)]
  | succ k ih =>
    intro x hx hl
    have e : ((k + 1 : Nat) : Rat) = (k : Rat) + 1 := by simp
    rw [e] at hl
    by_cases hge : x < lo
    · obtain ⟨y, j, hy, h1, h2, h3⟩ := ih (x + (hi - lo)) (by grind) (by grind)
      refine ⟨y, j + 1, ?_, h1, h2, ?_⟩
      · rw [hy, Rat.intCast_add]
        have : ((1 : Int) : Rat) = 1 := rfl
        grind
      · intro n hn
        match n, hn with
        | n + 1, hn =>
          simp only [normUp, id]
          rw [if_pos hge]
          exact h3 n (by omega)
    · refine ⟨x, 0, by grind, hx, by grind, ?_⟩
      intro n hn
      match n, hn with
      | n + 1, _ => simp only [normUp]; rw [if_neg hge]

theorem exists_nat_mul_gt (d w : Rat) (hw : 0 < w) : ∃ k : Nat, d < (k : Rat) * w := by
  refine ⟨((d / w).floor + 1).toNat, ?_⟩
  have h1 : d / w < ((d / w).floor + 1 : Int) := Rat.lt_floor_add_one _
  have h2 : ((d / w).floor + 1 : Int) ≤ ((((d / w).floor + 1).toNat : Nat) : Int) := Int.self_le_toNat _
  have h3 : (((d / w).floor + 1 : Int) : Rat) ≤ (((((d / w).floor + 1).toNat : Nat) : Int) : Rat) := Rat.intCast_le_intCast.2 h2
  have h4 : (((((d / w).floor + 1).toNat : Nat) : Int) : Rat) = ((((d / w).floor + 1).toNat : Nat) : Rat) := rfl
  rw [h4] at h3
  have h5 : d / w < ((((d / w).floor + 1).toNat : Nat) : Rat) := by grind
  rwa [Rat.div_lt_iff hw] at h5

theorem norm_exact (x lo hi : Rat) (hlt : lo < hi) : ∃ y N, IsNorm x lo hi y ∧ ∀ n, N ≤ n → norm id n x lo hi = some y := by
  obtain ⟨k, hk⟩ := exists_nat_mul_gt (x - hi) (hi - lo) (by grind)
  obtain ⟨y, j, hy, h1, h2, h3⟩ := normDown_exact lo hi hlt k x (by grind)
  obtain ⟨k', hk'⟩ := exists_nat_mul_gt (lo - y) (hi - lo) (by grind)
  obtain ⟨z, j', hz, g1, g2, g3⟩ := normUp_exact lo hi hlt k' y h1 (by grind)
  refine ⟨z, k + k' + 1, ⟨g2, g1, j + j', ?_⟩, ?_⟩
  · rw [hz, hy, Rat.intCast_add]; grind
  · intro n hn
    unfold norm
    rw [h3 n (by omega)]
    exact g3 n (by omega)

theorem isNorm_unique {x lo hi y z : Rat} (hy : IsNorm x lo hi y) (hz : IsNorm x lo hi z) : y = z := by
  obtain ⟨a1, a2, k, ak⟩ := hy
  obtain ⟨b1, b2, l, bl⟩ := hz
  have hw : 0 < hi - lo := by grind
  have hd : z - y = ((l - k : Int) : Rat) * (hi - lo) := by rw [ak, bl, Rat.intCast_sub]; grind
  have h1 : ((l - k : Int) : Rat) < 1 := by
    by_cases h : ((l - k : Int) : Rat) < 1
    · exact h
    · exfalso
      have h' : (1 : Rat) ≤ ((l - k : Int) : Rat) := by grind
      have := Rat.mul_le_mul_of_nonneg_right h' (by grind : (0 : Rat) ≤ hi - lo)
      grind
  have h2 : (-1 : Rat) < ((l - k : Int) : Rat) := by
    by_cases h : (-1 : Rat) < ((l - k : Int) : Rat)
    · exact h
    · exfalso
      have h' : ((l - k : Int) : Rat) ≤ -1 := by grind
      have := Rat.mul_le_mul_of_nonneg_right h' (by grind : (0 : Rat) ≤ hi - lo)
      grind
  have h1' : l - k < 1 := Rat.intCast_lt_intCast.1 h1
  have h2' : -1 < l - k := Rat.intCast_lt_intCast.1 h2
  have e : l = k := by omega
  subst e
  rw [ak, bl]

theorem normDown_diverges (lo hi : Rat) (hle : hi ≤ lo) (n : Nat) : ∀ x, hi ≤ x → normDown id lo hi n x = none := by
  induction n with
  | zero => intro x _; rfl
  | succ n ih =>
    intro x hx
    simp only [normDown, id]
    rw [if_pos hx]
    exact ih _ (by grind)

theorem normUp_diverges (lo hi : Rat) (hle : hi ≤ lo) (n : Nat) : ∀ x, x < lo → normUp id lo hi n x = none := by
  induction n with
  | zero => intro x _; rfl
  | succ n ih =>
    intro x hx
    simp only [normUp, id]
    rw [if_pos hx]
    exact ih _ (by grind)

theorem norm_diverges (x lo hi : Rat) (hle : hi ≤ lo) (n : Nat) : norm id n x lo hi = none := by
  unfold norm
  by_cases h : hi ≤ x
  · rw [normDown_diverges lo hi hle n x h]; rfl
  · match n with
    | 0 => rfl
    | n + 1 =>
      simp only [normDown]
      rw [if_neg h]
      exact normUp_diverges lo hi hle _ x (by grind)

/-- rounding that keeps order -/
def Mono (rd : Rat → Rat) : Prop := ∀ a b, a ≤ b → rd a ≤ rd b

theorem normDown_lt (rd : Rat → Rat) (lo hi : Rat) (n : Nat) : ∀ x y, normDown rd lo hi n x = some y → y < hi := by
  induction n with
  | zero => intro x y h; simp [normDown] at h
  | succ n ih =>
    intro x y h
    simp only [normDown] at h
    split at h
    · exact ih _ _ h
    · simp at h; grind

theorem normUp_bounds (rd : Rat → Rat) (lo hi : Rat) (hm : Mono rd) (hw : rd (hi - lo) = hi - lo) (hh : rd hi = hi) (n : Nat) :
    ∀ x y, x ≤ hi → normUp rd lo hi n x = some y → lo ≤ y ∧ y ≤ hi := by
  induction n with
  | zero => intro x y _ h; simp [normUp] at h
  | succ n ih =>
    intro x y hx h
    simp only [normUp] at h
    split at h
    next hl =>
      refine ih _ _ ?_ h
      rw [hw]
      have := hm (x + (hi - lo)) hi (by grind)
      rw [hh] at this
      exact this
    · simp at h; grind

theorem normDown_stuck (rd : Rat → Rat) (lo hi x : Rat) (hx : hi ≤ x) (hs : rd (x - rd (hi - lo)) = x) (n : Nat) :
    normDown rd lo hi n x = none := by
  induction n with
  | zero => rfl
  | succ n ih => simp only [normDown]; rw [if_pos hx, hs, ih]

theorem avgLoop_spec (l : List (Option Rat)) : ∀ s i, avgLoop l s i =
    (s + ((l.takeWhile (·.isSome)).filterMap id).sum, i + (l.takeWhile (·.isSome)).length) := by
  induction l with
  | nil => intro s i; simp [avgLoop]; grind
  | cons x l ih =>
    intro s i
    cases x with
    | none => simp [avgLoop]; grind
    | some v =>
      simp only [avgLoop, ih, List.takeWhile_cons, Option.isSome_some, if_true, List.filterMap_cons, id, List.sum_cons, List.length_cons]
      rw [show s + v + ((l.takeWhile (·.isSome)).filterMap id).sum = s + (v + ((l.takeWhile (·.isSome)).filterMap id).sum) by grind,
        show i + 1 + (l.takeWhile (·.isSome)).length = i + ((l.takeWhile (·.isSome)).length + 1) by omega]

end Verif.Conv
