import Verif.Model.Eds
import Verif.Spec.Dict
import Verif.Lemmas.Text

set_option linter.unusedSimpArgs false

namespace Verif.OD
open Verif Verif.Txt Verif.Spec

theorem low16' (w j : Nat) (hw : 16 ≤ w) : (BitVec.ofNat w 0xFFFF).getLsbD j = decide (j < 16) := by
  rw [BitVec.getLsbD_ofNat]
  have : (0xFFFF : Nat) = 2 ^ 16 - 1 := by decide
  rw [this, Nat.testBit_two_pow_sub_one]
  by_cases h : j < 16
  · have : j < w := by omega
    simp [h, this]
  · simp [h]

theorem low16 (j : Nat) : (0xFFFF#64).getLsbD j = decide (j < 16) := low16' 64 j (by decide)

theorem hashIdx (i : BitVec 16) (j : Nat) (hj : j < 32) : (Key.ofIndex i).hash.getLsbD j =
    if j < 16 then true else i.getLsbD (j - 16) := by
  have h64 : j < 64 := by omega
  rw [Key.ofIndex, BitVec.getLsbD_signExtend, BitVec.getLsbD_or, low16' 32 j (by decide), BitVec.getLsbD_shiftLeft,
    BitVec.getLsbD_setWidth]
  have : j - 16 < 32 := by omega
  by_cases h : j < 16 <;> simp [h, h64, hj, this]

theorem hashSub (i : BitVec 16) (s : BitVec 8) (j : Nat) (hj : j < 32) : (Key.ofSub i s).hash.getLsbD j =
    if j < 16 then s.getLsbD j else i.getLsbD (j - 16) := by
  have h64 : j < 64 := by omega
  rw [Key.ofSub, BitVec.getLsbD_signExtend, BitVec.getLsbD_or, BitVec.getLsbD_shiftLeft,
    BitVec.getLsbD_setWidth, BitVec.getLsbD_setWidth]
  have : j - 16 < 32 := by omega
  by_cases h : j < 16
  · simp [h, h64, hj, this]
  · have h3 : s.getLsbD j = false := BitVec.getLsbD_of_ge _ _ (by omega)
    simp [h, h64, hj, this, h3]

theorem Key.ofIndex_index (i : BitVec 16) : (Key.ofIndex i).index = i := by
  apply BitVec.eq_of_getLsbD_eq
  intro j hj
  rw [Key.index, BitVec.getLsbD_setWidth, BitVec.getLsbD_ushiftRight, hashIdx i _ (by omega)]
  have h1 : ¬ (16 + j < 16) := by omega
  simp [hj, h1]

theorem Key.ofSub_index (i : BitVec 16) (s : BitVec 8) : (Key.ofSub i s).index = i := by
  apply BitVec.eq_of_getLsbD_eq
  intro j hj
  rw [Key.index, BitVec.getLsbD_setWidth, BitVec.getLsbD_ushiftRight, hashSub i s _ (by omega)]
  have h1 : ¬ (16 + j < 16) := by omega
  simp [hj, h1]

theorem Key.ofIndex_hasSub (i : BitVec 16) : (Key.ofIndex i).hasSub = false := by
  have : (Key.ofIndex i).hash &&& 0xFFFF#64 = 0xFFFF#64 := by
    apply BitVec.eq_of_getLsbD_eq
    intro j hj
    rw [BitVec.getLsbD_and, low16]
    by_cases h : j < 16
    · rw [hashIdx i j (by omega)]; simp [h]
    · simp [h]
  simp [Key.hasSub, this]

theorem Key.ofSub_low (i : BitVec 16) (s : BitVec 8) : (Key.ofSub i s).hash &&& 0xFFFF#64 = s.setWidth 64 := by
  apply BitVec.eq_of_getLsbD_eq
  intro j hj
  rw [BitVec.getLsbD_and, low16, BitVec.getLsbD_setWidth]
  by_cases h : j < 16
  · rw [hashSub i s j (by omega)]; simp [h, hj]
  · have : s.getLsbD j = false := BitVec.getLsbD_of_ge _ _ (by omega)
    simp [h, this]

theorem Key.ofSub_sub (i : BitVec 16) (s : BitVec 8) : (Key.ofSub i s).subIndex = s := by
  rw [Key.subIndex, Key.ofSub_low]
  simp

theorem Key.ofSub_hasSub (i : BitVec 16) (s : BitVec 8) : (Key.ofSub i s).hasSub = true := by
  rw [Key.hasSub, Key.ofSub_low]
  have : s.setWidth 64 ≠ 0xFFFF#64 := by
    intro h
    have := congrArg BitVec.toNat h
    simp at this
    have := s.isLt
    omega
  simp [this]

/-- model and specification agree on digits below 16 -/
theorem digitVal_eq (c : Char) (d b : Nat) (hb : b ≤ 16) : (digitVal c = some d ∧ d < b) ↔ (hexDigitVal c = some d ∧ d < b) := by
  rw [hexDigitVal_eq]
  unfold digitVal
  have h0 : '0'.toNat = 48 := rfl
  have h9 : '9'.toNat = 57 := rfl
  have ha : 'a'.toNat = 97 := rfl
  have hz : 'z'.toNat = 122 := rfl
  have hA : 'A'.toNat = 65 := rfl
  have hZ : 'Z'.toNat = 90 := rfl
  rw [h0, h9, ha, hz, hA, hZ]
  generalize c.toNat = n
  repeat' split
  all_goals first
    | (simp; done)
    | (simp; omega)
    | (simp; omega; done)

/-- the text ends a number -/
def Stops (r : Text) : Prop := ∀ c, r.head? = some c → hexDigitVal c = none ∧ c ≠ 'x' ∧ c ≠ 'X'

theorem stops_nil : Stops [] := by intro c h; simp at h

theorem scanDigits_eq (b : Nat) (hb : b ≤ 16) (s r : Text) (hs : ∀ c ∈ s, ∃ d, hexDigitVal c = some d ∧ d < b)
    (hr : ∀ c, r.head? = some c → ¬ ∃ d, hexDigitVal c = some d ∧ d < b) (acc : Nat) (any : Bool) :
    scanDigits b (s ++ r) acc any =
      (s.foldl (fun a c => b * a + (hexDigitVal c).getD 0) acc, any || !s.isEmpty, r) := by
  induction s generalizing acc any with
  | nil =>
    cases r with
    | nil => simp [scanDigits]
    | cons c r =>
      have := hr c rfl
      simp only [List.nil_append, scanDigits]
      cases hd : digitVal c with
      | none => simp
      | some d =>
        simp only
        rw [if_neg]
        · simp
        · intro hlt
          exact this ⟨d, (digitVal_eq c d b hb).1 ⟨hd, hlt⟩⟩
  | cons c s ih =>
    obtain ⟨d, hd, hlt⟩ := hs c (by simp)
    have hdv := ((digitVal_eq c d b hb).2 ⟨hd, hlt⟩).1
    simp only [List.cons_append, scanDigits, hdv, if_pos hlt]
    rw [ih (fun c hc => hs c (by simp [hc]))]
    simp [hd, Nat.mul_comm]

theorem digit_isHex {c : Char} {b : Nat} (h : ∃ d, hexDigitVal c = some d ∧ d < b) : IsHex c := by
  obtain ⟨d, hd, _⟩ := h; simp [IsHex, hd]

theorem stops_not (b : Nat) {r : Text} (h : Stops r) : ∀ c, r.head? = some c → ¬ ∃ d, hexDigitVal c = some d ∧ d < b := by
  intro c hc ⟨d, hd, _⟩
  rw [(h c hc).1] at hd; simp at hd

theorem scanfHex_numeral (s r : Text) (n : Nat) (h : HexNumeral s n) (hn : n < 2 ^ 64) (hr : Stops r) :
    scanfHex (s ++ r) = some (BitVec.ofNat 64 n, r) := by
  obtain ⟨hne, hx, hv⟩ := h
  cases s with
  | nil => exact absurd rfl hne
  | cons c s =>
    have hc := hx c (by simp)
    have hd : (c :: s ++ r).dropWhile isSpace = c :: s ++ r := by
      simp [isHex_not_space hc]
    have hm : c ≠ '-' := by rintro rfl; exact absurd hc (by decide)
    have hp : c ≠ '+' := by rintro rfl; exact absurd hc (by decide)
    have hx2 : ∀ d, (s ++ r).head? = some d → d ≠ 'x' ∧ d ≠ 'X' := by
      intro d hd
      cases s with
      | nil => exact (hr d hd).2
      | cons e s =>
        simp at hd; subst hd
        have := hx e (by simp)
        constructor <;> (rintro rfl; exact absurd this (by decide))
    have hs2 : takeSign (c :: s ++ r) = (false, c :: s ++ r) := by
      rw [List.cons_append]
      unfold takeSign
      split
      · rename_i h; simp at h; exact absurd h.1 hm
      · rename_i h; simp at h; exact absurd h.1 hp
      · rfl
    have hdig : ∀ c' ∈ c :: s, ∃ d, hexDigitVal c' = some d ∧ d < 16 := by
      intro c' hc'
      obtain ⟨v, hv'⟩ := Option.isSome_iff_exists.1 (hx c' hc')
      exact ⟨v, hv', hexDigitVal_lt hv'⟩
    have hscan := scanDigits_eq 16 (by decide) (c :: s) r hdig (stops_not 16 hr) 0 false
    have hv' : List.foldl (fun a c => 16 * a + (hexDigitVal c).getD 0) 0 (c :: s) = n := hv
    rw [hv'] at hscan
    unfold scanfHex
    simp only [hd, hs2]
    have hmatch : scanPref16 (c :: s ++ r) = (n, true, r) := by
      rw [List.cons_append]
      unfold scanPref16
      split
      · rename_i t h
        simp at h
        exact absurd rfl (hx2 'x' (by rw [h.2]; rfl)).1
      · rename_i t h
        simp at h
        exact absurd rfl (hx2 'X' (by rw [h.2]; rfl)).2
      · simpa using hscan
    rw [hmatch]
    have : ¬ (n ≥ 2 ^ 64) := by omega
    simp [this]

/-- magnitude of an unsigned literal followed by something that ends it -/
theorem strtoMag_unsigned (s r : Text) (n : Nat) (h : UnsignedLit s n) (hr : Stops r) :
    magnitude (s ++ r) = n := by
  unfold magnitude
  cases h with
  | dec hn h0 =>
    obtain ⟨hne, hx, hv⟩ := hn
    have hscan := scanDigits_eq 10 (by decide) s r hx (stops_not 10 hr) 0 false
    rw [hv] at hscan
    cases s with
    | nil => exact absurd rfl hne
    | cons c s =>
      have : c ≠ '0' := by intro hc; apply h0; simp [hc]
      split
      · rename_i t h; simp at h; exact absurd h.1 this
      · rename_i t h; simp at h; exact absurd h.1 this
      · rename_i t _ _ h; simp at h; exact absurd h.1 this
      · rw [hscan]
  | hex hn =>
    obtain ⟨hne, hx, hv⟩ := hn
    simp only [List.cons_append]
    rw [scanDigits_eq 16 (by decide) _ r hx (stops_not 16 hr) 0 false, hv]
  | heX hn =>
    obtain ⟨hne, hx, hv⟩ := hn
    simp only [List.cons_append]
    rw [scanDigits_eq 16 (by decide) _ r hx (stops_not 16 hr) 0 false, hv]
  | @oct s n hn =>
    obtain ⟨hne, hx, hv⟩ := hn
    cases s with
    | nil => exact absurd rfl hne
    | cons c s =>
      have hc := digit_isHex (hx c (by simp))
      have h1 : c ≠ 'x' := by rintro rfl; exact absurd hc (by decide)
      have h2 : c ≠ 'X' := by rintro rfl; exact absurd hc (by decide)
      simp only [List.cons_append]
      split
      · rename_i t h; simp at h; exact absurd h.1 h1
      · rename_i t h; simp at h; exact absurd h.1 h2
      · rename_i t _ _ h
        simp at h; subst h
        rw [← List.cons_append, scanDigits_eq 8 (by decide) _ r hx (stops_not 8 hr) 0 false, hv]
      · rename_i h; simp at h
  | zero =>
    simp only [List.cons_append, List.nil_append]
    split
    · rename_i t h; simp at h; exact absurd rfl (hr 'x' (by rw [h]; rfl)).2.1
    · rename_i t h; simp at h; exact absurd rfl (hr 'X' (by rw [h]; rfl)).2.2
    · rename_i t _ _ h
      simp at h; subst h
      have := scanDigits_eq 8 (by decide) [] r (by simp) (stops_not 8 hr) 0 false
      simp at this; rw [this]
    · rename_i h; simp at h

theorem unsigned_head (s : Text) (n : Nat) (h : UnsignedLit s n) : ∃ c r, s = c :: r ∧ IsHex c := by
  cases h with
  | dec hn _ =>
    obtain ⟨hne, hx, _⟩ := hn
    cases s with
    | nil => exact absurd rfl hne
    | cons c s => exact ⟨c, s, rfl, digit_isHex (hx c (by simp))⟩
  | hex _ => exact ⟨_, _, rfl, by decide⟩
  | heX _ => exact ⟨_, _, rfl, by decide⟩
  | oct _ => exact ⟨_, _, rfl, by decide⟩
  | zero => exact ⟨_, _, rfl, by decide⟩

theorem takeSign_plain (c : Char) (r : Text) (h : IsHex c) : takeSign (c :: r) = (false, c :: r) := by
  have hm : c ≠ '-' := by rintro rfl; exact absurd h (by decide)
  have hp : c ≠ '+' := by rintro rfl; exact absurd h (by decide)
  unfold takeSign
  split
  · rename_i h; simp at h; exact absurd h.1 hm
  · rename_i h; simp at h; exact absurd h.1 hp
  · rfl

theorem strtoMag_lit (s r : Text) (v : Int) (h : IntLit s v) (hr : Stops r) :
    (if (strtoMag (s ++ r)).1 then -((strtoMag (s ++ r)).2 : Int) else (strtoMag (s ++ r)).2) = v := by
  cases h with
  | @plain _ n h =>
    obtain ⟨c, s', rfl, hc⟩ := unsigned_head s n h
    have hd : (c :: s' ++ r).dropWhile isSpace = c :: s' ++ r := by simp [isHex_not_space hc]
    unfold strtoMag
    simp only [hd]
    rw [List.cons_append, takeSign_plain c _ hc]
    simp only [Bool.false_eq_true, if_false]
    have := strtoMag_unsigned _ r n h hr
    rw [List.cons_append] at this
    rw [this]
  | @minus s n h =>
    have hd : ('-' :: s ++ r).dropWhile isSpace = '-' :: (s ++ r) := by
      rw [List.cons_append, List.dropWhile_cons_of_neg (by decide)]
    unfold strtoMag
    simp only [hd, takeSign, if_true]
    rw [strtoMag_unsigned _ r n h hr]
  | @plus s n h =>
    have hd : ('+' :: s ++ r).dropWhile isSpace = '+' :: (s ++ r) := by
      rw [List.cons_append, List.dropWhile_cons_of_neg (by decide)]
    unfold strtoMag
    simp only [hd, takeSign, Bool.false_eq_true, if_false]
    rw [strtoMag_unsigned _ r n h hr]

theorem width_cases (t : IntTy) : 0 < t.width ∧ t.width ≤ 64 := by
  cases t <;> decide

/-- the main numeric fact: a literal with a value of the type reads as that value -/
theorem intFromString_lit (t : IntTy) (s r : Text) (v : Int) (h : IntLit s v) (hf : FitsTy t v) (hr : Stops r) :
    intFromString t (s ++ r) = BitVec.ofInt t.width v := by
  have hm := strtoMag_lit s r v h hr
  unfold intFromString
  unfold FitsTy at hf
  have hw := width_cases t
  have hp1 : (2 : Int) ^ (t.width - 1) ≤ 2 ^ 63 := by
    have : (2 : Nat) ^ (t.width - 1) ≤ 2 ^ 63 := Nat.pow_le_pow_right (by decide) (by omega)
    exact_mod_cast this
  have hp2 : (2 : Int) ^ t.width ≤ 2 ^ 64 := by
    have : (2 : Nat) ^ t.width ≤ 2 ^ 64 := Nat.pow_le_pow_right (by decide) (by omega)
    exact_mod_cast this
  by_cases hs : t.signed = true
  · rw [if_pos hs] at hf ⊢
    congr 1
    unfold strtol
    simp only [hm]
    rw [if_neg (by omega), if_neg (by omega)]
  · rw [if_neg hs] at hf ⊢
    unfold strtoul
    generalize strtoMag (s ++ r) = m at hm
    obtain ⟨neg, n⟩ := m
    simp only at hm ⊢
    have key : ∀ n : Nat, (n : Int) = v → (BitVec.ofNat 64 n).setWidth t.width = BitVec.ofInt t.width v := by
      intro n hv
      rw [← hv, BitVec.ofInt_natCast]
      apply BitVec.eq_of_toNat_eq
      simp
      congr 1
      omega
    cases neg with
    | true =>
      simp only [if_true] at hm
      have : n = 0 := by omega
      subst this
      simp at hm
      subst hm
      simp
    | false =>
      simp only [Bool.false_eq_true, if_false] at hm ⊢
      rw [if_neg (by omega)]
      exact key n hm

/-- any literal, fitting or not: what is left of it in 64 bits, truncated to the type -/
theorem intFromString_any (t : IntTy) (s r : Text) (v : Int) (h : IntLit s v) (hr : Stops r) :
    intFromString t (s ++ r) = BitVec.ofInt t.width (in64 t.signed v) := by
  have hm := strtoMag_lit s r v h hr
  unfold intFromString in64
  have hw := width_cases t
  by_cases hs : t.signed = true
  · rw [if_pos hs, if_pos hs]
    congr 1
    unfold strtol
    simp only [hm]
    split
    · omega
    · split <;> omega
  · rw [if_neg hs, if_neg hs]
    unfold strtoul
    generalize strtoMag (s ++ r) = m at hm
    obtain ⟨neg, n⟩ := m
    simp only at hm ⊢
    have cut : ∀ (x : BitVec 64) (z : Int), x = BitVec.ofInt 64 z → x.setWidth t.width = BitVec.ofInt t.width z := by
      intro x z hx
      subst hx
      apply BitVec.eq_of_toNat_eq
      rw [BitVec.toNat_setWidth, BitVec.toNat_ofInt, BitVec.toNat_ofInt]
      have hd : ((2 ^ t.width : Nat) : Int) ∣ ((2 ^ 64 : Nat) : Int) := Int.natCast_dvd_natCast.mpr (Nat.pow_dvd_pow 2 hw.2)
      have h64 : 0 ≤ z % ((2 ^ 64 : Nat) : Int) := Int.emod_nonneg z (by omega)
      have hp : 0 < 2 ^ t.width := Nat.pos_of_ne_zero (by simp)
      have hnn : 0 ≤ z % ((2 ^ t.width : Nat) : Int) := Int.emod_nonneg z (by omega)
      have e := Int.emod_emod_of_dvd z hd
      apply Int.ofNat.inj
      show (((z % ((2 ^ 64 : Nat) : Int)).toNat % 2 ^ t.width : Nat) : Int) = ((z % ((2 ^ t.width : Nat) : Int)).toNat : Int)
      rw [Int.natCast_emod, Int.toNat_of_nonneg h64, Int.toNat_of_nonneg hnn, e]
    apply cut
    by_cases hn : n ≥ 2 ^ 64
    · rw [if_pos hn, if_neg (by cases neg <;> simp at hm <;> omega)]
      decide
    · rw [if_neg hn]
      cases neg with
      | true =>
        simp only [if_true] at hm ⊢
        rw [if_pos (by omega), ← hm, BitVec.ofInt_neg, BitVec.ofInt_natCast]
      | false =>
        simp only [Bool.false_eq_true, if_false] at hm ⊢
        rw [if_pos (by omega), ← hm, BitVec.ofInt_natCast]

/-! ### trimming -/

theorem blank_space {s : Text} (h : Blank s) : ∀ c ∈ s, isSpace c = true := by
  intro c hc
  rcases h c hc with rfl | rfl | rfl | rfl <;> decide

theorem dropWhile_blank (a s : Text) (ha : ∀ c ∈ a, isSpace c = true) (hs : ∀ c, s.head? = some c → isSpace c = false) :
    (a ++ s).dropWhile isSpace = s := by
  induction a with
  | nil =>
    cases s with
    | nil => rfl
    | cons c s => simp [hs c rfl]
  | cons c a ih =>
    rw [List.cons_append, List.dropWhile_cons_of_pos (ha c (by simp))]
    exact ih (fun c hc => ha c (by simp [hc]))

theorem trim_eq (a s b : Text) (ha : ∀ c ∈ a, isSpace c = true) (hb : ∀ c ∈ b, isSpace c = true)
    (h1 : ∀ c, s.head? = some c → isSpace c = false) (h2 : ∀ c, s.getLast? = some c → isSpace c = false) (hne : s ≠ []) :
    trim (a ++ s ++ b) = s := by
  unfold trim
  rw [List.append_assoc, dropWhile_blank a (s ++ b) ha]
  · rw [List.reverse_append, dropWhile_blank b.reverse s.reverse]
    · simp
    · intro c hc; exact hb c (by simpa using hc)
    · intro c hc; apply h2; rw [List.head?_reverse] at hc; exact hc
  · intro c hc
    cases s with
    | nil => exact absurd rfl hne
    | cons d s => apply h1; simpa using hc

theorem numeral_hex {b : Nat} {s : Text} {n : Nat} (h : Numeral b s n) : ∀ c ∈ s, IsHex c :=
  fun c hc => digit_isHex (h.2.1 c hc)

/-- every character of a literal -/
theorem lit_chars (s : Text) (v : Int) (h : IntLit s v) : ∀ c ∈ s, IsHex c ∨ c = 'x' ∨ c = 'X' ∨ c = '-' ∨ c = '+' := by
  have hu : ∀ s n, UnsignedLit s n → ∀ c ∈ s, IsHex c ∨ c = 'x' ∨ c = 'X' := by
    intro s n h c hc
    cases h with
    | dec h _ => exact Or.inl (numeral_hex h c hc)
    | hex h =>
      simp only [List.mem_cons] at hc
      rcases hc with rfl | rfl | hc
      · exact Or.inl (by decide)
      · simp
      · exact Or.inl (numeral_hex h c hc)
    | heX h =>
      simp only [List.mem_cons] at hc
      rcases hc with rfl | rfl | hc
      · exact Or.inl (by decide)
      · simp
      · exact Or.inl (numeral_hex h c hc)
    | oct h =>
      simp only [List.mem_cons] at hc
      rcases hc with rfl | hc
      · exact Or.inl (by decide)
      · exact Or.inl (numeral_hex h c hc)
    | zero =>
      simp only [List.mem_singleton] at hc
      subst hc; exact Or.inl (by decide)
  intro c hc
  cases h with
  | plain h => rcases hu _ _ h c hc with h | h | h <;> simp [h]
  | minus h =>
    simp only [List.mem_cons] at hc
    rcases hc with rfl | hc
    · simp
    · rcases hu _ _ h c hc with h | h | h <;> simp [h]
  | plus h =>
    simp only [List.mem_cons] at hc
    rcases hc with rfl | hc
    · simp
    · rcases hu _ _ h c hc with h | h | h <;> simp [h]

theorem lit_ne_nil (s : Text) (v : Int) (h : IntLit s v) : s ≠ [] := by
  cases h with
  | plain h => obtain ⟨c, r, rfl, _⟩ := unsigned_head _ _ h; simp
  | minus h => simp
  | plus h => simp

theorem litChar_facts {c : Char} (h : IsHex c ∨ c = 'x' ∨ c = 'X' ∨ c = '-' ∨ c = '+') : isSpace c = false ∧ c.toLower ≠ '$' := by
  rcases h with h | rfl | rfl | rfl | rfl
  · refine ⟨isHex_not_space h, ?_⟩
    intro hc
    have : c = '$' := by
      unfold Char.toLower at hc
      split at hc
      · rename_i hr
        exfalso
        have h1 := congrArg Char.toNat hc
        simp only [Char.toNat] at h1
        have h2 : ('$' : Char).val.toNat = 36 := rfl
        rw [h2] at h1
        have h3 : (65 : UInt32) ≤ c.val := hr.1
        have h4 : c.val ≤ 90 := hr.2
        have h5 : 65 ≤ c.val.toNat := h3
        have h6 : c.val.toNat ≤ 90 := h4
        have : (c.val + 32).toNat = c.val.toNat + 32 := by
          rw [UInt32.toNat_add]
          have : (32 : UInt32).toNat = 32 := rfl
          rw [this]; omega
        have h7 : (c.val + ('a'.val - 'A'.val)) = c.val + 32 := rfl
        rw [h7, this] at h1
        omega
      · exact hc
    subst this
    exact absurd h (by decide)
  all_goals exact ⟨by decide, by decide⟩

theorem lit_space (s : Text) (v : Int) (h : IntLit s v) : ∀ c ∈ s, isSpace c = false :=
  fun c hc => (litChar_facts (lit_chars s v h c hc)).1

theorem trim_lit (a s b : Text) (v : Int) (ha : Blank a) (hb : Blank b) (h : IntLit s v) : trim (a ++ s ++ b) = s :=
  trim_eq a s b (blank_space ha) (blank_space hb)
    (fun c hc => lit_space s v h c (List.mem_of_mem_head? hc))
    (fun c hc => lit_space s v h c (List.mem_of_mem_getLast? hc)) (lit_ne_nil s v h)

theorem not_starts (s r : Text) (v : Int) (h : IntLit s v) : istartsWith (s ++ r) nodeIdText = false := by
  have hne := lit_ne_nil s v h
  cases s with
  | nil => exact absurd rfl hne
  | cons c s =>
    have hc := (litChar_facts (lit_chars _ v h c (by simp))).2
    simp only [istartsWith, decide_eq_false_iff_not, List.cons_append]
    intro he
    have hlen : nodeIdText.length = 6 + 1 := by decide
    rw [hlen, List.take_succ_cons] at he
    have h2 : lower nodeIdText = '$' :: "nodeid".toList := by decide
    rw [h2] at he
    simp only [lower, List.map_cons] at he
    injection he with h3 _
    exact hc h3

theorem not_ends (s : Text) (v : Int) (h : IntLit s v) : iendsWith s nodeIdText = false := by
  simp only [iendsWith, decide_eq_false_iff_not]
  rintro ⟨_, he⟩
  have h2 : '$' ∈ lower nodeIdText := by decide
  rw [← he] at h2
  simp only [lower, List.mem_map] at h2
  obtain ⟨c, hc, h3⟩ := h2
  exact (litChar_facts (lit_chars s v h c (List.mem_of_mem_drop hc))).2 h3

theorem word_length {w : Text} (h : IsNodeIdWord w) : w.length = 7 := by
  have := congrArg List.length h
  simpa using this

theorem idxOf_skip (a b : Text) (h : '+' ∉ a) : (a ++ '+' :: b).idxOf '+' = a.length := by
  induction a with
  | nil => simp
  | cons c a ih =>
    simp only [List.mem_cons, not_or] at h
    have hc : (c == '+') = false := by simpa using fun hc => h.1 hc.symm
    rw [List.cons_append, List.idxOf_cons, hc, ih h.2]
    rfl

theorem blank_no_plus {s : Text} (h : Blank s) : '+' ∉ s := by
  intro hc
  rcases h _ hc with h | h | h | h <;> exact absurd h (by decide)

theorem word_head {w : Text} (h : IsNodeIdWord w) : ∃ r, w = '$' :: r := by
  unfold IsNodeIdWord at h
  cases w with
  | nil => simp at h
  | cons c w =>
    refine ⟨w, ?_⟩
    simp only [List.map_cons] at h
    have h2 : "$nodeid".toList = '$' :: "nodeid".toList := by decide
    rw [h2] at h
    injection h with h3 _
    by_cases hx : IsHex c
    · exact absurd h3 (litChar_facts (Or.inl hx)).2
    · congr 1
      unfold Char.toLower at h3
      split at h3
      · rename_i hr
        exfalso
        have h1 := congrArg Char.toNat h3
        simp only [Char.toNat] at h1
        have h2 : ('$' : Char).val.toNat = 36 := rfl
        rw [h2] at h1
        have h5 : 65 ≤ c.val.toNat := hr.1
        have h6 : c.val.toNat ≤ 90 := hr.2
        have h8 : (c.val + 32).toNat = c.val.toNat + 32 := by
          rw [UInt32.toNat_add]
          have : (32 : UInt32).toNat = 32 := rfl
          rw [this]; omega
        have h7 : (c.val + ('a'.val - 'A'.val)) = c.val + 32 := rfl
        rw [h7, h8] at h1
        omega
      · exact h3

theorem word_no_space {w : Text} (h : IsNodeIdWord w) : ∀ c ∈ w, isSpace c = false := by
  intro c hc
  cases hs : isSpace c with
  | false => rfl
  | true =>
    exfalso
    have hm : c.toLower ∈ w.map Char.toLower := List.mem_map_of_mem hc
    rw [h] at hm
    simp only [isSpace, Bool.or_eq_true, decide_eq_true_eq] at hs
    have key : ∀ d : Char, d.toNat = c.toNat → d = c := fun d hd => Char.ext (UInt32.toNat_inj.1 hd)
    rcases hs with ((((rfl | rfl) | rfl) | h1) | h1) | rfl
    · exact absurd hm (by decide)
    · exact absurd hm (by decide)
    · exact absurd hm (by decide)
    · have := key (Char.ofNat 11) (by rw [h1]; rfl); subst this; exact absurd hm (by decide)
    · have := key (Char.ofNat 12) (by rw [h1]; rfl); subst this; exact absurd hm (by decide)
    · exact absurd hm (by decide)

/-- `$NODEID+literal` -/
theorem parseInt_prefix (t : IntTy) (a w b1 b2 s b : Text) (v : Int) (ha : Blank a) (hb : Blank b) (h1 : Blank b1) (h2 : Blank b2)
    (hw : IsNodeIdWord w) (h : IntLit s v) (hf : FitsTy t v) :
    parseInt t (some (a ++ (w ++ b1 ++ '+' :: b2 ++ s) ++ b)) = .val (.offset t (BitVec.ofInt t.width v)) := by
  have htrim : trim (a ++ (w ++ b1 ++ '+' :: b2 ++ s) ++ b) = w ++ b1 ++ '+' :: b2 ++ s := by
    apply trim_eq _ _ _ (blank_space ha) (blank_space hb)
    · intro c hc
      obtain ⟨r, rfl⟩ := word_head hw
      simp at hc; subst hc; decide
    · intro c hc
      rw [List.getLast?_append, Option.or_eq_some_iff] at hc
      have hne := lit_ne_nil s v h
      rcases hc with hc | ⟨hn, _⟩
      · exact lit_space s v h c (List.mem_of_mem_getLast? hc)
      · exact absurd (List.getLast?_eq_none_iff.1 hn) hne
    · simp
  have hst : istartsWith (w ++ b1 ++ '+' :: b2 ++ s) nodeIdText = true := by
    have hl := word_length hw
    have hlen : nodeIdText.length = w.length := by rw [hl]; decide
    simp only [istartsWith, decide_eq_true_eq, List.append_assoc]
    rw [hlen, List.take_left]
    exact hw
  have hfind : findPlus (w ++ b1 ++ '+' :: b2 ++ s) 7 = some (7 + b1.length) := by
    have hl := word_length hw
    have hdrop : (w ++ b1 ++ '+' :: b2 ++ s).drop 7 = b1 ++ '+' :: (b2 ++ s) := by
      rw [← hl]; simp
    unfold findPlus
    rw [hdrop, idxOf_skip _ _ (blank_no_plus h1)]
    simp
  have hdrop2 : (w ++ b1 ++ '+' :: b2 ++ s).drop (7 + b1.length + 1) = b2 ++ s := by
    have hl := word_length hw
    have e : w ++ b1 ++ '+' :: b2 ++ s = (w ++ b1 ++ ['+']) ++ (b2 ++ s) := by simp
    rw [e, List.drop_append_of_le_length (by simp; omega), List.drop_of_length_le (by simp; omega)]
    simp
  unfold parseInt
  simp only [htrim, hst, if_true, hfind, succPos, hdrop2]
  have : trim (b2 ++ s) = s := by
    have := trim_lit b2 s [] v h2 (by intro c hc; simp at hc) h
    simpa using this
  rw [this]
  have hlit := intFromString_lit t s [] v h hf stops_nil
  rw [List.append_nil] at hlit
  rw [hlit]

/-- `literal+$NODEID` -/
theorem parseInt_suffix (t : IntTy) (a w b1 b2 s b : Text) (v : Int) (ha : Blank a) (hb : Blank b) (h1 : Blank b1) (_h2 : Blank b2)
    (hw : IsNodeIdWord w) (h : IntLit s v) (hp : s.head? ≠ some '+') (hf : FitsTy t v) :
    parseInt t (some (a ++ (s ++ b1 ++ '+' :: b2 ++ w) ++ b)) = .val (.offset t (BitVec.ofInt t.width v)) := by
  have hwl := word_length hw
  have htrim : trim (a ++ (s ++ b1 ++ '+' :: b2 ++ w) ++ b) = s ++ b1 ++ '+' :: b2 ++ w := by
    apply trim_eq _ _ _ (blank_space ha) (blank_space hb)
    · intro c hc
      cases s with
      | nil => exact absurd rfl (lit_ne_nil _ v h)
      | cons d s => simp at hc; subst hc; exact lit_space _ v h d (by simp)
    · intro c hc
      rw [List.getLast?_append, Option.or_eq_some_iff] at hc
      rcases hc with hc | ⟨hn, _⟩
      · exact word_no_space hw c (List.mem_of_mem_getLast? hc)
      · have := List.getLast?_eq_none_iff.1 hn
        subst this; simp at hwl
    · simp
  have hst : istartsWith (s ++ b1 ++ '+' :: b2 ++ w) nodeIdText = false := by
    have := not_starts s (b1 ++ '+' :: b2 ++ w) v h
    simpa using this
  have hnd : iendsWith (s ++ b1 ++ '+' :: b2 ++ w) nodeIdText = true := by
    have hlen : nodeIdText.length = w.length := by rw [hwl]; decide
    simp only [iendsWith, decide_eq_true_eq]
    refine ⟨by rw [hlen]; simp; omega, ?_⟩
    have : (s ++ b1 ++ '+' :: b2 ++ w).drop ((s ++ b1 ++ '+' :: b2 ++ w).length - nodeIdText.length) = w := by
      rw [hlen, List.length_append, Nat.add_sub_cancel, List.drop_left]
    rw [this]; exact hw
  have hplus : '+' ∉ s ++ b1 := by
    rw [List.mem_append]
    rintro (hm | hm)
    · -- '+' only as first character of a literal
      have hu : ∀ s n, UnsignedLit s n → '+' ∉ s := by
        intro s n h hm
        have : ∀ c ∈ s, IsHex c ∨ c = 'x' ∨ c = 'X' := by
          intro c hc
          cases h with
          | dec h _ => exact Or.inl (numeral_hex h c hc)
          | hex h =>
            simp only [List.mem_cons] at hc
            rcases hc with rfl | rfl | hc
            · exact Or.inl (by decide)
            · simp
            · exact Or.inl (numeral_hex h c hc)
          | heX h =>
            simp only [List.mem_cons] at hc
            rcases hc with rfl | rfl | hc
            · exact Or.inl (by decide)
            · simp
            · exact Or.inl (numeral_hex h c hc)
          | oct h =>
            simp only [List.mem_cons] at hc
            rcases hc with rfl | hc
            · exact Or.inl (by decide)
            · exact Or.inl (numeral_hex h c hc)
          | zero =>
            simp only [List.mem_singleton] at hc
            subst hc; exact Or.inl (by decide)
        rcases this _ hm with h | h | h <;> exact absurd h (by decide)
      cases h with
      | plain h => exact hu _ _ h hm
      | minus h =>
        simp only [List.mem_cons] at hm
        rcases hm with hm | hm
        · exact absurd hm (by decide)
        · exact hu _ _ h hm
      | plus h => exact hp rfl
    · exact blank_no_plus h1 hm
  have hfind : findPlus (s ++ b1 ++ '+' :: b2 ++ w) 0 = some (s ++ b1).length := by
    unfold findPlus
    have : (s ++ b1 ++ '+' :: b2 ++ w) = (s ++ b1) ++ '+' :: (b2 ++ w) := by simp
    rw [List.drop_zero, this, idxOf_skip _ _ hplus]
    simp
  have htake : (s ++ b1 ++ '+' :: b2 ++ w).take ((s ++ b1).length + 1) = s ++ b1 ++ ['+'] := by
    have e : s ++ b1 ++ '+' :: b2 ++ w = (s ++ b1 ++ ['+']) ++ (b2 ++ w) := by simp
    rw [e]
    apply List.take_left'
    simp
    omega
  unfold parseInt
  simp only [htrim, hst, hnd, if_true, Bool.false_eq_true, if_false, hfind, succPos, htake]
  have ht : trim (s ++ b1 ++ ['+']) = s ++ (b1 ++ ['+']) := by
    have := trim_eq [] (s ++ b1 ++ ['+']) [] (by simp) (by simp) (by
        intro c hc
        cases s with
        | nil => exact absurd rfl (lit_ne_nil _ v h)
        | cons d s => simp at hc; subst hc; exact lit_space _ v h d (by simp)) (by
        intro c hc; simp at hc; subst hc; decide) (by simp)
    simpa using this
  rw [ht]
  rw [intFromString_lit t s (b1 ++ ['+']) v h hf]
  intro c hc
  cases b1 with
  | nil => simp at hc; subst hc; exact ⟨by decide, by decide, by decide⟩
  | cons d b1 =>
    simp at hc; subst hc
    rcases h1 d (by simp) with rfl | rfl | rfl | rfl <;> exact ⟨by decide, by decide, by decide⟩

theorem lit_no_plus (s : Text) (v : Int) (h : IntLit s v) (hp : s.head? ≠ some '+') : '+' ∉ s := by
  have hu : ∀ s n, UnsignedLit s n → '+' ∉ s := by
    intro s n h hm
    have : ∀ c ∈ s, IsHex c ∨ c = 'x' ∨ c = 'X' := by
      intro c hc
      cases h with
      | dec h _ => exact Or.inl (numeral_hex h c hc)
      | hex h =>
        simp only [List.mem_cons] at hc
        rcases hc with rfl | rfl | hc
        · exact Or.inl (by decide)
        · simp
        · exact Or.inl (numeral_hex h c hc)
      | heX h =>
        simp only [List.mem_cons] at hc
        rcases hc with rfl | rfl | hc
        · exact Or.inl (by decide)
        · simp
        · exact Or.inl (numeral_hex h c hc)
      | oct h =>
        simp only [List.mem_cons] at hc
        rcases hc with rfl | hc
        · exact Or.inl (by decide)
        · exact Or.inl (numeral_hex h c hc)
      | zero =>
        simp only [List.mem_singleton] at hc
        subst hc; exact Or.inl (by decide)
    rcases this _ hm with h | h | h <;> exact absurd h (by decide)
  intro hm
  cases h with
  | plain h => exact hu _ _ h hm
  | minus h =>
    simp only [List.mem_cons] at hm
    rcases hm with hm | hm
    · exact absurd hm (by decide)
    · exact hu _ _ h hm
  | plus h => exact hp rfl

theorem word_no_plus {w : Text} (h : IsNodeIdWord w) : '+' ∉ w := by
  intro hc
  have hm : ('+' : Char).toLower ∈ w.map Char.toLower := List.mem_map_of_mem hc
  rw [h] at hm
  exact absurd hm (by decide)

theorem findPlus_none (s : Text) (n : Nat) (h : '+' ∉ s.drop n) : findPlus s n = none := by
  unfold findPlus
  rw [List.idxOf_eq_length h, if_neg (by omega)]

theorem intFromString_zero (t : IntTy) (s : Text) (h : strtoMag s = (false, 0)) : intFromString t s = 0 := by
  unfold intFromString strtol strtoul
  rw [h]
  cases t <;> decide

/-- `$NODEID` alone -/
theorem parseInt_bare (t : IntTy) (a w b : Text) (ha : Blank a) (hb : Blank b) (hw : IsNodeIdWord w) :
    parseInt t (some (a ++ w ++ b)) = .val (.offset t 0) := by
  have hl := word_length hw
  obtain ⟨r, rfl⟩ := word_head hw
  have htrim : ∀ a b : Text, Blank a → Blank b → trim (a ++ ('$' :: r) ++ b) = '$' :: r := by
    intro a b ha hb
    apply trim_eq _ _ _ (blank_space ha) (blank_space hb)
    · intro c hc; simp at hc; subst hc; decide
    · intro c hc; exact word_no_space hw c (List.mem_of_mem_getLast? hc)
    · simp
  have hst : istartsWith ('$' :: r) nodeIdText = true := by
    have hlen : nodeIdText.length = ('$' :: r).length := by rw [hl]; decide
    simp only [istartsWith, decide_eq_true_eq]
    rw [hlen, List.take_length]
    exact hw
  unfold parseInt
  simp only [htrim a b ha hb, hst, if_true, findPlus_none _ 7 (fun h => word_no_plus hw (List.mem_of_mem_drop h)), succPos, List.drop_zero]
  have h0 := htrim [] [] (by intro c hc; simp at hc) (by intro c hc; simp at hc)
  rw [List.nil_append, List.append_nil] at h0
  rw [h0, intFromString_zero]
  rfl

/-- `literal $NODEID` without a plus sign -/
theorem parseInt_unjoined (t : IntTy) (a s b1 w b : Text) (v : Int) (ha : Blank a) (hb : Blank b) (h1 : Blank b1) (hw : IsNodeIdWord w)
    (h : IntLit s v) (hp : s.head? ≠ some '+') : parseInt t (some (a ++ (s ++ b1 ++ w) ++ b)) = .val (.offset t 0) := by
  have hwl := word_length hw
  have htrim : trim (a ++ (s ++ b1 ++ w) ++ b) = s ++ b1 ++ w := by
    apply trim_eq _ _ _ (blank_space ha) (blank_space hb)
    · intro c hc
      cases s with
      | nil => exact absurd rfl (lit_ne_nil _ v h)
      | cons d s => simp at hc; subst hc; exact lit_space _ v h d (by simp)
    · intro c hc
      rw [List.getLast?_append, Option.or_eq_some_iff] at hc
      rcases hc with hc | ⟨hn, _⟩
      · exact word_no_space hw c (List.mem_of_mem_getLast? hc)
      · have := List.getLast?_eq_none_iff.1 hn
        subst this; simp at hwl
    · intro hx
      have := congrArg List.length hx
      rw [List.length_append, List.length_nil] at this
      omega
  have hst : istartsWith (s ++ b1 ++ w) nodeIdText = false := by
    have := not_starts s (b1 ++ w) v h
    simpa using this
  have hnd : iendsWith (s ++ b1 ++ w) nodeIdText = true := by
    have hlen : nodeIdText.length = w.length := by rw [hwl]; decide
    simp only [iendsWith, decide_eq_true_eq]
    refine ⟨by rw [hlen]; simp; omega, ?_⟩
    have : (s ++ b1 ++ w).drop ((s ++ b1 ++ w).length - nodeIdText.length) = w := by
      rw [hlen, List.length_append, Nat.add_sub_cancel, List.drop_left]
    rw [this]; exact hw
  have hplus : '+' ∉ s ++ b1 ++ w := by
    rw [List.mem_append, List.mem_append]
    rintro ((hm | hm) | hm)
    · exact lit_no_plus s v h hp hm
    · exact blank_no_plus h1 hm
    · exact word_no_plus hw hm
  unfold parseInt
  simp only [htrim, hst, hnd, if_true, Bool.false_eq_true, if_false, findPlus_none _ 0 (by rw [List.drop_zero]; exact hplus), succPos, List.take_zero]
  rw [intFromString_zero t (trim []) (by decide)]

/-- a plain literal -/
theorem parseInt_plain (t : IntTy) (a s b : Text) (v : Int) (ha : Blank a) (hb : Blank b) (h : IntLit s v) (hf : FitsTy t v) :
    parseInt t (some (a ++ s ++ b)) = .val (.int t (BitVec.ofInt t.width v)) := by
  have hs := not_starts s [] v h
  rw [List.append_nil] at hs
  unfold parseInt
  simp only [trim_lit a s b v ha hb h, hs, not_ends s v h, Bool.false_eq_true, if_false]
  have hlit := intFromString_lit t s [] v h hf stops_nil
  rw [List.append_nil] at hlit
  rw [hlit]

theorem intValue_ofInt (t : IntTy) (v : Int) (hf : FitsTy t v) : intValue t (BitVec.ofInt t.width v) = v := by
  unfold FitsTy at hf
  unfold intValue
  have hw := width_cases t
  split at hf
  · rename_i hs
    rw [if_pos hs, BitVec.toInt_ofInt]
    apply Int.bmod_eq_of_le
    · have : (2 : Int) ^ t.width = 2 * 2 ^ (t.width - 1) := by
        rw [← Int.pow_succ']; congr 1; omega
      have e : ((2 ^ t.width : Nat) : Int) = (2 : Int) ^ t.width := by push_cast; rfl
      rw [e, this]; omega
    · have : (2 : Int) ^ t.width = 2 * 2 ^ (t.width - 1) := by
        rw [← Int.pow_succ']; congr 1; omega
      have e : ((2 ^ t.width : Nat) : Int) = (2 : Int) ^ t.width := by push_cast; rfl
      rw [e, this]; omega
  · rename_i hs
    rw [if_neg hs, BitVec.toNat_ofInt]
    have e : ((2 ^ t.width : Nat) : Int) = (2 : Int) ^ t.width := by push_cast; rfl
    rw [e, Int.emod_eq_of_lt hf.1 hf.2]
    omega

end Verif.OD
