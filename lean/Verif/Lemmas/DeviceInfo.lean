import Verif.Spec.DeviceInfo
import Verif.Lemmas.Dict

namespace Verif.OD.DInfo
open Verif Verif.OD Verif.Txt Verif.Spec Verif.Spec.Info

theorem lookup_says (sec : List (Text × Text)) (key : String) (s : Text) (h : Says sec key s) : lookup sec key.toList = some s := by
  obtain ⟨l, k, r, rfl, h1, h2⟩ := h
  unfold lookup lower
  rw [List.find?_append]
  have : l.find? (fun p => decide (p.1.map Char.toLower = key.toList.map Char.toLower)) = none := by
    rw [List.find?_eq_none]
    intro p hp
    have := h2 p hp
    unfold SameName at this
    simpa using this
  rw [this, Option.none_or, List.find?_cons_of_pos (by unfold SameName at h1; simpa using h1)]
  rfl

theorem lookup_silent (sec : List (Text × Text)) (key : String) (h : Silent sec key) : lookup sec key.toList = none := by
  unfold lookup lower
  rw [Option.map_eq_none_iff, List.find?_eq_none]
  intro p hp
  have := h p hp
  unfold SameName at this
  simpa using this

theorem info_blank_space (b : Text) (h : Blank b) : b.all isSpace = true := by
  rw [List.all_eq_true]
  intro c hc
  rcases h c hc with rfl | rfl | rfl | rfl <;> decide

theorem blank_drop (a s : Text) (h : Blank a) (hs : ∀ c, s.head? = some c → isSpace c = false) : (a ++ s).dropWhile isSpace = s := by
  induction a with
  | nil =>
    cases s with
    | nil => rfl
    | cons c s => rw [List.nil_append, List.dropWhile_cons_of_neg (by rw [hs c rfl]; simp)]
  | cons c a ih =>
    have : isSpace c = true := by
      have := info_blank_space [c] (fun x hx => h x (by simp at hx; simp [hx]))
      simpa using this
    rw [List.cons_append, List.dropWhile_cons_of_pos this]
    exact ih (fun x hx => h x (List.mem_cons_of_mem _ hx))

theorem digit_char (c : Char) (d : Nat) (h : hexDigitVal c = some d) : isSpace c = false ∧ c ≠ '-' ∧ c ≠ '+' := by
  have h : (hexDigitVal c).isSome = true := by rw [h]; rfl
  refine ⟨?_, ?_, ?_⟩
  · cases hx : isSpace c with
    | false => rfl
    | true =>
      have : c = ' ' ∨ c = '\t' ∨ c = '\n' ∨ c.toNat = 11 ∨ c.toNat = 12 ∨ c = '\r' := by
        simpa [isSpace, or_assoc] using hx
      exfalso
      rcases this with rfl | rfl | rfl | h1 | h1 | rfl
      · exact absurd h (by decide)
      · exact absurd h (by decide)
      · exact absurd h (by decide)
      · rw [← Char.ofNat_toNat c, h1] at h; exact absurd h (by decide)
      · rw [← Char.ofNat_toNat c, h1] at h; exact absurd h (by decide)
      · exact absurd h (by decide)
  · rintro rfl; exact absurd h (by decide)
  · rintro rfl; exact absurd h (by decide)

theorem info_takeSign_plain (s : Text) (h : ∀ c, s.head? = some c → c ≠ '-' ∧ c ≠ '+') : takeSign s = (false, s) := by
  cases s with
  | nil => rfl
  | cons c s =>
    obtain ⟨h1, h2⟩ := h c rfl
    unfold takeSign
    split
    · rename_i e; cases e; exact absurd rfl h1
    · rename_i e; cases e; exact absurd rfl h2
    · rfl

theorem blank_stops (b : Text) (h : Blank b) (c : Char) (hc : b.head? = some c) (base : Nat) : ¬ ∃ d, hexDigitVal c = some d ∧ d < base := by
  rintro ⟨d, hd, -⟩
  cases b with
  | nil => cases hc
  | cons x b =>
    cases hc
    have := (digit_char c d hd).1
    rcases h c List.mem_cons_self with rfl | rfl | rfl | rfl <;> exact absurd this (by decide)

theorem streamDec_plain (a d b : Text) (n : Nat) (ha : Blank a) (hb : Blank b) (hd : Numeral 10 d n) : streamDec (a ++ d ++ b) = (false, n, true, b) := by
  obtain ⟨h1, h2, h3⟩ := hd
  obtain ⟨c, d', rfl⟩ : ∃ c d', d = c :: d' := by cases d with
    | nil => exact absurd rfl h1
    | cons c d => exact ⟨c, d, rfl⟩
  obtain ⟨x, hx, -⟩ := h2 c List.mem_cons_self
  obtain ⟨g1, g2, g3⟩ := digit_char c x hx
  unfold streamDec
  rw [List.append_assoc, blank_drop a _ ha (by intro y hy; cases hy; exact g1)]
  rw [info_takeSign_plain _ (by intro y hy; cases hy; exact ⟨g2, g3⟩)]
  dsimp only
  rw [scanDigits_eq 10 (by omega) (c :: d') b h2 (fun y hy => blank_stops b hb y hy 10) 0 false, h3]
  rfl

theorem readUnsigned_plain (w : Nat) (s : Text) (n : Nat) (h : Plain s n) (hn : n < 2 ^ w) : ∃ v, readUnsigned w s = some v ∧ v.toNat = n := by
  obtain ⟨a, d, b, rfl, ha, hb, hd⟩ := h
  refine ⟨BitVec.ofNat w n, ?_, by rw [BitVec.toNat_ofNat, Nat.mod_eq_of_lt hn]⟩
  unfold readUnsigned
  rw [streamDec_plain a d b n ha hb hd]
  simp [hn, info_blank_space b hb]

theorem readUint8_plain (s : Text) (n : Nat) (h : Plain s n) (hn : n < 256) : ∃ v, readUint8 s = some v ∧ v.toNat = n := by
  obtain ⟨v, h1, h2⟩ := readUnsigned_plain 32 s n h (by omega)
  refine ⟨v.setWidth 8, ?_, ?_⟩
  · unfold readUint8
    rw [h1]
    dsimp only
    rw [if_pos (by omega)]
  · rw [BitVec.toNat_setWidth, h2, Nat.mod_eq_of_lt (by omega)]

theorem readBool_flag (s : Text) (v : Bool) (h : Flag s v) : readBool s = some v := by
  obtain ⟨a, d, b, rfl, ha, hb, hd⟩ := h
  have hspace := info_blank_space b hb
  simp only [List.mem_cons, Prod.mk.injEq, List.not_mem_nil, or_false] at hd
  rcases hd with ⟨rfl, rfl⟩ | ⟨rfl, rfl⟩ | ⟨rfl, rfl⟩ | ⟨rfl, rfl⟩
  · unfold readBool
    rw [streamDec_plain a ['1'] b 1 ha hb ⟨by decide, by intro c hc; simp at hc; subst hc; exact ⟨1, by decide, by decide⟩, by decide⟩]
    simp [hspace]
  · unfold readBool
    rw [streamDec_plain a ['0'] b 0 ha hb ⟨by decide, by intro c hc; simp at hc; subst hc; exact ⟨0, by decide, by decide⟩, by decide⟩]
    simp [hspace]
  · have e : streamDec (a ++ "true".toList ++ b) = (false, 0, false, "true".toList ++ b) := by
      unfold streamDec
      rw [List.append_assoc, blank_drop a _ ha (by intro y hy; cases hy; decide), info_takeSign_plain _ (by intro y hy; cases hy; decide)]
      rfl
    unfold readBool
    rw [e]
    have : ("true".toList ++ b).dropWhile isSpace = "true".toList ++ b := rfl
    simp only [this]
    simp [hspace]
  · have e : streamDec (a ++ "false".toList ++ b) = (false, 0, false, "false".toList ++ b) := by
      unfold streamDec
      rw [List.append_assoc, blank_drop a _ ha (by intro y hy; cases hy; decide), info_takeSign_plain _ (by intro y hy; cases hy; decide)]
      rfl
    unfold readBool
    rw [e]
    have : ("false".toList ++ b).dropWhile isSpace = "false".toList ++ b := rfl
    simp only [this]
    simp [hspace]

/-- what `scanDigits` uses up are digits, and the rest is a rest -/
theorem scanDigits_rest (s : Text) (acc : Nat) (any : Bool) : ∃ d, s = d ++ (scanDigits 10 s acc any).2.2 ∧ ∀ c ∈ d, c.isDigit = true := by
  induction s generalizing acc any with
  | nil => exact ⟨[], rfl, by simp⟩
  | cons c s ih =>
    simp only [scanDigits]
    cases hd : digitVal c with
    | none => exact ⟨[], rfl, by simp⟩
    | some v =>
      dsimp only
      split
      · obtain ⟨d, h1, h2⟩ := ih (acc * 10 + v) true
        refine ⟨c :: d, ?_, ?_⟩
        · rw [List.cons_append]; exact congrArg (c :: ·) h1
        · intro x hx
          rcases List.mem_cons.1 hx with rfl | hx
          · rename_i hlt
            unfold digitVal at hd
            split at hd
            · rename_i hr
              simp only [Char.isDigit, Bool.and_eq_true, decide_eq_true_eq]
              exact hr
            · split at hd
              · cases hd; omega
              · split at hd
                · cases hd; omega
                · cases hd
          · exact h2 x hx
      · exact ⟨[], rfl, by simp⟩

theorem readUnsigned_other (w : Nat) (s : Text) (c : Char) (hc : c ∈ s) (h1 : isSpace c = false) (h2 : c.isDigit = false) (h3 : c ≠ '-') (h4 : c ≠ '+') :
    readUnsigned w s = none := by
  unfold readUnsigned
  have hc1 : c ∈ s.dropWhile isSpace := by
    have := List.takeWhile_append_dropWhile (p := isSpace) (l := s)
    rw [← this] at hc
    rcases List.mem_append.1 hc with h | h
    · have h := List.all_eq_true.1 (List.all_takeWhile (p := isSpace) (l := s)) c h
      rw [h1] at h; cases h
    · exact h
  have hc2 : c ∈ (takeSign (s.dropWhile isSpace)).2 := by
    generalize s.dropWhile isSpace = t at hc1
    unfold takeSign
    split
    · rcases List.mem_cons.1 hc1 with h | h
      · exact absurd h h3
      · exact h
    · rcases List.mem_cons.1 hc1 with h | h
      · exact absurd h h4
      · exact h
    · exact hc1
  have hc3 : c ∈ (streamDec s).2.2.2 := by
    obtain ⟨d, g1, g2⟩ := scanDigits_rest (takeSign (s.dropWhile isSpace)).2 0 false
    rw [g1] at hc2
    rcases List.mem_append.1 hc2 with h | h
    · rw [g2 c h] at h2; cases h2
    · exact h
  have : (streamDec s).2.2.2.all isSpace = false := by
    rw [List.all_eq_false]
    exact ⟨c, hc3, by rw [h1]; simp⟩
  simp only [this, Bool.and_false, Bool.false_eq_true, if_false]

theorem readUnsigned_large (w : Nat) (s : Text) (n : Nat) (h : Plain s n) (hn : 2 ^ w ≤ n) : readUnsigned w s = none := by
  obtain ⟨a, d, b, rfl, ha, hb, hd⟩ := h
  unfold readUnsigned
  rw [streamDec_plain a d b n ha hb hd]
  simp only [show decide (n < 2 ^ w) = false from by simp; omega, Bool.and_false, Bool.false_and, Bool.false_eq_true, if_false]

theorem isPrefixOf_iff (p s : Text) : p.isPrefixOf s = true ↔ ∃ t, s = p ++ t := by
  rw [List.isPrefixOf_iff_prefix]
  exact ⟨fun ⟨t, h⟩ => ⟨t, h.symm⟩, fun ⟨t, h⟩ => ⟨t, h.symm⟩⟩

theorem flagged_some {α : Type} (pre : Text) (num : Text → α) (sec : List (Text × Text)) (h : ∀ t v, (pre ++ t, v) ∈ sec → ∃ b, Flag v b) :
    ∃ l, flagged pre num sec = some l ∧ ∀ x, x ∈ l ↔ ∃ t v, (pre ++ t, v) ∈ sec ∧ Flag v true ∧ x = num t := by
  induction sec with
  | nil => exact ⟨[], rfl, by simp⟩
  | cons p sec ih =>
    obtain ⟨k, v⟩ := p
    obtain ⟨l, h1, h2⟩ := ih (fun t v' hm => h t v' (List.mem_cons_of_mem _ hm))
    unfold flagged
    cases hp : pre.isPrefixOf k with
    | false =>
      refine ⟨l, h1, fun x => ?_⟩
      rw [h2 x]
      constructor
      · rintro ⟨t, w, g1, g2⟩; exact ⟨t, w, List.mem_cons_of_mem _ g1, g2⟩
      · rintro ⟨t, w, g1, g2⟩
        rcases List.mem_cons.1 g1 with g | g
        · injection g with g3 g4
          have := (isPrefixOf_iff pre k).2 ⟨t, g3.symm⟩
          rw [hp] at this; cases this
        · exact ⟨t, w, g, g2⟩
    | true =>
      obtain ⟨t, rfl⟩ := (isPrefixOf_iff pre k).1 hp
      obtain ⟨b, hb⟩ := h t v List.mem_cons_self
      have hr := readBool_flag v b hb
      simp only [if_pos, hr, h1, Option.map_some, List.drop_left]
      refine ⟨_, rfl, fun x => ?_⟩
      cases b with
      | true =>
        simp only [if_pos, List.mem_cons]
        rw [h2 x]
        constructor
        · rintro (rfl | ⟨t', w, g1, g2⟩)
          · exact ⟨t, v, .inl rfl, hb, rfl⟩
          · exact ⟨t', w, .inr g1, g2⟩
        · rintro ⟨t', w, g1, g2, g3⟩
          rcases g1 with g | g
          · injection g with g4 g5
            rw [List.append_right_inj] at g4
            exact .inl (by rw [g3, g4])
          · exact .inr ⟨t', w, g, g2, g3⟩
      | false =>
        simp only [Bool.false_eq_true, if_false]
        rw [h2 x]
        constructor
        · rintro ⟨t', w, g1, g2⟩; exact ⟨t', w, List.mem_cons_of_mem _ g1, g2⟩
        · rintro ⟨t', w, g1, g2, g3⟩
          rcases List.mem_cons.1 g1 with g | g
          · injection g with g4 g5
            subst g5
            have := readBool_flag w true g2
            rw [hr] at this; cases this
          · exact ⟨t', w, g, g2, g3⟩

theorem flagged_none {α : Type} (pre : Text) (num : Text → α) (sec : List (Text × Text)) (t v : Text) (hm : (pre ++ t, v) ∈ sec) (hv : readBool v = none) :
    flagged pre num sec = none := by
  induction sec with
  | nil => cases hm
  | cons p sec ih =>
    obtain ⟨k, w⟩ := p
    unfold flagged
    rcases List.mem_cons.1 hm with h | h
    · injection h with h1 h2
      subst h1 h2
      rw [if_pos ((isPrefixOf_iff pre _).2 ⟨t, rfl⟩), hv]
    · rw [ih h]
      split
      · split <;> rfl
      · rfl

theorem readBool_word (s : Text) (c : Char) (hc : s.head? = some c) (h1 : c.isAlpha = true) (h2 : c ≠ 't') (h3 : c ≠ 'f') : readBool s = none := by
  cases s with
  | nil => cases hc
  | cons x s =>
    cases hc
    have ha : ¬ isSpace c = true ∧ c ≠ '-' ∧ c ≠ '+' := by
      refine ⟨?_, by rintro rfl; exact absurd h1 (by decide), by rintro rfl; exact absurd h1 (by decide)⟩
      intro hx
      have : c = ' ' ∨ c = '\t' ∨ c = '\n' ∨ c.toNat = 11 ∨ c.toNat = 12 ∨ c = '\r' := by simpa [isSpace, or_assoc] using hx
      rcases this with rfl | rfl | rfl | h | h | rfl
      · exact absurd h1 (by decide)
      · exact absurd h1 (by decide)
      · exact absurd h1 (by decide)
      · rw [← Char.ofNat_toNat c, h] at h1; exact absurd h1 (by decide)
      · rw [← Char.ofNat_toNat c, h] at h1; exact absurd h1 (by decide)
      · exact absurd h1 (by decide)
    have hd : (c :: s).dropWhile isSpace = c :: s := List.dropWhile_cons_of_neg ha.1
    have hs : scanDigits 10 (c :: s) 0 false = (0, false, c :: s) := by
      simp only [scanDigits]
      cases hv : digitVal c with
      | none => rfl
      | some d =>
        dsimp only
        rw [if_neg]
        intro hlt
        unfold digitVal at hv
        split at hv
        · rename_i hr
          have e0 : '0'.toNat = 48 := rfl
          have e9 : '9'.toNat = 57 := rfl
          simp only [Char.isAlpha, Char.isUpper, Char.isLower, Bool.or_eq_true, Bool.and_eq_true, decide_eq_true_eq] at h1
          rcases h1 with ⟨g1, g2⟩ | ⟨g1, g2⟩
          · have : 65 ≤ c.toNat := g1
            omega
          · have : 97 ≤ c.toNat := g1
            omega
        · split at hv
          · cases hv; omega
          · split at hv
            · cases hv; omega
            · cases hv
    have he : streamDec (c :: s) = (false, 0, false, c :: s) := by
      unfold streamDec
      rw [hd, info_takeSign_plain _ (by intro y hy; cases hy; exact ha.2)]
      dsimp only
      rw [hs]
    unfold readBool
    rw [he]
    simp only [hd, Bool.false_and, Bool.false_eq_true, if_false]
    have g1 : "true".toList.isPrefixOf (c :: s) = false := by
      show (('t' == c) && _) = false
      rw [show ('t' == c) = false from by simp; exact fun h => h2 h.symm, Bool.false_and]
    have g2 : "false".toList.isPrefixOf (c :: s) = false := by
      show (('f' == c) && _) = false
      rw [show ('f' == c) = false from by simp; exact fun h => h3 h.symm, Bool.false_and]
    rw [g1, g2]
    rfl

end Verif.OD.DInfo
