import Verif.Model.Text
import Verif.Spec.Can

set_option linter.unusedSimpArgs false
namespace Verif.Txt
open Verif Verif.Spec

theorem char_le (a b : Char) : a ≤ b ↔ a.toNat ≤ b.toNat := Iff.rfl

theorem hexDigitVal_eq (c : Char) : hexDigitVal c =
    if 48 ≤ c.toNat ∧ c.toNat ≤ 57 then some (c.toNat - 48)
    else if 97 ≤ c.toNat ∧ c.toNat ≤ 102 then some (c.toNat - 87)
    else if 65 ≤ c.toNat ∧ c.toNat ≤ 70 then some (c.toNat - 55)
    else none := rfl

theorem hex2dec_eq (c : Char) : hex2dec c = (hexDigitVal c).map (BitVec.ofNat 8) := by
  have e : hex2dec c =
    if 48 ≤ c.toNat ∧ c.toNat ≤ 57 then some (BitVec.ofNat 8 (c.toNat - 48))
    else if 97 ≤ c.toNat ∧ c.toNat ≤ 102 then some (BitVec.ofNat 8 (c.toNat - 97 + 10))
    else if 65 ≤ c.toNat ∧ c.toNat ≤ 70 then some (BitVec.ofNat 8 (c.toNat - 65 + 10))
    else none := rfl
  rw [e, hexDigitVal_eq]
  generalize c.toNat = n
  split
  · rfl
  split
  · rw [show n - 97 + 10 = n - 87 by omega]; rfl
  split
  · rw [show n - 65 + 10 = n - 55 by omega]; rfl
  · rfl

theorem hexDigitVal_lt {c : Char} {n : Nat} (h : hexDigitVal c = some n) : n < 16 := by
  rw [hexDigitVal_eq] at h
  generalize c.toNat = m at h
  split at h
  · simp at h; omega
  split at h
  · simp at h; omega
  split at h
  · simp at h; omega
  · simp at h

theorem denotes_nil_right {t : Text} (h : Denotes t []) : t = [] := by
  cases t with
  | nil => rfl
  | cons a t => cases t <;> exact h.elim

theorem denotes_cons_right {t : Text} {x : Byte} {xs : List Byte} (h : Denotes t (x :: xs)) :
    ∃ a b t', t = a :: b :: t' := by
  cases t with
  | nil => exact h.elim
  | cons a t => cases t with
    | nil => exact h.elim
    | cons b t => exact ⟨a, b, t, rfl⟩

theorem hexDigitVal_dec2hex : ∀ (lc : Bool) (n : Fin 16),
    hexDigitVal (dec2hex (BitVec.ofNat 8 n.val) lc).2 = some n.val := by
  decide +kernel

theorem hexDigitVal_dec2hex' (lc : Bool) {n : Nat} (h : n < 16) :
    hexDigitVal (dec2hex (BitVec.ofNat 8 n) lc).2 = some n := hexDigitVal_dec2hex lc ⟨n, h⟩

/-! ### payload codec -/

theorem nib (h l : Nat) (hh : h < 16) (hl : l < 16) :
    ((BitVec.ofNat 8 h <<< 4) ||| BitVec.ofNat 8 l).toNat = 16 * h + l := by
  have : ∀ h l : Fin 16, ((BitVec.ofNat 8 h.val <<< 4) ||| BitVec.ofNat 8 l.val).toNat = 16 * h.val + l.val := by
    decide +kernel
  exact this ⟨h, hh⟩ ⟨l, hl⟩

theorem length_resize (n : Nat) (s : List Byte) : (resize n s).length = n := by
  simp [resize]; omega

theorem loop_iff (os : List Byte) (t : Text) (hl : t.length = 2 * os.length) (bs : List Byte) :
    hex2bufferLoop os t = (true, bs) ↔ Denotes t bs := by
  induction os generalizing t bs with
  | nil =>
    cases t with
    | nil =>
      cases bs <;> simp [hex2bufferLoop, Denotes]
    | cons a t => simp at hl
  | cons o os ih =>
    match t, hl with
    | [], hl => simp at hl
    | [_], hl => simp at hl; omega
    | a :: b :: t, hl =>
      have hl' : t.length = 2 * os.length := by simp at hl; omega
      simp only [hex2bufferLoop, hex2dec_eq]
      cases ha : hexDigitVal a with
      | none => cases bs <;> simp [Denotes, ha]
      | some h =>
        cases hb : hexDigitVal b with
        | none => cases bs <;> simp [Denotes, ha, hb]
        | some l =>
          have hh := hexDigitVal_lt ha
          have hl2 := hexDigitVal_lt hb
          cases bs with
          | nil => simp [Denotes]
          | cons x xs =>
            simp only [Option.map_some, Denotes, Prod.mk.injEq, List.cons.injEq, ha, hb, Option.some.injEq]
            have := ih t hl' xs
            constructor
            · rintro ⟨h1, h2, h3⟩
              refine ⟨⟨h, l, rfl, rfl, ?_⟩, this.1 (Prod.ext h1 h3)⟩
              rw [← h2]; exact nib h l hh hl2
            · rintro ⟨⟨h', l', rfl, rfl, hx⟩, h3⟩
              have := this.2 h3
              rw [this]
              refine ⟨rfl, ?_, rfl⟩
              apply BitVec.eq_of_toNat_eq
              rw [hx]; exact nib _ _ hh hl2

theorem denotes_length {t : Text} {bs : List Byte} (h : Denotes t bs) : t.length = 2 * bs.length := by
  induction bs generalizing t with
  | nil => simp [denotes_nil_right h]
  | cons x xs ih =>
    obtain ⟨a, b, t, rfl⟩ := denotes_cons_right h
    have := ih h.2; simp; omega

theorem denotes_hex {t : Text} {bs : List Byte} (h : Denotes t bs) : ∀ c ∈ t, IsHex c := by
  induction bs generalizing t with
  | nil => simp [denotes_nil_right h]
  | cons x xs ih =>
    obtain ⟨a, b, t, rfl⟩ := denotes_cons_right h
    obtain ⟨⟨h', l', ha, hb, _⟩, h2⟩ := h
    intro c hc
    simp at hc
    rcases hc with rfl | rfl | hc
    · simp [IsHex, ha]
    · simp [IsHex, hb]
    · exact ih h2 c hc

theorem denotes_exists (t : Text) (he : t.length % 2 = 0) (hx : ∀ c ∈ t, IsHex c) : ∃ bs, Denotes t bs := by
  match t, he, hx with
  | [], _, _ => exact ⟨[], trivial⟩
  | [_], he, _ => simp at he
  | a :: b :: t, he, hx =>
    have he' : t.length % 2 = 0 := by simp at he; omega
    obtain ⟨bs, hbs⟩ := denotes_exists t he' (fun c hc => hx c (by simp [hc]))
    have ha := hx a (by simp)
    have hb := hx b (by simp)
    obtain ⟨h, hh⟩ := Option.isSome_iff_exists.1 ha
    obtain ⟨l, hl⟩ := Option.isSome_iff_exists.1 hb
    refine ⟨BitVec.ofNat 8 (16 * h + l) :: bs, ⟨h, l, hh, hl, ?_⟩, hbs⟩
    have := hexDigitVal_lt hh
    have := hexDigitVal_lt hl
    simp; omega

theorem denotes_unique {t : Text} {bs cs : List Byte} (h : Denotes t bs) (h' : Denotes t cs) : bs = cs := by
  induction bs generalizing t cs with
  | nil =>
    cases denotes_nil_right h
    cases cs with
    | nil => rfl
    | cons => exact h'.elim
  | cons x xs ih =>
    obtain ⟨a, b, t, rfl⟩ := denotes_cons_right h
    cases cs with
    | nil => exact h'.elim
    | cons y ys =>
      obtain ⟨⟨h1, l1, ha, hb, hx⟩, h2⟩ := h
      obtain ⟨⟨h1', l1', ha', hb', hx'⟩, h2'⟩ := h'
      rw [ha] at ha'; rw [hb] at hb'
      cases ha'; cases hb'
      rw [ih h2 h2']
      congr 1
      apply BitVec.eq_of_toNat_eq; omega

theorem hex2buffer_iff (out : List Byte) (t : Text) (pad : Bool) (bs : List Byte) :
    hex2buffer out t pad = (true, bs) ↔
      Denotes (if t.length % 2 = 1 ∧ pad = true then '0' :: t else t) bs := by
  unfold hex2buffer
  by_cases h : t.length % 2 = 0
  · have h1 : ¬ (t.length % 2 = 1 ∧ pad = true) := by omega
    simp only [h, h1, ne_eq, not_true, if_false]
    exact loop_iff _ _ (by rw [length_resize]; omega) _
  · have h0 : t.length % 2 = 1 := by omega
    rw [if_pos (by simpa using h)]
    simp only [h0, true_and]
    cases pad with
    | true =>
      simp only [if_true]
      exact loop_iff _ _ (by rw [length_resize]; simp; omega) _
    | false =>
      simp only [Bool.false_eq_true, if_false, Prod.mk.injEq, false_and, false_iff]
      intro hd
      have := denotes_length hd
      omega

theorem byte2hex_len (b : Byte) (lc : Bool) :
    byte2hex b true lc = [(dec2hex (b >>> 4) lc).2, (dec2hex (b &&& 0xf#8) lc).2] := by
  simp [byte2hex]

theorem byte2hex_val : ∀ (lc : Bool) (n : Fin 256),
    hexDigitVal (dec2hex (BitVec.ofNat 8 n.val >>> 4) lc).2 = some (n.val / 16) ∧
    hexDigitVal (dec2hex (BitVec.ofNat 8 n.val &&& 0xf#8) lc).2 = some (n.val % 16) := by
  decide +kernel

theorem byte2hex_val' (lc : Bool) (b : Byte) :
    hexDigitVal (dec2hex (b >>> 4) lc).2 = some (b.toNat / 16) ∧
    hexDigitVal (dec2hex (b &&& 0xf#8) lc).2 = some (b.toNat % 16) := by
  have := byte2hex_val lc ⟨b.toNat, b.isLt⟩
  simpa using this

theorem buffer2hex_denotes (bs : List Byte) (lc : Bool) : Denotes (buffer2hex bs lc) bs := by
  induction bs with
  | nil => exact trivial
  | cons b bs ih =>
    simp only [buffer2hex, byte2hex_len]
    simp only [List.isEmpty_cons, Bool.false_eq_true, if_false, List.cons_append, List.nil_append, Denotes]
    obtain ⟨h1, h2⟩ := byte2hex_val' lc b
    exact ⟨⟨_, _, h1, h2, by omega⟩, ih⟩

theorem hex2bufferLoop_length (os : List Byte) (t : Text) : (hex2bufferLoop os t).2.length = os.length := by
  fun_induction hex2bufferLoop os t <;> simp_all

/-! ### printing and parsing numbers -/

theorem foldl_append_one (f : Nat → Char → Nat) (s : Text) (c : Char) (a : Nat) :
    (s ++ [c]).foldl f a = f (s.foldl f a) c := by simp

theorem ostreamHex_isHex (lc : Bool) (n : Nat) : ∀ c ∈ ostreamHex lc n, IsHex c := by
  fun_induction ostreamHex lc n with
  | case1 n h => simp [IsHex, hexDigitVal_dec2hex' lc h]
  | case2 n h ih =>
    intro c hc
    simp at hc
    rcases hc with hc | rfl
    · exact ih c hc
    · simp [IsHex, hexDigitVal_dec2hex' lc (Nat.mod_lt n (by decide : 16 > 0))]

theorem ostreamHex_value (lc : Bool) (n : Nat) : hexValue (ostreamHex lc n) = n := by
  fun_induction ostreamHex lc n with
  | case1 n h => simp [hexValue, hexDigitVal_dec2hex' lc h]
  | case2 n h ih =>
    have hm := hexDigitVal_dec2hex' lc (Nat.mod_lt n (by decide : 16 > 0))
    unfold hexValue at ih ⊢
    rw [List.foldl_append, ih]
    simp [hm]; omega

theorem ostreamHex_ne_nil (lc : Bool) (n : Nat) : ostreamHex lc n ≠ [] := by
  rw [ostreamHex]; split <;> simp

theorem ostreamHex_length (lc : Bool) (n k : Nat) (h : n < 16 ^ (k + 1)) :
    (ostreamHex lc n).length ≤ k + 1 := by
  induction k generalizing n with
  | zero => rw [ostreamHex, if_pos (by simpa using h)]; simp
  | succ k ih =>
    rw [ostreamHex]
    split
    · simp
    · have : n / 16 < 16 ^ (k + 1) := by
        rw [Nat.div_lt_iff_lt_mul (by decide)]
        rw [Nat.pow_succ] at h; exact h
      simpa using ih _ this

theorem foldl_replicate_zero (k : Nat) (s : Text) :
    hexValue (List.replicate k '0' ++ s) = hexValue s := by
  unfold hexValue
  rw [List.foldl_append]
  congr 1
  induction k with
  | zero => rfl
  | succ k ih =>
    rw [List.replicate_succ, List.foldl_cons]
    have : 16 * 0 + (hexDigitVal '0').getD 0 = 0 := by decide
    rw [this]; exact ih

theorem scanHex_eq (s : Text) (hs : ∀ c ∈ s, IsHex c) (acc : Nat) (any : Bool) :
    scanHex s acc any =
      (s.foldl (fun a c => 16 * a + (hexDigitVal c).getD 0) acc, any || !s.isEmpty) := by
  induction s generalizing acc any with
  | nil => simp [scanHex]
  | cons c s ih =>
    have hc := hs c (by simp)
    obtain ⟨v, hv⟩ := Option.isSome_iff_exists.1 hc
    have := hexDigitVal_lt hv
    simp only [scanHex, hex2dec_eq, hv, Option.map_some, List.foldl_cons, Option.getD_some]
    rw [ih (fun c h => hs c (by simp [h]))]
    have e : (BitVec.ofNat 8 v).toNat = v := by simp; omega
    rw [e, Nat.mul_comm acc 16]
    simp

theorem isHex_not_space {c : Char} (h : IsHex c) : isSpace c = false := by
  cases hs : isSpace c with
  | false => rfl
  | true =>
    exfalso
    simp only [isSpace, Bool.or_eq_true, decide_eq_true_eq] at hs
    have key : ∀ d : Char, d.toNat = c.toNat → d = c := fun d hd =>
      Char.ext (UInt32.toNat_inj.1 hd)
    rcases hs with ((((rfl | rfl) | rfl) | h1) | h1) | rfl
    · exact absurd h (by decide)
    · exact absurd h (by decide)
    · exact absurd h (by decide)
    · have := key (Char.ofNat 11) (by rw [h1]; rfl); subst this; exact absurd h (by decide)
    · have := key (Char.ofNat 12) (by rw [h1]; rfl); subst this; exact absurd h (by decide)
    · exact absurd h (by decide)

theorem tohex_any (s : Text) (n : Nat) (h : HexNumeral s n) :
    tohex s = if n < 2 ^ 32 then BitVec.ofNat 32 n else 0xFFFFFFFF#32 := by
  obtain ⟨hne, hx, hv⟩ := h
  cases s with
  | nil => exact absurd rfl hne
  | cons c r =>
    have hc := hx c (by simp)
    have hd : (c :: r).dropWhile isSpace = c :: r := by
      simp [isHex_not_space hc]
    have hm : c ≠ '-' := by rintro rfl; exact absurd hc (by decide)
    have hp : c ≠ '+' := by rintro rfl; exact absurd hc (by decide)
    have hr : ∀ d ∈ r, d ≠ 'x' ∧ d ≠ 'X' := by
      intro d hd
      have := hx d (by simp [hd])
      constructor <;> (rintro rfl; exact absurd this (by decide))
    unfold tohex
    simp only [hd]
    have hs2 : takeSign (c :: r) = (false, c :: r) := by
      unfold takeSign
      split
      · rename_i h; simp at h; exact absurd h.1 hm
      · rename_i h; simp at h; exact absurd h.1 hp
      · rfl
    rw [hs2]
    have hs3 : scanPrefixed (c :: r) = (n, true) := by
      unfold scanPrefixed
      split
      · rename_i h; simp at h; exact absurd rfl (hr 'x' (by simp [h])).1
      · rename_i h; simp at h; exact absurd rfl (hr 'X' (by simp [h])).2
      · rename_i r' _ _ h
        simp at h; obtain ⟨rfl, rfl⟩ := h
        rw [scanHex_eq r (fun d hd => hx d (by simp [hd]))]
        rw [← hv]
        unfold hexValue
        rw [List.foldl_cons]
        simp [show (hexDigitVal '0').getD 0 = 0 by decide]
      · rw [scanHex_eq _ hx, ← hv]; simp [hexValue]
    simp only [hs3]
    by_cases hn : n < 2 ^ 32
    · rw [if_pos hn, if_neg (by simp), if_neg (by omega)]; simp
    · rw [if_neg hn, if_neg (by simp), if_pos (by omega)]

theorem tohex_numeral (s : Text) (n : Nat) (h : HexNumeral s n) (hn : n < 2 ^ 32) :
    tohex s = BitVec.ofNat 32 n := by
  rw [tohex_any s n h, if_pos hn]

theorem ostreamHex_numeral (lc : Bool) (n : Nat) : HexNumeral (ostreamHex lc n) n :=
  ⟨ostreamHex_ne_nil lc n, ostreamHex_isHex lc n, ostreamHex_value lc n⟩

theorem padLeft_numeral (w : Nat) (s : Text) (n : Nat) (h : HexNumeral s n) : HexNumeral (padLeft w s) n := by
  obtain ⟨h1, h2, h3⟩ := h
  refine ⟨by simp [padLeft, h1], ?_, by rw [padLeft, foldl_replicate_zero, h3]⟩
  intro c hc
  simp only [padLeft, List.mem_append, List.mem_replicate] at hc
  rcases hc with ⟨_, rfl⟩ | hc
  · decide
  · exact h2 c hc

end Verif.Txt
