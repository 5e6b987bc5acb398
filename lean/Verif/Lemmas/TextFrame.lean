import Verif.Lemmas.Text
import Verif.Lemmas.Frame

set_option linter.unusedSimpArgs false
namespace Verif.Txt
open Verif Verif.Spec

theorem splitFirst_append (p : Char → Bool) (a : Text) (x : Char) (b : Text)
    (ha : ∀ c ∈ a, p c = false) (hx : p x = true) : splitFirst p (a ++ x :: b) = some (a, x, b) := by
  induction a with
  | nil => simp [splitFirst, hx]
  | cons c a ih =>
    have hc := ha c (by simp)
    have := ih (fun d hd => ha d (by simp [hd]))
    simp [splitFirst, hc, this]

theorem splitFirst_none (p : Char → Bool) (a : Text) : splitFirst p a = none ↔ ∀ c ∈ a, p c = false := by
  induction a with
  | nil => simp [splitFirst]
  | cons c a ih =>
    by_cases h : p c = true
    · simp [splitFirst, h]
    · simp [splitFirst, h, ih]

theorem splitFirst_some {p : Char → Bool} {s a b : Text} {x : Char} (h : splitFirst p s = some (a, x, b)) :
    s = a ++ x :: b ∧ (∀ c ∈ a, p c = false) ∧ p x = true := by
  induction s generalizing a with
  | nil => simp [splitFirst] at h
  | cons c s ih =>
    by_cases hc : p c = true
    · simp [splitFirst, hc] at h
      obtain ⟨rfl, rfl, rfl⟩ := h
      simp [hc]
    · simp [splitFirst, hc] at h
      obtain ⟨a', x', b', h1, rfl, rfl, rfl⟩ := h
      obtain ⟨h2, h3, h4⟩ := ih h1
      refine ⟨by simp [h2], ?_, h4⟩
      intro d hd
      simp at hd
      rcases hd with rfl | hd
      · simpa using hc
      · exact h3 d hd

theorem headerText_toNat (h : Header) :
    (h.fullid &&& ~~~Header.EXTENDED_MASK).toNat = 2 ^ 29 * (flagVal h % 4) + h.id.toNat := by
  have e : (~~~Header.EXTENDED_MASK).toNat = 2 ^ 31 - 1 := by decide
  rw [BitVec.toNat_and, e, Nat.and_two_pow_sub_one_eq_mod, fullid_toNat]
  have := h.id.isLt
  have := flagVal_lt h
  omega

theorem toheader_numeral (s : Text) (n : Nat) (hs : HexNumeral s n) (hn : n < 2 ^ 32) :
    toheader s = { id := BitVec.ofNat 29 n, isError := n.testBit 29, isRtr := n.testBit 30,
                   isExtended := n.testBit 31 || (s.length = 8 && 2 ^ 11 ≤ n % 2 ^ 29) } := by
  have ht := tohex_numeral s n hs hn
  have hid : (BitVec.ofNat 32 n &&& Header.ID_MASK).toNat = n % 2 ^ 29 := by
    rw [BitVec.toNat_and, BitVec.toNat_ofNat, Nat.mod_eq_of_lt hn]
    have : Header.ID_MASK.toNat = 2 ^ 29 - 1 := by decide
    rw [this, Nat.and_two_pow_sub_one_eq_mod]
  have bit : ∀ k, k < 32 → decide (BitVec.ofNat 32 n &&& (1#32 <<< k) ≠ 0#32) = n.testBit k := by
    intro k hk
    have h2 : (BitVec.ofNat 32 n).toNat = n := by rw [BitVec.toNat_ofNat, Nat.mod_eq_of_lt hn]
    have := and_bit_ne_zero (BitVec.ofNat 32 n) k hk
    rw [h2] at this
    cases hb : n.testBit k
    · rw [hb] at this; simp only [decide_eq_false_iff_not, this]; simp
    · rw [hb] at this; simp only [decide_eq_true_eq, this]
  have e1 := bit 29 (by decide)
  have e2 := bit 30 (by decide)
  have e3 := bit 31 (by decide)
  unfold toheader Header.mk' Header.EXTENDED_MASK Header.RTR_MASK Header.ERROR_MASK
  simp only [ht, hid]
  rw [e1, e2, e3]
  congr 1
  apply BitVec.eq_of_toNat_eq
  rw [BitVec.toNat_setWidth, hid]; simp

theorem headerToString_numeral (h : Header) (lc : Bool) :
    HexNumeral (headerToString h lc) (2 ^ 29 * (flagVal h % 4) + h.id.toNat) := by
  unfold headerToString
  simp only [headerText_toNat]
  split
  · exact padLeft_numeral _ _ _ (ostreamHex_numeral lc _)
  · exact ostreamHex_numeral lc _

theorem headerToString_length_ext (h : Header) (lc : Bool) (hx : h.isExtended = true) :
    (headerToString h lc).length = 8 := by
  unfold headerToString
  simp only [headerText_toNat, hx, if_true, padLeft, List.length_append, List.length_replicate]
  have := h.id.isLt
  have := ostreamHex_length lc (2 ^ 29 * (flagVal h % 4) + h.id.toNat) 7 (by omega)
  omega

theorem flag_bits (h : Header) :
    (2 ^ 29 * (flagVal h % 4) + h.id.toNat).testBit 29 = h.isError ∧
    (2 ^ 29 * (flagVal h % 4) + h.id.toNat).testBit 30 = h.isRtr ∧
    (2 ^ 29 * (flagVal h % 4) + h.id.toNat).testBit 31 = false := by
  have e1 := mul_pow_testBit (flagVal h % 4) h.id.toNat 0 h.id.isLt
  have e2 := mul_pow_testBit (flagVal h % 4) h.id.toNat 1 h.id.isLt
  have e3 := mul_pow_testBit (flagVal h % 4) h.id.toNat 2 h.id.isLt
  rw [show 29 + 0 = 29 from rfl] at e1
  rw [show 29 + 1 = 30 from rfl] at e2
  rw [show 29 + 2 = 31 from rfl] at e3
  rw [e1, e2, e3]
  unfold flagVal
  cases h.isError <;> cases h.isRtr <;> cases h.isExtended <;> decide

/-- what `toheader` makes of the printed header -/
theorem toheader_headerToString (h : Header) (lc : Bool) :
    toheader (headerToString h lc) =
      { h with isExtended := ((headerToString h lc).length = 8 && 2 ^ 11 ≤ h.id.toNat) } := by
  have hid := h.id.isLt
  rw [toheader_numeral _ _ (headerToString_numeral h lc) (by omega)]
  obtain ⟨b1, b2, b3⟩ := flag_bits h
  rw [b1, b2, b3]
  have hm : (2 ^ 29 * (flagVal h % 4) + h.id.toNat) % 2 ^ 29 = h.id.toNat := by omega
  rw [hm]
  have hi : BitVec.ofNat 29 (2 ^ 29 * (flagVal h % 4) + h.id.toNat) = h.id := by
    apply BitVec.eq_of_toNat_eq; rw [BitVec.toNat_ofNat, hm]
  rw [hi]
  simp

theorem toframe_text (junk : Vector Byte 8) (hd pl : Text) (hno : ∀ c ∈ hd, c ≠ '#') (bs : List Byte)
    (hv : (toheader hd).isValid = true) (hb : Denotes pl bs) (h8 : bs.length ≤ 8) :
    toframe junk (hd ++ '#' :: pl) =
      { toHeader := toheader hd, data := copyInto junk bs, dlc := BitVec.ofNat 8 bs.length } := by
  have hs : splitFirst (· = '#') (hd ++ '#' :: pl) = some (hd, '#', pl) :=
    splitFirst_append _ _ _ _ (fun c hc => by simpa using hno c hc) (by simp)
  have hp : hex2buffer [] pl false = (true, bs) := by
    rw [hex2buffer_iff]; simpa using hb
  unfold toframe
  simp only [hs, hv, if_true, hp]
  rw [if_neg (by omega)]
  rfl

theorem header_no_hash (h : Header) (lc : Bool) : ∀ c ∈ headerToString h lc, c ≠ '#' := by
  intro c hc
  have := (headerToString_numeral h lc).2.1 c hc
  rintro rfl
  exact absurd this (by decide)

theorem bytes_ok {ε : Type} {f : Frame} (h : f.dlc.toNat ≤ 8) :
    (f.bytes : Outcome ε _) = .ok (f.data.toList.take f.dlc.toNat) := by
  simp [Frame.bytes, h]

theorem copyInto_get (junk data : Vector Byte 8) (n i : Nat) (hi : i < 8) (hin : i < n) (_hn : n ≤ 8) :
    (copyInto junk (data.toList.take n))[i] = data[i] := by
  simp [copyInto, hi, hin]

end Verif.Txt
