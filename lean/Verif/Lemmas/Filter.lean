import Verif.Model.Filter
import Verif.Lemmas.TextFrame
import Verif.Spec.Filter

set_option linter.unusedSimpArgs false
namespace Verif.Flt
open Verif Verif.Spec Verif.Txt

theorem fullid_idWord (h : Header) : h.fullid.toNat = idWord h := by
  rw [fullid_toNat, flagVal, idWord]
  split <;> split <;> split <;> omega

theorem key_filterWord (h : Header) : h.key.toNat = filterWord h := by
  unfold Header.key filterWord
  split
  · rfl
  · exact fullid_idWord h

theorem idWord_lt (h : Header) : idWord h < 2 ^ 32 := by
  rw [← fullid_idWord]; exact h.fullid.isLt

theorem agree_iff (m a b : BitVec 32) :
    (m &&& a) = (b &&& m) ↔ AgreeOn m.toNat a.toNat b.toNat := by
  constructor
  · intro h i hi
    have := congrArg (fun w => w.getLsbD i) h
    simp only [BitVec.getLsbD_and] at this
    have hm : m.getLsbD i = true := hi
    rw [hm] at this
    simpa [BitVec.getLsbD] using this
  · intro h
    apply BitVec.eq_of_getLsbD_eq
    intro i hi
    simp only [BitVec.getLsbD_and]
    cases hm : m.getLsbD i with
    | false => simp
    | true => simpa [BitVec.getLsbD] using h i hm

theorem mask_pass (id mask : BitVec 32) (inv : Bool) (f : Frame) :
    (maskFilter id mask inv).pass f = true ↔
      (AgreeOn mask.toNat f.key.toNat id.toNat ↔ inv = false) := by
  rw [← agree_iff]
  simp only [maskFilter, Filter.pass]
  cases inv <;> simp

theorem range_pass (lo hi : BitVec 32) (inv : Bool) (f : Frame) :
    (rangeFilter lo hi inv).pass f = true ↔
      ((lo.toNat ≤ f.key.toNat ∧ f.key.toNat ≤ hi.toNat) ↔ inv = false) := by
  simp only [rangeFilter, Filter.pass, BitVec.le_def]
  cases inv <;> simp
  omega

theorem toheader_word (s : Text) (n : Nat) (hs : HexNumeral s n) (hn : n < 2 ^ 32) :
    (toheader s).fullid.toNat = if s.length = 8 ∧ 2 ^ 11 ≤ n % 2 ^ 29 then n % 2 ^ 31 + 2 ^ 31 else n := by
  rw [toheader_numeral s n hs hn, fullid_idWord]
  have b29 : n.testBit 29 = decide (n / 2 ^ 29 % 2 = 1) := Nat.testBit_eq_decide_div_mod_eq
  have b30 : n.testBit 30 = decide (n / 2 ^ 30 % 2 = 1) := Nat.testBit_eq_decide_div_mod_eq
  have b31 : n.testBit 31 = decide (n / 2 ^ 31 % 2 = 1) := Nat.testBit_eq_decide_div_mod_eq
  simp only [idWord, b29, b30, b31, BitVec.toNat_ofNat, decide_eq_true_eq, Bool.or_eq_true, Bool.and_eq_true]
  repeat' split
  all_goals omega

def isDelim (c : Char) : Bool := c = ':' || c = '~' || c = '-' || c = '_'

theorem hex_not_delim {s : Text} (hs : ∀ c ∈ s, IsHex c) : ∀ c ∈ s, isDelim c = false := by
  intro c hc
  have := hs c hc
  cases h : isDelim c with
  | false => rfl
  | true =>
    exfalso
    simp [isDelim] at h
    rcases h with ((rfl | rfl) | rfl) | rfl <;> exact absurd this (by decide)

theorem tofilter_plain (a : Text) (n : Nat) (ha : HexNumeral a n) :
    tofilter a = maskFilter (toheader a).fullid MASK_RELAXED false := by
  have : splitFirst isDelim a = none := (splitFirst_none _ _).2 (hex_not_delim ha.2.1)
  show (match splitFirst isDelim a with
    | none => maskFilter (toheader a).fullid MASK_RELAXED false
    | some (hd, type, rest) => _) = _
  rw [this]

theorem tofilter_delim (a b : Text) (d : Char) (n m : Nat) (ha : HexNumeral a n) (hb : HexNumeral b m)
    (hm : m < 2 ^ 32) (hd : isDelim d = true) :
    tofilter (a ++ d :: b) =
      if d = '~' then maskFilter (toheader a).fullid (BitVec.ofNat 32 m) true
      else if d = ':' then maskFilter (toheader a).fullid (BitVec.ofNat 32 m) false
      else if d = '_' then rangeFilter (toheader a).fullid (BitVec.ofNat 32 m) true
      else rangeFilter (toheader a).fullid (BitVec.ofNat 32 m) false := by
  have hs : splitFirst isDelim (a ++ d :: b) = some (a, d, b) :=
    splitFirst_append _ _ _ _ (hex_not_delim ha.2.1) hd
  have ht := tohex_numeral b m hb hm
  unfold tofilter
  have hs' : splitFirst (fun c => c = ':' || c = '~' || c = '-' || c = '_') (a ++ d :: b) = some (a, d, b) := hs
  simp only [hs', ht]

theorem listenerCalls_eq (fs : List Filter) (f : Frame) :
    listenerCalls fs f = if fs.any (·.pass f) then [f] else [] := by
  induction fs with
  | nil => rfl
  | cons a fs ih =>
    by_cases h : a.pass f = true
    · simp [listenerCalls, h]
    · simp [listenerCalls, h, ih]

theorem listenerRun_eq (fs : List Filter) (frames : List Frame) :
    listenerRun fs frames = frames.filter (fun f => fs.any (·.pass f)) := by
  unfold listenerRun
  induction frames with
  | nil => rfl
  | cons a l ih =>
    rw [List.flatMap_cons, ih, listenerCalls_eq, List.filter_cons]
    split <;> simp

end Verif.Flt
