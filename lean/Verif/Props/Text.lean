import Verif.Lemmas.TextFrame

/-!
# Properties of the frame text codec: C01, C02, C03
-/

namespace Verif.Props
open Verif Verif.Spec Verif.Txt

/-- C01 (proved part).  Printing a valid frame and parsing the text back gives the same frame, in both letter
cases and whatever the uninitialised payload array of the parsed frame contains.
Missing for the full property: extended identifiers below 0x800 (see `C01_fails`). -/
theorem C01_frame_text_roundtrip_partial (f : Frame) (lc : Bool) (junk : Vector Byte 8)
    (hv : ValidFrame f) (hx : f.isExtended = true → 2048 ≤ f.id.toNat) :
    ∃ s, frameToString (ε := Empty) f lc = .ok s ∧ SameFrame f (toframe junk s) := by
  obtain ⟨h8, hstd⟩ := hv
  have hb := bytes_ok (ε := Empty) h8
  refine ⟨headerToString f.toHeader lc ++ '#' :: buffer2hex (f.data.toList.take f.dlc.toNat) lc,
    by simp only [frameToString, hb], ?_⟩
  have hh : toheader (headerToString f.toHeader lc) = f.toHeader := by
    rw [toheader_headerToString]
    cases hx' : f.isExtended with
    | true =>
      have h1 := hx hx'
      rw [headerToString_length_ext _ _ hx']
      obtain ⟨⟨i, e, r, x⟩, d, l⟩ := f
      simp_all
    | false =>
      have h1 := hstd hx'
      have : ¬ (2 ^ 11 ≤ f.id.toNat) := by omega
      obtain ⟨⟨i, e, r, x⟩, d, l⟩ := f
      simp_all
  have hvalid : (toheader (headerToString f.toHeader lc)).isValid = true := by
    rw [hh]; unfold Header.isValid
    have := f.id.isLt
    cases hx' : f.isExtended with
    | true => simpa using this
    | false => simpa using hstd hx'
  have hlen : (f.data.toList.take f.dlc.toNat).length = f.dlc.toNat := by simp; omega
  rw [toframe_text junk _ _ (header_no_hash _ _) _ hvalid (buffer2hex_denotes _ lc) (by omega), hh, hlen]
  refine ⟨rfl, rfl, rfl, rfl, by simp, ?_⟩
  intro i hi hin
  exact (copyInto_get junk f.data _ i hi hin h8).symm

/-- a valid extended RTR frame with payload, covered by `C01_frame_text_roundtrip_partial` -/
example : ValidFrame { id := 0x12345, isError := false, isRtr := true, isExtended := true,
                       data := #v[1,2,3,4,5,6,7,8], dlc := 5 } ∧ 2048 ≤ (0x12345#29).toNat := by
  refine ⟨⟨by decide, by decide⟩, by decide⟩

/-- C01, the excluded case described exactly: every frame with identifier below 0x800, also an extended one,
comes back as the *standard* frame with the same identifier, remaining flags, length and payload. -/
theorem C01_small_extended_becomes_standard (f : Frame) (lc : Bool) (junk : Vector Byte 8)
    (h8 : f.dlc.toNat ≤ 8) (hs : f.id.toNat < 2048) :
    ∃ s, frameToString (ε := Empty) f lc = .ok s ∧
      SameFrame { f with isExtended := false } (toframe junk s) := by
  have hb := bytes_ok (ε := Empty) h8
  refine ⟨headerToString f.toHeader lc ++ '#' :: buffer2hex (f.data.toList.take f.dlc.toNat) lc,
    by simp only [frameToString, hb], ?_⟩
  have hh : toheader (headerToString f.toHeader lc) = { f.toHeader with isExtended := false } := by
    rw [toheader_headerToString]
    have : ¬ (2 ^ 11 ≤ f.id.toNat) := by omega
    simp [this]
  have hvalid : (toheader (headerToString f.toHeader lc)).isValid = true := by
    rw [hh]; simpa [Header.isValid] using hs
  have hlen : (f.data.toList.take f.dlc.toNat).length = f.dlc.toNat := by simp; omega
  rw [toframe_text junk _ _ (header_no_hash _ _) _ hvalid (buffer2hex_denotes _ lc) (by omega), hh, hlen]
  refine ⟨rfl, rfl, rfl, rfl, by simp, ?_⟩
  intro i hi hin
  exact (copyInto_get junk f.data _ i hi hin h8).symm

example : let f : Frame := { id := 0x123, isError := false, isRtr := false, isExtended := true,
                             data := #v[1,2,3,4,5,6,7,8], dlc := 2 }
    f.dlc.toNat ≤ 8 ∧ f.isExtended = true ∧ f.id.toNat < 2048 := by decide

/-- C01 does not hold as stated: the code turns extended frame 0x123 into standard frame 0x123. -/
theorem C01_fails : ¬ ∀ (f : Frame) (lc : Bool) (junk : Vector Byte 8), ValidFrame f →
    ∃ s, frameToString (ε := Empty) f lc = .ok s ∧ SameFrame f (toframe junk s) := by
  intro h
  let f : Frame := { id := 0x123, isError := false, isRtr := false, isExtended := true,
                     data := #v[1,2,3,4,5,6,7,8], dlc := 2 }
  obtain ⟨s, h1, h2⟩ := h f true #v[0,0,0,0,0,0,0,0] ⟨by decide, by decide⟩
  obtain ⟨s', h1', h2'⟩ := C01_small_extended_becomes_standard f true #v[0,0,0,0,0,0,0,0]
    (by decide) (by decide)
  rw [h1] at h1'
  cases h1'
  have a := h2.2.2.2.1
  have b := h2'.2.2.2.1
  rw [← b] at a
  exact absurd a (by decide)

/-- the frame of the counterexample is a valid one -/
example : ValidFrame { id := 0x123, isError := false, isRtr := false, isExtended := true,
                       data := #v[1,2,3,4,5,6,7,8], dlc := 2 } := ⟨by decide, by decide⟩

private theorem digit_table : ∀ (lc : Bool) (n : Fin 256),
    dec2hex (BitVec.ofNat 8 n.val) lc =
      match (if lc then "0123456789abcdef" else "0123456789ABCDEF").toList[n.val]? with
      | some c => (true, c)
      | none => (false, '?') := by decide +kernel

/-- C02 for one digit: a conversion to a digit succeeds exactly for the numbers below sixteen and gives the digit at this place, in the case asked for; reading the
digit gives the number back. -/
theorem C02_digit (d : Byte) (lc : Bool) :
    ((dec2hex d lc).1 = true ↔ d.toNat < 16) ∧
    (d.toNat < 16 → (if lc then "0123456789abcdef" else "0123456789ABCDEF").toList[d.toNat]? = some (dec2hex d lc).2 ∧
      hex2dec (dec2hex d lc).2 = some d) := by
  have hl : (if lc then "0123456789abcdef" else "0123456789ABCDEF").toList.length = 16 := by cases lc <;> decide
  have h := digit_table lc ⟨d.toNat, d.isLt⟩
  dsimp only at h
  rw [BitVec.ofNat_toNat, BitVec.setWidth_eq] at h
  refine ⟨?_, ?_⟩
  · rw [h]
    by_cases hd : d.toNat < 16
    · rw [List.getElem?_eq_getElem (by omega)]; simp [hd]
    · rw [List.getElem?_eq_none (by omega)]; simp [hd]
  · intro hd
    refine ⟨?_, ?_⟩
    · rw [h, List.getElem?_eq_getElem (by omega)]
    · rw [hex2dec_eq]
      have := hexDigitVal_dec2hex' lc hd
      rw [BitVec.ofNat_toNat, BitVec.setWidth_eq] at this
      rw [this]
      simp

example : (dec2hex 11 false) = (true, 'B') ∧ (dec2hex 11 true) = (true, 'b') ∧ hex2dec 'B' = some 11 ∧ (dec2hex 16 true).1 = false := by decide

/-- C02.  `buffer2hex` writes exactly two hex digits per byte with the byte's value. -/
theorem C02_buffer2hex_denotes (bs : List Byte) (lc : Bool) :
    Denotes (buffer2hex bs lc) bs ∧ (buffer2hex bs lc).length = 2 * bs.length :=
  ⟨buffer2hex_denotes bs lc, denotes_length (buffer2hex_denotes bs lc)⟩

example : buffer2hex [0x1f#8, 0xa0#8] true = "1fa0".toList ∧ buffer2hex [0x1f#8, 0xa0#8] false = "1FA0".toList := by decide

/-- C02.  `hex2buffer` undoes `buffer2hex`, for every byte string, both letter cases, with or without padding,
and whatever the output string held before. -/
theorem C02_hex_roundtrip (out bs : List Byte) (lc pad : Bool) :
    hex2buffer out (buffer2hex bs lc) pad = (true, bs) := by
  rw [hex2buffer_iff, if_neg (by rw [(C02_buffer2hex_denotes bs lc).2]; omega)]
  exact buffer2hex_denotes bs lc

example : hex2buffer [9#8] (buffer2hex [0x1f#8, 0xa0#8] false) true = (true, [0x1f#8, 0xa0#8]) := by decide

/-- C02.  `hex2buffer` succeeds with `bs` exactly if the text (with a leading 0 when an odd text is padded) denotes `bs`. -/
theorem C02_hex2buffer_decodes (out : List Byte) (t : Text) (pad : Bool) (bs : List Byte) :
    hex2buffer out t pad = (true, bs) ↔
      Denotes (if t.length % 2 = 1 ∧ pad = true then '0' :: t else t) bs :=
  hex2buffer_iff out t pad bs

/-- an odd text with padding, refused without -/
example : hex2buffer [] "1fA".toList true = (true, [0x01#8, 0xfa#8]) ∧ (hex2buffer [] "1fA".toList false).1 = false := by decide

/-- C02.  `hex2buffer` succeeds exactly on texts of hex digits that have even length or may be padded. -/
theorem C02_hex2buffer_accepts (out : List Byte) (t : Text) (pad : Bool) :
    (hex2buffer out t pad).1 = true ↔ (t.length % 2 = 0 ∨ pad = true) ∧ ∀ c ∈ t, IsHex c := by
  constructor
  · intro h
    have h' : hex2buffer out t pad = (true, (hex2buffer out t pad).2) := Prod.ext h rfl
    rw [hex2buffer_iff] at h'
    have hl := denotes_length h'
    have hx := denotes_hex h'
    split at h'
    · rename_i hc
      rw [if_pos hc] at hx
      exact ⟨.inr hc.2, fun c h => hx c (by simp [h])⟩
    · rename_i hc
      rw [if_neg hc] at hx hl
      exact ⟨.inl (by omega), hx⟩
  · rintro ⟨h1, h2⟩
    by_cases hc : t.length % 2 = 1 ∧ pad = true
    · obtain ⟨bs, hb⟩ := denotes_exists ('0' :: t) (by simp; omega)
        (by intro c hc; simp at hc; rcases hc with rfl | hc; exact (by decide); exact h2 c hc)
      have : hex2buffer out t pad = (true, bs) := by rw [hex2buffer_iff, if_pos hc]; exact hb
      rw [this]
    · have he : t.length % 2 = 0 := by
        rcases h1 with h | h
        · exact h
        · have : ¬ t.length % 2 = 1 := fun h' => hc ⟨h', h⟩
          omega
      obtain ⟨bs, hb⟩ := denotes_exists t he h2
      have : hex2buffer out t pad = (true, bs) := by rw [hex2buffer_iff, if_neg hc]; exact hb
      rw [this]

example : Denotes ['1', 'f', 'A', '0'] [0x1f#8, 0xa0#8] :=
  ⟨⟨1, 15, by decide, by decide, by decide⟩, ⟨10, 0, by decide, by decide, by decide⟩, trivial⟩

/-- C03.  Whatever the text, the parsed frame has at most 8 payload bytes (so reading its payload is defined). -/
theorem C03_toframe_dlc (junk : Vector Byte 8) (s : Text) : (toframe junk s).dlc.toNat ≤ 8 := by
  unfold toframe
  split
  · simp [Frame.ofHeader]
  · rename_i hd x rest _
    by_cases hv : (toheader hd).isValid = true
    · simp only [hv, if_true]
      split
      · split
        · simp [Frame.ofHeader]
        · simp; omega
      · simp [Frame.ofHeader]
    · simp only [hv]; simp [Frame.ofHeader]

/-- nine bytes do not get in -/
example : (toframe #v[9,9,9,9,9,9,9,9] "123#0102".toList).dlc = 2 ∧
    (toframe #v[9,9,9,9,9,9,9,9] "123#010203040506070809".toList).dlc = 0 := by decide +kernel

/-- C03.  A text without '#' gives a frame marked invalid. -/
theorem C03_toframe_no_separator (junk : Vector Byte 8) (s : Text) (h : '#' ∉ s) :
    ¬ ValidFrame (toframe junk s) := by
  have : splitFirst (· = '#') s = none := by
    rw [splitFirst_none]
    intro c hc
    simp
    rintro rfl; exact h hc
  unfold toframe
  simp only [this]
  rintro ⟨_, h2⟩
  exact absurd (h2 rfl) (by simp [Frame.ofHeader, Header.msg, Header.mk'])

example : '#' ∉ "12345".toList := by decide

/-- C03.  A payload text denoting more than 8 bytes gives a frame marked invalid. -/
theorem C03_toframe_too_long (junk : Vector Byte 8) (hd pl : Text) (bs : List Byte)
    (hh : '#' ∉ hd) (hb : Denotes pl bs) (h9 : 8 < bs.length) :
    ¬ ValidFrame (toframe junk (hd ++ '#' :: pl)) := by
  have hs : splitFirst (· = '#') (hd ++ '#' :: pl) = some (hd, '#', pl) :=
    splitFirst_append _ _ _ _ (fun c hc => by simp; rintro rfl; exact hh hc) (by simp)
  have hp : hex2buffer [] pl false = (true, bs) := by
    rw [hex2buffer_iff]; simpa using hb
  unfold toframe
  simp only [hs, hp]
  split
  · rintro ⟨_, h2⟩
    exact absurd (h2 rfl) (by simp [Frame.ofHeader, Header.msg, Header.mk'])
  · rename_i hv
    rintro ⟨h1, h2⟩
    apply hv
    simp only [Frame.ofHeader] at h1 h2
    unfold Header.isValid
    have := (toheader hd).id.isLt
    cases hx' : (toheader hd).isExtended with
    | true => simpa using this
    | false => simpa using h2 hx'

example : '#' ∉ "123".toList ∧ Denotes (buffer2hex (List.replicate 9 0x1f#8) true) (List.replicate 9 0x1f#8) ∧
    8 < (List.replicate 9 0x1f#8).length := ⟨by decide, buffer2hex_denotes _ _, by decide⟩

/-- C03.  For a well-formed payload of at most 8 bytes after a header in range, length and data are the decoded bytes. -/
theorem C03_toframe_payload (junk : Vector Byte 8) (hd pl : Text) (bs : List Byte)
    (hh : '#' ∉ hd) (hb : Denotes pl bs) (h8 : bs.length ≤ 8)
    (hv : ValidFrame (toframe junk (hd ++ '#' :: pl))) :
    (toframe junk (hd ++ '#' :: pl)).dlc.toNat = bs.length ∧
    ∀ i, (h : i < 8) → (h' : i < bs.length) → (toframe junk (hd ++ '#' :: pl)).data[i] = bs[i] := by
  have hno : ∀ c ∈ hd, c ≠ '#' := fun c hc => by rintro rfl; exact hh hc
  by_cases hv' : (toheader hd).isValid = true
  · rw [toframe_text junk hd pl hno bs hv' hb h8]
    refine ⟨by simp; omega, ?_⟩
    intro i h h'
    simp [copyInto, h']
  · exfalso
    have hs : splitFirst (· = '#') (hd ++ '#' :: pl) = some (hd, '#', pl) :=
      splitFirst_append _ _ _ _ (fun c hc => by simpa using hno c hc) (by simp)
    unfold toframe at hv
    simp only [hs, hv'] at hv
    obtain ⟨h1, h2⟩ := hv
    apply hv'
    simp [Frame.ofHeader] at h1 h2
    unfold Header.isValid
    have := (toheader hd).id.isLt
    cases hx' : (toheader hd).isExtended with
    | true => simpa using this
    | false => simpa using h2 hx'

example : '#' ∉ ['1', '2', '3'] ∧ Denotes ['0', '1', 'F', 'f'] [1#8, 0xff#8] ∧
    ValidFrame (toframe #v[9,9,9,9,9,9,9,9] ['1', '2', '3', '#', '0', '1', 'F', 'f']) :=
  ⟨by decide, ⟨⟨0, 1, by decide, by decide, by decide⟩, ⟨15, 15, by decide, by decide, by decide⟩, trivial⟩,
    by decide +kernel, by decide +kernel⟩

end Verif.Props
