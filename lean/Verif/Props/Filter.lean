import Verif.Lemmas.Filter

/-!
# Properties of headers and filters: C03 – C08
-/

namespace Verif.Props
open Verif Verif.Spec Verif.Txt Verif.Flt

/-- C04.  `fullid` is the identifier plus the flag weights 2^29 (error), 2^30 (RTR), 2^31 (extended). -/
theorem C04_fullid_value (h : Header) : h.fullid.toNat = idWord h := fullid_idWord h

example : (Header.fullid { id := 0x123, isError := false, isRtr := true, isExtended := true }).toNat = 0x123 + 2 ^ 30 + 2 ^ 31 := by
  decide

/-- C04.  Two headers have the same `fullid` exactly when all four fields agree. -/
theorem C04_fullid_injective (h g : Header) :
    h.fullid = g.fullid ↔
      (h.id = g.id ∧ h.isError = g.isError ∧ h.isRtr = g.isRtr ∧ h.isExtended = g.isExtended) := by
  constructor
  · intro e
    cases fullid_inj e
    exact ⟨rfl, rfl, rfl, rfl⟩
  · rintro ⟨a, b, c, d⟩
    cases h; cases g; simp_all

example : Header.fullid (Header.msg 0x123#32) ≠ Header.fullid (Header.ext 0x123#32) := by decide

/-- C04.  All error frames share one key and no other frame has it. -/
theorem C04_key_error (h g : Header) (he : h.isError = true) : h.key = g.key ↔ g.isError = true := by
  have hk : h.key.toNat = 2 ^ 29 := by rw [key_filterWord]; simp [filterWord, he]
  constructor
  · intro e
    cases hg : g.isError with
    | true => rfl
    | false =>
      have e' := congrArg BitVec.toNat e
      rw [hk, key_filterWord] at e'
      simp only [filterWord, hg, idWord] at e'
      have := g.id.isLt
      simp only [Bool.false_eq_true, if_false] at e'
      split at e' <;> split at e' <;> omega
  · intro hg
    simp [Header.key, he, hg]

example : (Header.err 0x20#32).isError = true ∧ Header.key (Header.err 0x20#32) = Header.key (Header.err 0x40#32) ∧
    Header.key (Header.err 0x20#32) ≠ Header.key (Header.msg 0x20#32) := by decide

/-- C04.  Frames that are not error frames have the same key exactly when their headers are equal. -/
theorem C04_key_data (h g : Header) (he : h.isError = false) (hg : g.isError = false) :
    h.key = g.key ↔ h = g := by
  simp only [Header.key, he, hg, Bool.false_eq_true, if_false]
  exact ⟨fullid_inj, fun e => by rw [e]⟩

example : (Header.msg 0x123#32).isError = false ∧ (Header.ext 0x123#32).isError = false ∧
    Header.key (Header.msg 0x123#32) ≠ Header.key (Header.ext 0x123#32) := by decide

/-- C04, constructors: the word of a standard, an extended and an error header, for every argument; only the lower 29 bits of the number count. -/
theorem C04_constructors (i : BitVec 32) (rtr : Bool) :
    (Header.msg i rtr).fullid.toNat = i.toNat % 2 ^ 29 + (if rtr then 2 ^ 30 else 0) ∧
    (Header.ext i rtr).fullid.toNat = i.toNat % 2 ^ 29 + (if rtr then 2 ^ 30 else 0) + 2 ^ 31 ∧
    (Header.err i).fullid.toNat = i.toNat % 2 ^ 29 + 2 ^ 29 := by
  cases rtr <;> refine ⟨?_, ?_, ?_⟩ <;> rw [fullid_idWord] <;> simp [idWord, Header.msg, Header.ext, Header.err, Header.mk']

example : (Header.msg 0x7ff#32 true).fullid = 0x400007ff#32 ∧ (Header.ext 0x7ff#32).fullid = 0x800007ff#32 ∧ (Header.err 0x20#32).fullid = 0x20000020#32 := by
  decide

/-- C04.  `isValid` means: an 11 bit identifier unless the frame is extended, and at most 8 bytes. -/
theorem C04_isValid (f : Frame) : f.isValid = true ↔ ValidFrame f := by
  unfold Frame.isValid Header.isValid ValidFrame
  have := f.id.isLt
  cases f.isExtended <;> simp
  omega

example : (Header.err 0x20#32).isError = true ∧ (Header.ext 0x12345#32).isError = false ∧
    Header.key (Header.err 0x20#32) = Header.key (Header.err 0x40#32) ∧
    Header.key (Header.msg 0x123#32) ≠ Header.key (Header.ext 0x123#32) := by decide

/-- C05.  A mask filter passes exactly the frames whose word agrees with the id on all mask bits, resp. with
`invert` exactly the others. -/
theorem C05_mask_filter (id mask : BitVec 32) (inv : Bool) (f : Frame) :
    (maskFilter id mask inv).pass f = true ↔
      (if inv then ¬ AgreeOn mask.toNat (filterWord f.toHeader) id.toNat
       else AgreeOn mask.toNat (filterWord f.toHeader) id.toNat) := by
  rw [mask_pass, key_filterWord]
  cases inv <;> simp

/-- 123:7f0 passes 0x125 and not 0x223 -/
example : (maskFilter 0x123#32 0x7f0#32 false).pass (Frame.ofHeader (Vector.replicate 8 0) (Header.msg 0x125#32)) = true ∧
    (maskFilter 0x123#32 0x7f0#32 false).pass (Frame.ofHeader (Vector.replicate 8 0) (Header.msg 0x223#32)) = false := by decide

/-- C05.  A mask filter and its inverted twin never agree. -/
theorem C05_mask_invert (id mask : BitVec 32) (inv : Bool) (f : Frame) :
    (maskFilter id mask (!inv)).pass f = !((maskFilter id mask inv).pass f) := by
  simp only [maskFilter, Filter.pass]
  cases ((mask &&& f.key) == id &&& mask) <;> cases inv <;> rfl

example : (maskFilter 0x123#32 0x7f0#32 true).pass (Frame.ofHeader (Vector.replicate 8 0) (Header.msg 0x223#32)) = true := by decide

/-- C06.  A range filter passes exactly the frames whose word lies between the bounds, resp. with
`invert` exactly the others. -/
theorem C06_range_filter (lo hi : BitVec 32) (inv : Bool) (f : Frame) :
    (rangeFilter lo hi inv).pass f = true ↔
      (if inv then ¬ (lo.toNat ≤ filterWord f.toHeader ∧ filterWord f.toHeader ≤ hi.toNat)
       else lo.toNat ≤ filterWord f.toHeader ∧ filterWord f.toHeader ≤ hi.toNat) := by
  rw [range_pass, key_filterWord]
  cases inv
  · simp
  · simp

/-- both bounds belong to the range -/
example : (rangeFilter 0x100#32 0x1ff#32 false).pass (Frame.ofHeader (Vector.replicate 8 0) (Header.msg 0x100#32)) = true ∧
    (rangeFilter 0x100#32 0x1ff#32 false).pass (Frame.ofHeader (Vector.replicate 8 0) (Header.msg 0x1ff#32)) = true ∧
    (rangeFilter 0x100#32 0x1ff#32 false).pass (Frame.ofHeader (Vector.replicate 8 0) (Header.msg 0x200#32)) = false := by decide

/-- C06.  Inversion. -/
theorem C06_range_invert (lo hi : BitVec 32) (inv : Bool) (f : Frame) :
    (rangeFilter lo hi (!inv)).pass f = !((rangeFilter lo hi inv).pass f) := by
  simp only [rangeFilter, Filter.pass]
  cases (decide (lo ≤ f.key) && decide (f.key ≤ hi)) <;> cases inv <;> rfl

example : (rangeFilter 0x100#32 0x1ff#32 true).pass (Frame.ofHeader (Vector.replicate 8 0) (Header.msg 0x200#32)) = true := by decide

/-- C06.  A range filter made without saying whether it is inverted passes the frames in the range. -/
theorem C06_range_default (lo hi : BitVec 32) (f : Frame) :
    (rangeFilter lo hi).pass f = true ↔ lo.toNat ≤ filterWord f.toHeader ∧ filterWord f.toHeader ≤ hi.toNat := by
  rw [C06_range_filter]
  simp

example : (rangeFilter 0x100#32 0x1ff#32).pass (Frame.ofHeader (Vector.replicate 8 0) (Header.msg 0x1ff#32)) = true ∧
    (rangeFilter 0x100#32 0x1ff#32).pass (Frame.ofHeader (Vector.replicate 8 0) (Header.msg 0x200#32)) = false := by decide

/-- the identifier word denoted by a header text of value `n`: eight digits with an identifier of 0x800 or more
mean an extended identifier -/
def textWord (a : Text) (n : Nat) : Nat :=
  if a.length = 8 ∧ 2 ^ 11 ≤ n % 2 ^ 29 then n % 2 ^ 31 + 2 ^ 31 else n

theorem toheader_idWord (a : Text) (n : Nat) (ha : HexNumeral a n) (hn : n < 2 ^ 32) : idWord (toheader a) = textWord a n := by
  rw [← fullid_idWord, toheader_word a n ha hn, textWord]

theorem idWord_ext (h : Header) : h.isExtended = true ↔ 2 ^ 31 ≤ idWord h := by
  have := h.id.isLt
  unfold idWord
  cases h.isExtended <;> cases h.isRtr <;> cases h.isError <;>
    simp only [Bool.false_eq_true, if_true, if_false, true_iff, false_iff] <;> omega

/-- C03.  A header text of hex digits, then '#': the frame has exactly the identifier word written.  If it is in range and the
payload text denotes at most 8 bytes, the frame is valid and carries these bytes; a malformed payload text gives an empty
frame; an identifier out of range gives an empty frame marked invalid. -/
theorem C03_toframe_meaning (junk : Vector Byte 8) (hd pl : Text) (n : Nat) (hn : HexNumeral hd n) (hlt : n < 2 ^ 32) :
    let f := toframe junk (hd ++ '#' :: pl)
    let inRange := 2 ^ 31 ≤ textWord hd n ∨ n % 2 ^ 29 < 2 ^ 11
    (∀ bs, inRange → Denotes pl bs → bs.length ≤ 8 → idWord f.toHeader = textWord hd n ∧ ValidFrame f ∧
      f.dlc.toNat = bs.length ∧ ∀ i, (h : i < 8) → (h' : i < bs.length) → f.data[i] = bs[i]) ∧
    (inRange → (¬ ∃ bs, Denotes pl bs) → idWord f.toHeader = textWord hd n ∧ ValidFrame f ∧ f.dlc = 0) ∧
    (¬ inRange → idWord f.toHeader = textWord hd n ∧ ¬ ValidFrame f ∧ f.dlc = 0) := by
  have hno : ∀ c ∈ hd, c ≠ '#' := by
    intro c hc
    have := hn.2.1 c hc
    rintro rfl
    exact absurd this (by decide)
  have hs : splitFirst (· = '#') (hd ++ '#' :: pl) = some (hd, '#', pl) :=
    splitFirst_append _ _ _ _ (fun c hc => by simpa using hno c hc) (by simp)
  have hw := toheader_idWord hd n hn hlt
  have hid : (toheader hd).id.toNat = n % 2 ^ 29 := by
    rw [toheader_numeral hd n hn hlt]; simp
  have hx : (toheader hd).isExtended = true ↔ 2 ^ 31 ≤ textWord hd n := by
    rw [← hw]; exact idWord_ext _
  have hval : (toheader hd).isValid = true ↔ (2 ^ 31 ≤ textWord hd n ∨ n % 2 ^ 29 < 2 ^ 11) := by
    unfold Header.isValid
    rw [← hx, hid]
    cases (toheader hd).isExtended
    · simp
    · have : n % 2 ^ 29 < 2 ^ 29 := Nat.mod_lt _ (by decide)
      simp [this]
  have hvf : ∀ (dlc : Byte) (data : Vector Byte 8), dlc.toNat ≤ 8 →
      (ValidFrame { toHeader := toheader hd, data := data, dlc := dlc } ↔ (toheader hd).isValid = true) := by
    intro dlc data h8
    have := (toheader hd).id.isLt
    unfold ValidFrame Header.isValid
    cases hx' : (toheader hd).isExtended
    · simp [h8]
    · simp [h8, this]
  intro f inRange
  refine ⟨?_, ?_, ?_⟩
  · intro bs hr hb h8
    have hv := hval.2 hr
    have hf : f = { Frame.ofHeader junk (toheader hd) with data := copyInto junk bs, dlc := BitVec.ofNat 8 bs.length } := by
      have hp : hex2buffer [] pl false = (true, bs) := by rw [hex2buffer_iff]; simpa using hb
      show toframe junk _ = _
      unfold toframe
      simp only [hs, hp, hv, if_true]
      rw [if_neg (by omega)]
      rfl
    have hd8 : (BitVec.ofNat 8 bs.length).toNat = bs.length := by
      rw [BitVec.toNat_ofNat]; omega
    rw [hf]
    refine ⟨hw, (hvf _ _ (by rw [hd8]; exact h8)).2 hv, hd8, ?_⟩
    intro i h h'
    simp [copyInto, h']
  · intro hr hb
    have hv := hval.2 hr
    have hf : f = Frame.ofHeader junk (toheader hd) := by
      show toframe junk _ = _
      unfold toframe
      simp only [hs, hv, if_true]
      split
      · rename_i buffer hp
        rw [hex2buffer_iff] at hp
        exact absurd ⟨buffer, by simpa using hp⟩ hb
      · rfl
    rw [hf]
    exact ⟨hw, (hvf _ _ (by simp)).2 hv, rfl⟩
  · intro hr
    have hv : ¬ (toheader hd).isValid = true := fun h => hr (hval.1 h)
    have hf : f = Frame.ofHeader junk (toheader hd) := by
      show toframe junk _ = _
      unfold toframe
      simp only [hs]
      rw [if_neg hv]
    rw [hf]
    exact ⟨hw, fun h => hv ((hvf _ _ (by simp)).1 h), rfl⟩

/-- C03.  Header texts whose number does not fit into 32 bits are not refused: the frame has all bits of the identifier word
set, hence it is a valid extended error frame, and carries the payload written. -/
theorem C03_header_too_large (junk : Vector Byte 8) (hd pl : Text) (n : Nat) (hn : HexNumeral hd n) (hge : 2 ^ 32 ≤ n) :
    let f := toframe junk (hd ++ '#' :: pl)
    (∀ bs, Denotes pl bs → bs.length ≤ 8 → idWord f.toHeader = 2 ^ 32 - 1 ∧ ValidFrame f ∧
      f.dlc.toNat = bs.length ∧ ∀ i, (h : i < 8) → (h' : i < bs.length) → f.data[i] = bs[i]) ∧
    ((¬ ∃ bs, Denotes pl bs) → idWord f.toHeader = 2 ^ 32 - 1 ∧ ValidFrame f ∧ f.dlc = 0) := by
  have hno : ∀ c ∈ hd, c ≠ '#' := by
    intro c hc
    have := hn.2.1 c hc
    rintro rfl
    exact absurd this (by decide)
  have hs : splitFirst (· = '#') (hd ++ '#' :: pl) = some (hd, '#', pl) :=
    splitFirst_append _ _ _ _ (fun c hc => by simpa using hno c hc) (by simp)
  have ht : tohex hd = 0xFFFFFFFF#32 := by rw [tohex_any hd n hn, if_neg (by omega)]
  have hh : toheader hd = { id := 0x1FFFFFFF#29, isError := true, isRtr := true, isExtended := true } := by
    have e1 : (decide (0xFFFFFFFF#32 &&& Header.EXTENDED_MASK ≠ 0#32)) = true := by decide
    have e2 : (decide (0xFFFFFFFF#32 &&& Header.RTR_MASK ≠ 0#32)) = true := by decide
    have e3 : (decide (0xFFFFFFFF#32 &&& Header.ERROR_MASK ≠ 0#32)) = true := by decide
    unfold toheader
    simp only [ht, e1, e2, e3, Bool.true_or]
    rfl
  have hv : (toheader hd).isValid = true := by rw [hh]; decide
  have hw : idWord (toheader hd) = 2 ^ 32 - 1 := by rw [hh]; decide
  intro f
  refine ⟨?_, ?_⟩
  · intro bs hb h8
    have hp : hex2buffer [] pl false = (true, bs) := by rw [hex2buffer_iff]; simpa using hb
    have hf : f = { Frame.ofHeader junk (toheader hd) with data := copyInto junk bs, dlc := BitVec.ofNat 8 bs.length } := by
      show toframe junk _ = _
      unfold toframe
      simp only [hs, hp, hv, if_true]
      rw [if_neg (by omega)]
      rfl
    have hd8 : (BitVec.ofNat 8 bs.length).toNat = bs.length := by
      rw [BitVec.toNat_ofNat]; omega
    rw [hf]
    refine ⟨hw, ?_, hd8, ?_⟩
    · rw [hh]; simp [ValidFrame, Frame.ofHeader]; omega
    · intro i h h'
      simp [copyInto, h']
  · intro hb
    have hf : f = Frame.ofHeader junk (toheader hd) := by
      show toframe junk _ = _
      unfold toframe
      simp only [hs, hv, if_true]
      split
      · rename_i buffer hp
        rw [hex2buffer_iff] at hp
        exact absurd ⟨buffer, by simpa using hp⟩ hb
      · rfl
    rw [hf]
    refine ⟨hw, ?_, rfl⟩
    rw [hh]; simp [ValidFrame, Frame.ofHeader]

example : HexNumeral "100000000".toList (2 ^ 32) ∧ Denotes "0102".toList [1, 2] :=
  ⟨⟨by decide, by decide, by decide⟩, by simp [Denotes]; decide⟩

/-- C03.  Header texts without any digit are not refused: the frame has identifier 0 (on a CANopen bus a network management command), is valid, and carries the payload written. -/
theorem C03_header_no_number (junk : Vector Byte 8) (hd pl : Text) (hn : ∀ c ∈ hd, ¬ IsHex c ∧ c ≠ '#') (bs : List Byte) (hb : Denotes pl bs) (h8 : bs.length ≤ 8) :
    let f := toframe junk (hd ++ '#' :: pl)
    idWord f.toHeader = 0 ∧ ValidFrame f ∧ f.dlc.toNat = bs.length ∧ ∀ i, (h : i < 8) → (h' : i < bs.length) → f.data[i] = bs[i] := by
  have hs : splitFirst (· = '#') (hd ++ '#' :: pl) = some (hd, '#', pl) :=
    splitFirst_append _ _ _ _ (fun c hc => by simpa using (hn c hc).2) (by simp)
  have hscan : ∀ t : Text, (∀ c ∈ t, ¬ IsHex c) → scanPrefixed t = (0, false) := by
    intro t ht
    have hz : ¬ ∃ r, t = '0' :: r := by
      rintro ⟨r, rfl⟩
      exact ht '0' (by simp) (by decide)
    have hr : scanHex t 0 false = (0, false) := by
      cases t with
      | nil => rfl
      | cons c r =>
        have hc : hex2dec c = none := by
          rw [hex2dec_eq]
          have := ht c (by simp)
          unfold IsHex at this
          cases hv : hexDigitVal c with
          | none => rfl
          | some v => rw [hv] at this; exact absurd rfl this
        simp only [scanHex, hc]
    unfold scanPrefixed
    split
    · exact absurd ⟨_, rfl⟩ hz
    · exact absurd ⟨_, rfl⟩ hz
    · exact absurd ⟨_, rfl⟩ hz
    · exact hr
  have hsub : ∀ c ∈ (takeSign (hd.dropWhile isSpace)).2, ¬ IsHex c := by
    intro c hc
    have hd' : ∀ c ∈ hd.dropWhile isSpace, ¬ IsHex c := fun c hc => (hn c ((List.dropWhile_sublist _).subset hc)).1
    unfold takeSign at hc
    split at hc
    · rename_i r hr; exact hd' c (by rw [hr]; exact List.mem_cons_of_mem _ hc)
    · rename_i r hr; exact hd' c (by rw [hr]; exact List.mem_cons_of_mem _ hc)
    · exact hd' c hc
  have ht : tohex hd = 0#32 := by
    unfold tohex
    dsimp only
    rw [hscan _ hsub]
    rfl
  have hh : toheader hd = { id := 0, isError := false, isRtr := false, isExtended := false } := by
    have e1 : (decide (0#32 &&& Header.EXTENDED_MASK ≠ 0#32)) = false := by decide
    have e2 : (decide (0#32 &&& Header.RTR_MASK ≠ 0#32)) = false := by decide
    have e3 : (decide (0#32 &&& Header.ERROR_MASK ≠ 0#32)) = false := by decide
    have e4 : (decide (2 ^ 11 ≤ (0#32 &&& Header.ID_MASK).toNat)) = false := by decide
    unfold toheader
    simp only [ht, e1, e2, e3, e4, Bool.and_false, Bool.or_false]
    rfl
  have hv : (toheader hd).isValid = true := by rw [hh]; decide
  have hw : idWord (toheader hd) = 0 := by rw [hh]; decide
  intro f
  have hp : hex2buffer [] pl false = (true, bs) := by rw [hex2buffer_iff]; simpa using hb
  have hf : f = { Frame.ofHeader junk (toheader hd) with data := copyInto junk bs, dlc := BitVec.ofNat 8 bs.length } := by
    show toframe junk _ = _
    unfold toframe
    simp only [hs, hp, hv, if_true]
    rw [if_neg (by omega)]
    rfl
  have hd8 : (BitVec.ofNat 8 bs.length).toNat = bs.length := by
    rw [BitVec.toNat_ofNat]; omega
  rw [hf]
  refine ⟨hw, ?_, hd8, ?_⟩
  · rw [hh]; simp [ValidFrame, Frame.ofHeader]; omega
  · intro i h h'
    simp [copyInto, h']

example : (∀ c ∈ " -xyz".toList, ¬ IsHex c ∧ c ≠ '#') ∧ Denotes "8102".toList [0x81, 2] := ⟨by decide, by simp [Denotes]; decide⟩

/-- header texts in range and out of range -/
example : HexNumeral "7ff".toList 0x7ff ∧ HexNumeral "800".toList 0x800 ∧ textWord "00000800".toList 0x800 = 0x80000800 ∧
    textWord "800".toList 0x800 = 0x800 :=
  ⟨⟨by decide, by decide, by decide⟩, ⟨by decide, by decide, by decide⟩, by decide, by decide⟩

/-- C07.  The filter made from a number passes exactly the frames whose word is that number, up to the extended bit. -/
theorem C07_filter_number (id : BitVec 32) (f : Frame) :
    (tofilterId id).pass f = true ↔ filterWord f.toHeader % 2 ^ 31 = id.toNat % 2 ^ 31 := by
  have hmask : MASK_RELAXED.toNat = 2 ^ 31 - 1 := by decide
  rw [← key_filterWord]
  simp only [tofilterId, maskFilter, Filter.pass, Bool.bne_false, beq_iff_eq]
  rw [← BitVec.toNat_inj]
  simp only [BitVec.toNat_and, hmask]
  rw [Nat.and_comm, Nat.and_two_pow_sub_one_eq_mod, Nat.and_two_pow_sub_one_eq_mod]

example : (tofilterId 0x123#32).pass (Frame.ofHeader (Vector.replicate 8 0) (Header.ext 0x123#32)) = true := by decide

/-- C07.  `id:mask` and `id~mask`. -/
theorem C07_filter_text_mask (a b : Text) (n m : Nat) (inv : Bool) (f : Frame)
    (ha : HexNumeral a n) (hn : n < 2 ^ 32) (hb : HexNumeral b m) (hm : m < 2 ^ 32) :
    (tofilter (a ++ (if inv then '~' else ':') :: b)).pass f = true ↔
      (if inv then ¬ AgreeOn m (filterWord f.toHeader) (textWord a n)
       else AgreeOn m (filterWord f.toHeader) (textWord a n)) := by
  have hw := toheader_word a n ha hn
  have hm' : (BitVec.ofNat 32 m).toNat = m := by rw [BitVec.toNat_ofNat, Nat.mod_eq_of_lt hm]
  cases inv
  · simp only [Bool.false_eq_true, if_false]
    rw [tofilter_delim a b ':' n m ha hb hm (by decide)]
    rw [if_neg (by decide), if_pos rfl, mask_pass, key_filterWord, hw, hm']
    simp [textWord]
  · simp only [if_true]
    rw [tofilter_delim a b '~' n m ha hb hm (by decide)]
    rw [if_pos rfl, mask_pass, key_filterWord, hw, hm']
    simp [textWord]

example : HexNumeral ['1', '2', '3'] 0x123 ∧ HexNumeral ['7', 'F', '0'] 0x7f0 :=
  ⟨⟨by decide, by decide, by decide⟩, ⟨by decide, by decide, by decide⟩⟩

/-- C07.  A bare identifier passes the frame word up to the extended bit: for a non-error frame the identifier has
to match and the frame must not be a remote request. -/
theorem C07_filter_text_plain (a : Text) (n : Nat) (f : Frame)
    (ha : HexNumeral a n) (hn : n < 2 ^ 29) :
    (tofilter a).pass f = true ↔ (f.isError = false ∧ f.isRtr = false ∧ f.id.toNat = n) := by
  have hw := toheader_word a n ha (by omega)
  rw [tofilter_plain a n ha]
  have hk := key_filterWord f.toHeader
  have hmask : MASK_RELAXED.toNat = 2 ^ 31 - 1 := by decide
  have e : (maskFilter (toheader a).fullid MASK_RELAXED false).pass f = true ↔
      (f.key.toNat % 2 ^ 31 = n) := by
    simp only [maskFilter, Filter.pass, Bool.bne_false, beq_iff_eq]
    rw [← BitVec.toNat_inj]
    simp only [BitVec.toNat_and, hmask]
    rw [Nat.and_comm, Nat.and_two_pow_sub_one_eq_mod, Nat.and_two_pow_sub_one_eq_mod, hw]
    constructor
    · intro h
      rw [h]
      split <;> omega
    · intro h
      rw [h]
      split <;> omega
  rw [e, hk]
  unfold filterWord idWord
  have := f.id.isLt
  cases f.isError <;> cases f.isRtr <;> cases f.isExtended <;> simp <;> omega

example : HexNumeral ['1', '2', '3'] 0x123 ∧ 0x123 < 2 ^ 29 := ⟨⟨by decide, by decide, by decide⟩, by decide⟩

/-- C07 (proved part).  `lo-hi` and `lo_hi` for texts that denote standard identifiers words.
Missing for the full property: bounds written as extended identifiers (see `C07_extended_range_fails`). -/
theorem C07_filter_text_range_partial (a b : Text) (n m : Nat) (inv : Bool) (f : Frame)
    (ha : HexNumeral a n) (hn : n < 2 ^ 32) (hb : HexNumeral b m) (hm : m < 2 ^ 32)
    (hstd : ¬ (a.length = 8 ∧ 2 ^ 11 ≤ n % 2 ^ 29)) :
    (tofilter (a ++ (if inv then '_' else '-') :: b)).pass f = true ↔
      (if inv then ¬ (n ≤ filterWord f.toHeader ∧ filterWord f.toHeader ≤ m)
       else n ≤ filterWord f.toHeader ∧ filterWord f.toHeader ≤ m) := by
  have hw := toheader_word a n ha hn
  rw [if_neg hstd] at hw
  have hm' : (BitVec.ofNat 32 m).toNat = m := by rw [BitVec.toNat_ofNat, Nat.mod_eq_of_lt hm]
  cases inv
  · simp only [Bool.false_eq_true, if_false]
    rw [tofilter_delim a b '-' n m ha hb hm (by decide)]
    rw [if_neg (by decide), if_neg (by decide), if_neg (by decide), range_pass, key_filterWord, hw, hm']
    simp
  · simp only [if_true]
    rw [tofilter_delim a b '_' n m ha hb hm (by decide)]
    rw [if_neg (by decide), if_neg (by decide), if_pos rfl, range_pass, key_filterWord, hw, hm']
    simp

/-- a range over standard identifiers, 100-1ff, covered by the theorem above -/
example : HexNumeral ['1', '0', '0'] 0x100 ∧ HexNumeral ['1', 'f', 'f'] 0x1ff ∧
    ¬ (['1', '0', '0'].length = 8 ∧ 2 ^ 11 ≤ 0x100 % 2 ^ 29) :=
  ⟨⟨by decide, by decide, by decide⟩, ⟨by decide, by decide, by decide⟩, by decide⟩

/-- C07 fails for extended ranges: whatever eight-digit bounds below 2^29 are written, if the lower one denotes an
extended identifier then no frame at all passes `lo-hi`. -/
theorem C07_extended_range_fails (a b : Text) (n m : Nat) (f : Frame)
    (ha : HexNumeral a n) (hn : n < 2 ^ 29) (hb : HexNumeral b m) (hm : m < 2 ^ 29)
    (hl : a.length = 8) (hx : 2 ^ 11 ≤ n) :
    (tofilter (a ++ '-' :: b)).pass f = false := by
  have hw := toheader_word a n ha (by omega)
  rw [if_pos ⟨hl, by rw [Nat.mod_eq_of_lt hn]; exact hx⟩] at hw
  rw [tofilter_delim a b '-' n m ha hb (by omega) (by decide)]
  rw [if_neg (by decide), if_neg (by decide), if_neg (by decide)]
  rw [← Bool.not_eq_true, range_pass, hw, BitVec.toNat_ofNat]
  simp
  omega

example : HexNumeral ['0','0','0','0','1','0','0','0'] 0x1000 ∧ HexNumeral ['0','0','0','0','2','0','0','0'] 0x2000 :=
  ⟨⟨by decide, by decide, by decide⟩, ⟨by decide, by decide, by decide⟩⟩

/-- C08.  The callback is invoked exactly once, in order, for the frames passing at least one filter. -/
theorem C08_filtered_listener (filters : List Filter) (frames : List Frame) :
    listenerRun filters frames = frames.filter (fun f => filters.any (·.pass f)) :=
  listenerRun_eq filters frames

/-- two overlapping filters, three frames: the frame that passes both is delivered once -/
example : let fr := fun i : BitVec 32 => Frame.ofHeader (Vector.replicate 8 0) (Header.msg i)
    (listenerRun [rangeFilter 0x100#32 0x1ff#32 false, maskFilter 0x123#32 0x7ff#32 false] [fr 0x123#32, fr 0x300#32, fr 0x1ff#32]).map (·.id) =
      [0x123#29, 0x1ff#29] := by decide +kernel

/-- C08.  Without filters nothing is delivered. -/
theorem C08_no_filters (frames : List Frame) : listenerRun [] frames = [] := by
  rw [listenerRun_eq]; simp

example : listenerRun [] [Frame.ofHeader (Vector.replicate 8 0) (Header.msg 0x123#32)] = [] := by decide

end Verif.Props
