import Verif.Lemmas.Dict
import Verif.Props.Text

/-!
# C24 - C27: keys, integer and octet literals
-/

set_option linter.unusedSimpArgs false

namespace Verif.Props
open Verif Verif.OD Verif.Txt Verif.Spec

/-- C24.  A key remembers exactly what it was built from. -/
theorem C24_key_parts (i : BitVec 16) (s : BitVec 8) :
    (Key.ofIndex i).index = i ∧ (Key.ofIndex i).hasSub = false ∧
    (Key.ofSub i s).index = i ∧ (Key.ofSub i s).subIndex = s ∧ (Key.ofSub i s).hasSub = true :=
  ⟨Key.ofIndex_index i, Key.ofIndex_hasSub i, Key.ofSub_index i s, Key.ofSub_sub i s, Key.ofSub_hasSub i s⟩

example : (Key.ofSub 0x1A00#16 10#8).index = 0x1A00#16 ∧ (Key.ofSub 0x1A00#16 10#8).subIndex = 10#8 := by decide

/-- C24.  Keys are equal exactly when built the same way from the same numbers. -/
theorem C24_keys_never_collide (i j : BitVec 16) (s t : BitVec 8) :
    (Key.ofIndex i = Key.ofIndex j ↔ i = j) ∧ (Key.ofSub i s = Key.ofSub j t ↔ i = j ∧ s = t) ∧ Key.ofIndex i ≠ Key.ofSub j t := by
  refine ⟨⟨fun h => ?_, fun h => by rw [h]⟩, ⟨fun h => ?_, fun ⟨h1, h2⟩ => by rw [h1, h2]⟩, fun h => ?_⟩
  · rw [← Key.ofIndex_index i, h, Key.ofIndex_index]
  · exact ⟨by rw [← Key.ofSub_index i s, h, Key.ofSub_index], by rw [← Key.ofSub_sub i s, h, Key.ofSub_sub]⟩
  · have h1 := Key.ofIndex_hasSub i
    rw [h, Key.ofSub_hasSub] at h1
    cases h1

example : Key.ofSub 0x6060#16 0#8 ≠ Key.ofIndex 0x6060#16 ∧ (Key.ofSub 0xFFFF#16 0xFF#8).index = 0xFFFF#16 := by decide

theorem stops_sub (r : Text) : Stops ("sub".toList ++ r) := by
  intro c hc
  have : c = 's' := by simpa using hc.symm
  subst this
  exact ⟨by decide, by decide, by decide⟩

/-- C25.  Any spelling of the numbers in hex digits names the object: an index alone ... -/
theorem C25_index_text (s : Text) (n : Nat) (h : HexNumeral s n) (hn : n < 2 ^ 16) :
    Key.fromText s = Key.ofIndex (BitVec.ofNat 16 n) := by
  have := scanfHex_numeral s [] n h (by omega) stops_nil
  rw [List.append_nil] at this
  unfold Key.fromText
  rw [this]
  have e : scanfLit "sub".toList [] = none := by decide
  simp only [e]
  congr 1
  apply BitVec.eq_of_toNat_eq
  simp

example : HexNumeral "60fF".toList 0x60ff ∧ 0x60ff < 2 ^ 16 := ⟨⟨by decide, by decide, by decide⟩, by decide⟩

/-- ... or an index, the word `sub` and a sub-index. -/
theorem C25_sub_text (s u : Text) (n m : Nat) (h : HexNumeral s n) (hu : HexNumeral u m) (hn : n < 2 ^ 16) (hm : m < 2 ^ 8) :
    Key.fromText (s ++ "sub".toList ++ u) = Key.ofSub (BitVec.ofNat 16 n) (BitVec.ofNat 8 m) := by
  have h1 := scanfHex_numeral s ("sub".toList ++ u) n h (by omega) (stops_sub u)
  have h2 := scanfHex_numeral u [] m hu (by omega) stops_nil
  rw [List.append_nil] at h2
  unfold Key.fromText
  rw [List.append_assoc, h1]
  have e : scanfLit "sub".toList ("sub".toList ++ u) = some u := by
    show scanfLit ['s', 'u', 'b'] ('s' :: 'u' :: 'b' :: u) = some u
    simp [scanfLit]
  simp only [e, h2]
  congr 1
  · apply BitVec.eq_of_toNat_eq
    simp
  · apply BitVec.eq_of_toNat_eq
    simp

example : HexNumeral "1A00".toList 0x1A00 ∧ HexNumeral "0a".toList 10 ∧ Key.fromText "1A00sub0a".toList = Key.ofSub 0x1A00#16 10#8 :=
  ⟨⟨by decide, by decide, by decide⟩, ⟨by decide, by decide, by decide⟩, by decide⟩

theorem ostreamHex_numeral (n : Nat) : HexNumeral (ostreamHex true n) n :=
  ⟨ostreamHex_ne_nil true n, ostreamHex_isHex true n, ostreamHex_value true n⟩

/-- C25.  Printing a key and reading the text gives the key back. -/
theorem C25_key_text_roundtrip (k : Key) (hk : (∃ i, k = Key.ofIndex i) ∨ ∃ i s, k = Key.ofSub i s) :
    Key.fromText k.toText = k := by
  rcases hk with ⟨i, rfl⟩ | ⟨i, s, rfl⟩
  · unfold Key.toText
    rw [Key.ofIndex_index, Key.ofIndex_hasSub]
    simp only [Bool.false_eq_true, if_false, List.append_nil]
    rw [C25_index_text _ i.toNat (ostreamHex_numeral _) i.isLt]
    simp
  · unfold Key.toText
    rw [Key.ofSub_index, Key.ofSub_hasSub, Key.ofSub_sub]
    simp only [if_true]
    rw [← List.append_assoc, C25_sub_text _ _ i.toNat s.toNat (ostreamHex_numeral _) (ostreamHex_numeral _) i.isLt s.isLt]
    simp

example : Key.fromText "6040".toList = Key.ofIndex 0x6040#16 ∧ Key.fromText "1A00sub0a".toList = Key.ofSub 0x1A00#16 10#8 ∧
    HexNumeral "1A00".toList 0x1A00 := by
  refine ⟨by decide, by decide, by decide, by decide, by decide⟩

/-- C26.  An integer literal that fits the type, with any blanks around it, is read as its value, for every node. -/
theorem C26_literal (t : IntTy) (a s b : Text) (v : Int) (ha : Blank a) (hb : Blank b) (h : IntLit s v) (hf : FitsTy t v) (node : BitVec 8) :
    ∃ x, applyOffset t (parseInt t (some (a ++ s ++ b))) node = .ok x ∧ intValue t x = v := by
  refine ⟨BitVec.ofInt t.width v, ?_, intValue_ofInt t v hf⟩
  rw [parseInt_plain t a s b v ha hb h hf]
  simp [applyOffset, HoldAny.isEmpty, HoldAny.type, Payload.ty, HoldAny.getInt]

/-- `-5` with blanks as an INTEGER8 -/
example : IntLit ['-', '5'] (-5) ∧ FitsTy .i8 (-5) ∧ Blank [' '] := by
  refine ⟨.minus (.dec ⟨by decide, ?_, by decide⟩ (by decide)), by simp [FitsTy, IntTy.signed, IntTy.width, IntTy.size], by unfold Blank; decide⟩
  intro c hc
  have : c = '5' := by simpa using hc
  subst this
  exact ⟨5, by decide, by decide⟩

/-- C26.  `$NODEID+literal` and `literal+$NODEID`, in any letter case and with blanks in between, evaluate to the literal plus the
node id modulo the width of the type, for every node. -/
theorem C26_node_id (t : IntTy) (a w b1 b2 s b : Text) (v : Int) (ha : Blank a) (hb : Blank b) (h1 : Blank b1) (h2 : Blank b2)
    (hw : IsNodeIdWord w) (h : IntLit s v) (hf : FitsTy t v) (node : BitVec 8) :
    applyOffset t (parseInt t (some (a ++ (w ++ b1 ++ '+' :: b2 ++ s) ++ b))) node = .ok (BitVec.ofInt t.width (v + node.toNat)) ∧
    (s.head? ≠ some '+' →
      applyOffset t (parseInt t (some (a ++ (s ++ b1 ++ '+' :: b2 ++ w) ++ b))) node = .ok (BitVec.ofInt t.width (v + node.toNat))) := by
  have hadd : applyOffset t (.val (.offset t (BitVec.ofInt t.width v))) node = .ok (BitVec.ofInt t.width (v + node.toNat)) := by
    simp only [applyOffset, HoldAny.isEmpty, HoldAny.type, Payload.ty, HoldAny.getOffset, dif_pos]
    rw [if_neg (by simp), if_neg (by simp)]
    congr 1
    apply BitVec.eq_of_toNat_eq
    rw [BitVec.toNat_ofNat, BitVec.toNat_ofInt, BitVec.toNat_ofInt]
    have hpos : (0 : Int) < ((2 ^ t.width : Nat) : Int) := by
      have := Nat.pos_of_ne_zero (n := 2 ^ t.width) (by simp)
      omega
    have hnn := Int.emod_nonneg v (Int.ne_of_gt hpos)
    have hz : ((node.toNat + (v % ((2 ^ t.width : Nat) : Int)).toNat) % 2 ^ t.width : Nat) =
        ((((node.toNat + (v % ((2 ^ t.width : Nat) : Int)).toNat) % 2 ^ t.width : Nat) : Int)).toNat := (Int.toNat_natCast _).symm
    rw [hz]
    congr 1
    rw [Int.natCast_emod, Int.natCast_add, Int.toNat_of_nonneg hnn, Int.add_comm, Int.emod_add_emod]
  constructor
  · rw [parseInt_prefix t a w b1 b2 s b v ha hb h1 h2 hw h hf]; exact hadd
  · intro hp
    rw [parseInt_suffix t a w b1 b2 s b v ha hb h1 h2 hw h hp hf]; exact hadd

/-- the hypotheses hold for `0x180 + $NodeID` as an UNSIGNED32, and for `-5` as an INTEGER8 -/
example : IntLit ['0', 'x', '1', '8', '0'] 0x180 ∧ FitsTy .u32 0x180 ∧ IsNodeIdWord "$NodeID".toList ∧ IntLit ['-', '5'] (-5) ∧ FitsTy .i8 (-5) := by
  refine ⟨.plain (.hex ⟨by decide, ?_, by decide⟩), by simp [FitsTy, IntTy.signed, IntTy.width, IntTy.size], by unfold IsNodeIdWord; decide, .minus (.dec ⟨by decide, ?_, by decide⟩ (by decide)),
    by simp [FitsTy, IntTy.signed, IntTy.width, IntTy.size]⟩
  · intro c hc
    have : c = '1' ∨ c = '8' ∨ c = '0' := by simpa using hc
    rcases this with rfl | rfl | rfl
    · exact ⟨1, by decide, by decide⟩
    · exact ⟨8, by decide, by decide⟩
    · exact ⟨0, by decide, by decide⟩
  · intro c hc
    have : c = '5' := by simpa using hc
    subst this
    exact ⟨5, by decide, by decide⟩
example : applyOffset .u32 (parseInt .u32 (some " 0x180 + $NodeID ".toList)) 5#8 = .ok 0x185#32 := by decide

/-- C26.  `$NODEID` alone evaluates to the node id, and so does a literal in front of it that is not joined with a plus sign (which is no valid
value): it is neither added nor refused. -/
theorem C26_bare (t : IntTy) (a w b : Text) (ha : Blank a) (hb : Blank b) (hw : IsNodeIdWord w) (node : BitVec 8) :
    applyOffset t (parseInt t (some (a ++ w ++ b))) node = .ok (BitVec.ofNat t.width node.toNat) ∧
    ∀ s b1 v, IntLit s v → s.head? ≠ some '+' → Blank b1 →
      applyOffset t (parseInt t (some (a ++ (s ++ b1 ++ w) ++ b))) node = .ok (BitVec.ofNat t.width node.toNat) := by
  have hadd : applyOffset t (.val (.offset t 0)) node = .ok (BitVec.ofNat t.width node.toNat) := by
    simp only [applyOffset, HoldAny.isEmpty, HoldAny.type, Payload.ty, HoldAny.getOffset, dif_pos]
    rw [if_neg (by simp), if_neg (by simp)]
    simp
  refine ⟨?_, fun s b1 v h hp h1 => ?_⟩
  · rw [parseInt_bare t a w b ha hb hw]; exact hadd
  · rw [parseInt_unjoined t a s b1 w b v ha hb h1 hw h hp]; exact hadd

/-- the hypotheses hold, and so does the result -/
example : IsNodeIdWord "$NODEID".toList ∧ Blank " ".toList ∧ IntLit ['0'] 0 ∧ applyOffset .u16 (parseInt .u16 (some " $NODEID ".toList)) 5#8 = .ok 5#16 ∧
    applyOffset .u16 (parseInt .u16 (some "0x180 $NODEID".toList)) 5#8 = .ok 5#16 :=
  ⟨by unfold IsNodeIdWord; decide, by unfold Blank; decide, .plain .zero, by decide +kernel, by decide +kernel⟩

/-- C26, literals that do not fit: they are not refused.  The value is what is left of the literal in 64 bits, truncated to the width of the type. -/
theorem C26_any_literal (t : IntTy) (a s b : Text) (v : Int) (ha : Blank a) (hb : Blank b) (h : IntLit s v) (node : BitVec 8) :
    applyOffset t (parseInt t (some (a ++ s ++ b))) node = .ok (BitVec.ofInt t.width (in64 t.signed v)) := by
  have e : parseInt t (some (a ++ s ++ b)) = .val (.int t (BitVec.ofInt t.width (in64 t.signed v))) := by
    have hs := not_starts s [] v h
    rw [List.append_nil] at hs
    unfold parseInt
    simp only [trim_lit a s b v ha hb h, hs, not_ends s v h, Bool.false_eq_true, if_false]
    have hlit := intFromString_any t s [] v h stops_nil
    rw [List.append_nil] at hlit
    rw [hlit]
  rw [e]
  simp [applyOffset, HoldAny.isEmpty, HoldAny.type, Payload.ty, HoldAny.getInt]

/-- 300 as an UNSIGNED8 is 44, a number of twenty digits as an INTEGER64 is the largest one, as an INTEGER32 it is -1 -/
example : applyOffset .u8 (parseInt .u8 (some "300".toList)) 1#8 = .ok 44#8 ∧
    applyOffset .i64 (parseInt .i64 (some "10000000000000000000".toList)) 1#8 = .ok 0x7fffffffffffffff#64 ∧
    applyOffset .i32 (parseInt .i32 (some "10000000000000000000".toList)) 1#8 = .ok (-1#32) := by decide +kernel

/-- C27, the claim is false, exactly the wrong way round: every text of hex digits is ignored, every other text is taken as a
value. -/
theorem C27_octets_inverted (raw : Text) :
    (parseOctets (some raw)).isEmpty = true ↔ ∀ c ∈ raw, IsHex c := by
  have h := C02_hex2buffer_accepts [] raw true
  simp only [or_true, true_and] at h
  rw [← h]
  unfold parseOctets
  dsimp only
  split <;> rename_i he <;> simp [he, HoldAny.isEmpty]

example : (parseOctets (some "0102".toList)).isEmpty = true ∧ (parseOctets (some "01zz".toList)).isEmpty = false := by decide

/-- C27, counterexample: `DefaultValue=0102` of an OCTET_STRING object does not give the object the default value 01 02. -/
theorem C27_octet_values_false :
    ¬ ∀ (rp : RealParser) (raw : Text) (bs : List Byte), Denotes raw bs → readValue rp 0x0a#16 (some raw) = .ok (.val (.string bs)) := by
  intro h
  have := h ⟨fun _ => none, fun _ => none⟩ ['0', '1'] [1#8] ⟨⟨0, 1, by decide, by decide, by decide⟩, trivial⟩
  have h2 := (C27_octets_inverted ['0', '1']).2 (by decide)
  have e : readValue ⟨fun _ => none, fun _ => none⟩ 0x0a#16 (some ['0', '1']) = .ok (parseOctets (some ['0', '1'])) := rfl
  rw [e] at this
  injection this with this
  rw [this] at h2
  simp [HoldAny.isEmpty] at h2

/-- the text of the comment denotes the bytes 01 02 -/
example : Denotes "0102".toList [1#8, 2#8] :=
  ⟨⟨0, 1, by decide, by decide, by decide⟩, ⟨0, 2, by decide, by decide, by decide⟩, trivial⟩

/-- C27, what holds: an object of type OCTET_STRING or DOMAIN whose value is not given has no value, and the value never makes the
file unreadable.  Missing: well-formed texts give their bytes and malformed ones are rejected (both false, see above). -/
theorem C27_octets_partial (rp : RealParser) (dt : BitVec 16) (hd : dt = 0x0a#16 ∨ dt = 0x0f#16) (v : Option Text) :
    readValue rp dt none = .ok (.empty .string) ∧ ∃ h, readValue rp dt v = .ok h ∧ h.type = some .string := by
  have e : ∀ v, readValue rp dt v = .ok (parseOctets v) := by
    intro v
    rcases hd with rfl | rfl <;> rfl
  refine ⟨by rw [e]; rfl, parseOctets v, e v, ?_⟩
  cases v with
  | none => rfl
  | some raw =>
    unfold parseOctets
    dsimp only
    split <;> rfl

example : (0x0a#16 = 0x0a#16 ∨ 0x0a#16 = 0x0f#16) ∧ (parseOctets (some "0102".toList)).isEmpty = true ∧
    (parseOctets (some "01zz".toList)).isEmpty = false := by decide

/-- C62.  A text value (VISIBLE_STRING, UNICODE_STRING) given in the file is held as 24 bytes of memory which depend on the text
only through addresses, so the bytes are not the text's for any text of another length. -/
theorem C62_text_values (rp : RealParser) (mem : Mem) (dt : BitVec 16) (hd : dt = 0x09#16 ∨ dt = 0x0b#16) (raw : Text) :
    ∃ h bs, readValue rp dt (some raw) = .ok h ∧ h.data mem = .ok bs ∧ bs.length = 24 ∧ (raw.length ≠ 24 → bs ≠ charBytes raw) := by
  refine ⟨.val (.string (charBytes raw)), mem.stringBytes (charBytes raw), ?_, rfl, mem.string_size _, ?_⟩
  · rcases hd with rfl | rfl <;> rfl
  · intro hl he
    have := congrArg List.length he
    rw [mem.string_size] at this
    simp [charBytes] at this
    omega

/-- a memory picture of the two class types, for examples -/
def exampleMem : Mem where
  offsetBytes := fun t v => Txt.resize 16 (leBytes t.size v)
  stringBytes := fun _ => List.replicate 24 0#8
  offset_size := fun t v => by simp [Txt.length_resize]
  string_size := fun _ => by simp

example : ∃ bs, (parseString (some "motor".toList)).data exampleMem = .ok bs ∧ bs.length = 24 ∧ (charBytes "motor".toList).length = 5 := by
  refine ⟨_, rfl, by decide, by decide⟩

end Verif.Props
