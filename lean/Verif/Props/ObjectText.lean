import Verif.Spec.ObjectText
import Verif.Lemmas.ObjectText
import Verif.Props.Storage

/-!
# C87: objects as text, services get_object and set_object
-/

set_option linter.unusedSimpArgs false

namespace Verif.Props
open Verif Verif.OD Verif.Spec

variable {W : Type} (bus : Text → Bus W) (info : OD.Err → Text) (mem : Mem)

/-- C87.  The type of a value is the one the standard gives to the number. -/
theorem C87_types (dt : BitVec 16) (ty : Ty) : typeOf dt = some ty ↔ (dt.toNat, ty) ∈ standardTypes := by
  unfold typeOf standardTypes
  generalize dt.toNat = n
  constructor
  · intro h
    split at h <;> simp_all
  · intro h
    simp only [List.mem_cons, Prod.mk.injEq, List.not_mem_nil, or_false] at h
    rcases h with h | h | h | h | h | h | h | h | h | h | h | h | h | h <;> (obtain ⟨rfl, rfl⟩ := h; rfl)

example : typeOf 0x0006#16 = some (.int .u16) ∧ typeOf 0x0001#16 = none := ⟨rfl, rfl⟩

/-- C87.  Reading an integer object of at least 16 bits shows its value in decimal: the value the device (or the cache) gave. -/
theorem C87_get_integer (rp : RealPrinter) (ns : Nodes) (c c' : Ctx W) (node object : Text) (cached : Bool) (s s1 : Storage) (e : Entry) (t : IntTy)
    (d d' : Data) (bs : List Byte) (ha : Addressed mem ns node object s e (.int t) s1 d) (h2 : 16 ≤ t.width)
    (hg : d.get (bus node) cached c = (d', c', .ok bs)) :
    ∃ v : BitVec t.width, bs = leBytes t.size v ∧
      getObject bus rp info mem ns c node object cached =
        (ns.update node (s1.put (Key.fromText object) d'), c', some ⟨true, [], decimal (intValue t v)⟩) := by
  have hd : d.ty = .int t := entry_ty mem s s1 d _ _ ha.record
  have hlen : bs.length = t.size := get_length (bus node) d d' c c' cached t bs hd hg
  obtain ⟨v, hv⟩ := exists_leBytes t bs hlen
  refine ⟨v, hv, ?_⟩
  have hs1 : t.size ≠ 1 := by intro h; unfold IntTy.width at h2; omega
  unfold getObject Storage.readText
  simp only [ha.known, ha.listed, (C87_types _ _).mpr ha.type, ha.record, hg, formatValue, if_neg hs1]
  rw [hv, intText_leBytes]
  rfl

/-- C87.  Writing: a text that is a number (decimal, hexadecimal or octal, with blanks around) that the type can represent is
handed to the object as that number; the answer is the outcome of that access. -/
theorem C87_set_integer (rp : RealParser) (ns : Nodes) (c : Ctx W) (node object : Text) (s s1 : Storage) (e : Entry) (t : IntTy) (d : Data)
    (ha : Addressed mem ns node object s e (.int t) s1 d) (a x b : Text) (v : Int) (hA : Blank a) (hB : Blank b) (hx : IntLit x v) (hf : FitsTy t v) :
    ∃ w : BitVec t.width, intValue t w = v ∧
      setObject bus rp info mem ns c node object (a ++ x ++ b) false =
        let r := d.set (bus node) (leBytes t.size w) c
        (ns.update node (s1.put (Key.fromText object) r.1), r.2.1, answerTo info r.2.2) := by
  refine ⟨BitVec.ofInt t.width v, intValue_ofInt t v hf, ?_⟩
  have hr : readValue rp e.dataType (some (a ++ x ++ b)) = .ok (.val (.int t (BitVec.ofInt t.width v))) := by
    have := readValue_int rp e.dataType t (some (a ++ x ++ b)) ha.type
    rw [this, parseInt_plain t a x b v hA hB hx hf]
  unfold setObject Storage.writeText
  simp only [ha.known, ha.listed, (C87_types _ _).mpr ha.type, ha.record, hr]
  simp only [HoldAny.get, HoldAny.type, Payload.ty, HoldAny.data, Payload.bytes, if_true, if_false, reduceCtorEq, Bool.false_eq_true]
  cases (d.set (bus node) (leBytes t.size (BitVec.ofInt t.width v)) c).2.2 <;> rfl

/-- C87.  Round trip for integers of at least 16 bits: writing the text that was shown hands exactly the shown value to the object. -/
theorem C87_round_trip (rp : RealPrinter) (rp' : RealParser) (ns : Nodes) (c c' : Ctx W) (node object : Text) (cached : Bool) (s s1 : Storage)
    (e : Entry) (t : IntTy) (d d' : Data) (bs : List Byte) (ha : Addressed mem ns node object s e (.int t) s1 d) (h2 : 16 ≤ t.width)
    (hg : d.get (bus node) cached c = (d', c', .ok bs)) (ns2 : Nodes) (c2 : Ctx W) (node2 object2 : Text) (s2 s3 : Storage) (e2 : Entry) (d2 : Data)
    (ha2 : Addressed mem ns2 node2 object2 s2 e2 (.int t) s3 d2) :
    ∃ txt, (getObject bus rp info mem ns c node object cached).2.2 = some ⟨true, [], txt⟩ ∧
      setObject bus rp' info mem ns2 c2 node2 object2 txt false =
        let r := d2.set (bus node2) bs c2
        (ns2.update node2 (s3.put (Key.fromText object2) r.1), r.2.1, answerTo info r.2.2) := by
  obtain ⟨v, hv, hget⟩ := C87_get_integer bus info mem rp ns c c' node object cached s s1 e t d d' bs ha h2 hg
  refine ⟨_, by rw [hget], ?_⟩
  obtain ⟨w, hw, hset⟩ := C87_set_integer bus info mem rp' ns2 c2 node2 object2 s2 s3 e2 t d2 ha2 [] _ [] (intValue t v)
    (by simp [Blank]) (by simp [Blank]) (intLit_toString (intValue t v)) (fits_intValue t v)
  have : w = v := intValue_inj t w v hw
  subst this
  rw [← hv] at hset
  simpa [decimal] using hset

/-- a node `n` whose objects 1000 (read-only) and 6081 (writable) are UNSIGNED32 -/
def textNodes : Nodes := [("n".toList, Storage.fresh exampleDict 1#8)]

/-- numbers printed by nobody -/
def noReals : RealPrinter := ⟨fun _ => [], fun _ => []⟩

/-- no floating point text -/
def noRealTexts : RealParser := ⟨fun _ => none, fun _ => none⟩

/-- the device holds 300: shown as 300; writing " 0x10" stores 16; writing the shown text stores 300 -/
example : let e := exampleEntry 0x6081#16 true true (.empty (.int .u32)) (.val (.int .u32 100#32))
    let d := Data.new e (.int .u32)
    let c : Ctx (List Byte) := ⟨[0x2c#8, 1#8, 0#8, 0#8], []⟩
    Addressed exampleMem textNodes "n".toList "6081".toList (Storage.fresh exampleDict 1#8) e (.int .u32)
      ((Storage.fresh exampleDict 1#8).put (Key.fromText "6081".toList) d) d ∧
    (d.get goodBus false c).2.2 = .ok [0x2c#8, 1#8, 0#8, 0#8] ∧
    (getObject (fun _ => goodBus) noReals (fun _ => []) exampleMem textNodes c "n".toList "6081".toList false).2.2 = some ⟨true, [], "300".toList⟩ ∧
    (setObject (fun _ => goodBus) noRealTexts (fun _ => []) exampleMem textNodes c "n".toList "6081".toList " 0x10".toList false).2.1.w = [16#8, 0#8, 0#8, 0#8] ∧
    (setObject (fun _ => goodBus) noRealTexts (fun _ => []) exampleMem textNodes ⟨[], []⟩ "n".toList "6081".toList "300".toList false).2.1.w = c.w := by
  refine ⟨⟨rfl, rfl, by decide +kernel, rfl⟩, by decide +kernel, by decide +kernel, by decide +kernel, by decide +kernel⟩

/-- C87, the code does not keep it for numbers that do not fit: 65541 written to a 16 bit object becomes 5. -/
theorem C87_out_of_range_false (rp : RealParser) : readValue rp 6#16 (some "65541".toList) = .ok (.val (.int .u16 5#16)) := by
  have : intFromString .u16 (trim "65541".toList) = (5#16 : BitVec (IntTy.width .u16)) := by
    apply BitVec.eq_of_toNat_eq
    decide +kernel
  exact congrArg (fun x => Outcome.ok (HoldAny.val (Payload.int .u16 x))) this

/-- C87.  Objects of one byte: the text shown is the single character with that code. -/
theorem C87_byte_shown (rp : RealPrinter) (ns : Nodes) (c c' : Ctx W) (node object : Text) (cached : Bool) (s s1 : Storage) (e : Entry) (t : IntTy)
    (d d' : Data) (bs : List Byte) (ha : Addressed mem ns node object s e (.int t) s1 d) (h1 : t.width = 8)
    (hg : d.get (bus node) cached c = (d', c', .ok bs)) :
    ∃ b : Byte, bs = [b] ∧ (getObject bus rp info mem ns c node object cached).2.2 = some ⟨true, [], [Char.ofNat b.toNat]⟩ := by
  have hd : d.ty = .int t := entry_ty mem s s1 d _ _ ha.record
  have hs : t.size = 1 := by unfold IntTy.width at h1; omega
  have hlen : bs.length = 1 := by rw [get_length (bus node) d d' c c' cached t bs hd hg, hs]
  obtain ⟨b, rfl⟩ := List.length_eq_one_iff.mp hlen
  refine ⟨b, rfl, ?_⟩
  unfold getObject Storage.readText
  simp only [ha.known, ha.listed, (C87_types _ _).mpr ha.type, ha.record, hg, formatValue, if_pos hs, byteText, List.map]

/-- an object of the given data type, readable and writable -/
def textEntry (dt : BitVec 16) (ty : Ty) : Entry :=
  { objCode := 7, index := 0x2000#16, subIndex := 0, dataType := dt, constant := false, readable := true, writable := true, desc := [], defVal := .empty ty, initVal := .none }

/-- a node with one such object -/
def oneNode (dt : BitVec 16) (ty : Ty) : Nodes := [("n".toList, Storage.fresh [(Key.ofIndex 0x2000#16, textEntry dt ty)] 1#8)]

example : let d := Data.new (textEntry 5#16 (.int .u8)) (.int .u8)
    Addressed exampleMem (oneNode 5#16 (.int .u8)) "n".toList "2000".toList (Storage.fresh [(Key.ofIndex 0x2000#16, textEntry 5#16 (.int .u8))] 1#8)
      (textEntry 5#16 (.int .u8)) (.int .u8)
      ((Storage.fresh [(Key.ofIndex 0x2000#16, textEntry 5#16 (.int .u8))] 1#8).put (Key.fromText "2000".toList) d) d ∧
    (d.get goodBus false ⟨[65#8], []⟩).2.2 = .ok [65#8] ∧
    (getObject (fun _ => goodBus) noReals (fun _ => []) exampleMem (oneNode 5#16 (.int .u8)) ⟨[65#8], []⟩ "n".toList "2000".toList false).2.2 =
      some ⟨true, [], "A".toList⟩ := by
  refine ⟨⟨rfl, rfl, by decide +kernel, rfl⟩, by decide +kernel, by decide +kernel⟩

/-- C87, the code does not keep the round trip for objects of one byte: after writing 53 the object reads "5", and writing "5" stores 5. -/
theorem C87_byte_false :
    let c : Ctx (List Byte) := ⟨[0#8], []⟩
    let a := setObject (fun _ => goodBus) noRealTexts (fun _ => []) exampleMem (oneNode 5#16 (.int .u8)) c "n".toList "2000".toList "53".toList false
    let b := getObject (fun _ => goodBus) noReals (fun _ => []) exampleMem a.1 a.2.1 "n".toList "2000".toList false
    let d := setObject (fun _ => goodBus) noRealTexts (fun _ => []) exampleMem b.1 b.2.1 "n".toList "2000".toList "5".toList false
    a.2.1.w = [53#8] ∧ b.2.2 = some ⟨true, [], "5".toList⟩ ∧ d.2.1.w = [5#8] := by
  refine ⟨by decide +kernel, by decide +kernel, by decide +kernel⟩

/-- C87.  Text and octet objects: what is shown if the value ends with a zero; an empty value is answered with a failure. -/
theorem C87_text_shown_partial (rp : RealPrinter) (ns : Nodes) (c c' : Ctx W) (node object : Text) (cached : Bool) (s s1 : Storage) (e : Entry)
    (d d' : Data) (ha : Addressed mem ns node object s e .string s1 d) :
    (∀ v rest, 0#8 ∉ v → d.get (bus node) cached c = (d', c', .ok (v ++ 0#8 :: rest)) →
      (getObject bus rp info mem ns c node object cached).2.2 = some ⟨true, [], v.map fun b => Char.ofNat b.toNat⟩) ∧
    (d.get (bus node) cached c = (d', c', .ok []) → Failed (getObject bus rp info mem ns c node object cached).2.2) := by
  constructor
  · intro v rest hv hg
    unfold getObject Storage.readText
    simp only [ha.known, ha.listed, (C87_types _ _).mpr ha.type, ha.record, hg, formatValue]
    rw [if_neg (by simp), if_pos (by simp)]
    have : (v ++ 0#8 :: rest).takeWhile (· ≠ 0#8) = v := by
      rw [List.takeWhile_append_of_pos (by intro x hx; simp only [ne_eq, decide_not, Bool.not_eq_true', decide_eq_false_iff_not]; intro h; rw [h] at hx; exact hv hx)]
      simp
    rw [this]
    rfl
  · intro hg
    unfold getObject Storage.readText
    simp only [ha.known, ha.listed, (C87_types _ _).mpr ha.type, ha.record, hg, formatValue, if_true]
    exact ⟨_, rfl, rfl, rfl⟩

example : let d := Data.new (textEntry 9#16 .string) .string
    Addressed exampleMem (oneNode 9#16 .string) "n".toList "2000".toList (Storage.fresh [(Key.ofIndex 0x2000#16, textEntry 9#16 .string)] 1#8)
      (textEntry 9#16 .string) .string
      ((Storage.fresh [(Key.ofIndex 0x2000#16, textEntry 9#16 .string)] 1#8).put (Key.fromText "2000".toList) d) d ∧
    (d.get goodBus false ⟨[65#8, 0#8], []⟩).2.2 = .ok [65#8, 0#8] ∧
    (getObject (fun _ => goodBus) noReals (fun _ => []) exampleMem (oneNode 9#16 .string) ⟨[65#8, 0#8], []⟩ "n".toList "2000".toList false).2.2 =
      some ⟨true, [], "A".toList⟩ := by
  refine ⟨⟨rfl, rfl, by decide +kernel, rfl⟩, by decide +kernel, by decide +kernel⟩

/-- C87, the code does not keep it for texts: one that does not contain a zero (the usual case) makes the service read beyond the end of the
value. -/
theorem C87_text_false (rp : RealPrinter) (ns : Nodes) (c c' : Ctx W) (node object : Text) (cached : Bool) (s s1 : Storage) (e : Entry)
    (d d' : Data) (ha : Addressed mem ns node object s e .string s1 d) (v : List Byte) (h0 : v ≠ []) (hv : 0#8 ∉ v)
    (hg : d.get (bus node) cached c = (d', c', .ok v)) :
    (getObject bus rp info mem ns c node object cached).2.2 = none := by
  unfold getObject Storage.readText
  simp only [ha.known, ha.listed, (C87_types _ _).mpr ha.type, ha.record, hg, formatValue, if_neg h0, if_neg hv]

example : (getObject (fun _ => goodBus) noReals (fun _ => []) exampleMem (oneNode 9#16 .string) ⟨[65#8, 66#8], []⟩ "n".toList "2000".toList false).2.2 =
    none := by decide +kernel

/-- C87, the code does not keep it for texts: setting a text (VISIBLE_STRING, UNICODE_STRING) writes 24 bytes of an internal object. -/
theorem C87_set_text_false (rp : RealParser) (ns : Nodes) (c : Ctx W) (node object : Text) (s s1 : Storage) (e : Entry) (d : Data)
    (ha : Addressed mem ns node object s e .string s1 d) (ht : e.dataType = 9#16 ∨ e.dataType = 11#16) (x : Text) :
    ∃ v : List Byte, v.length = 24 ∧ v = mem.stringBytes (x.map fun ch => BitVec.ofNat 8 ch.toNat) ∧
      setObject bus rp info mem ns c node object x false =
        let r := d.set (bus node) v c
        (ns.update node (s1.put (Key.fromText object) r.1), r.2.1, answerTo info r.2.2) := by
  refine ⟨_, mem.string_size _, rfl, ?_⟩
  have hr : readValue rp e.dataType (some x) = .ok (.val (.string (charBytes x))) := by
    rcases ht with h | h <;> rw [h] <;> rfl
  unfold setObject Storage.writeText
  simp only [ha.known, ha.listed, (C87_types _ _).mpr ha.type, ha.record, hr, HoldAny.get, if_true, HoldAny.getString, Payload.bytes, Bool.false_eq_true,
    if_false]
  show _ = ((_, _, answerTo info (d.set (bus node) (mem.stringBytes (charBytes x)) c).2.2) : Nodes × Ctx W × Option Answer)
  cases (d.set (bus node) (mem.stringBytes (charBytes x)) c).2.2 <;> rfl

example : (setObject (fun _ => goodBus) noRealTexts (fun _ => []) exampleMem (oneNode 9#16 .string) ⟨[65#8, 66#8], []⟩ "n".toList "2000".toList "AB".toList false).2.1.w.length =
    24 := by decide +kernel

/-- C87, the code does not keep it for octet strings and domains: well-formed hexadecimal text writes an empty value. -/
theorem C87_set_octets_false (rp : RealParser) (ns : Nodes) (c : Ctx W) (node object : Text) (s s1 : Storage) (e : Entry) (d : Data)
    (ha : Addressed mem ns node object s e .string s1 d) (ht : e.dataType = 10#16 ∨ e.dataType = 15#16) (x : Text) (hx : ∀ ch ∈ x, IsHex ch) :
    setObject bus rp info mem ns c node object x false =
      let r := d.set (bus node) [] c
      (ns.update node (s1.put (Key.fromText object) r.1), r.2.1, answerTo info r.2.2) := by
  have hr : readValue rp e.dataType (some x) = .ok (.empty .string) := by
    have h1 := (C27_octets_inverted x).2 hx
    have : parseOctets (some x) = .empty .string := by
      unfold parseOctets at h1 ⊢
      dsimp only at h1 ⊢
      split <;> simp_all [HoldAny.isEmpty]
    rcases ht with h | h <;> rw [h] <;> exact congrArg Outcome.ok this
  unfold setObject Storage.writeText
  simp only [ha.known, ha.listed, (C87_types _ _).mpr ha.type, ha.record, hr, HoldAny.get, if_true, HoldAny.getString, Bool.false_eq_true, if_false]
  show _ = ((_, _, answerTo info (d.set (bus node) [] c).2.2) : Nodes × Ctx W × Option Answer)
  cases (d.set (bus node) [] c).2.2 <;> rfl

example : (setObject (fun _ => goodBus) noRealTexts (fun _ => []) exampleMem (oneNode 15#16 .string) ⟨[65#8, 66#8], []⟩ "n".toList "2000".toList "41Ff".toList false).2 =
    (⟨[], [.write .dev 0x2000#16 0#8 []]⟩, some ⟨true, [], []⟩) := by rfl

/-- C87.  An uncached write that is answered with success was handed to the device, or the object is read-only and has that value already. -/
theorem C87_set_success (rp : RealParser) (ns : Nodes) (c : Ctx W) (node object x : Text) (s s1 : Storage) (e : Entry) (ty : Ty) (d : Data)
    (ha : Addressed mem ns node object s e ty s1 d) :
    let r := setObject bus rp info mem ns c node object x false
    Succeeded r.2.2 →
      (∃ v, r.2.1.log = c.log ++ [.write d.wr d.entry.index d.entry.subIndex v]) ∨ (d.entry.writable = false ∧ r.2.1 = c) := by
  intro r hs
  have hstep : r = setObject bus rp info mem ns c node object x false := rfl
  unfold setObject Storage.writeText at hstep
  simp only [ha.known, ha.listed, (C87_types _ _).mpr ha.type, ha.record] at hstep
  cases h1 : readValue rp e.dataType (some x) with
  | throws y => rw [h1] at hstep; rw [hstep] at hs; obtain ⟨a, ha1, ha2⟩ := hs; cases ha1; cases ha2
  | ub => rw [h1] at hstep; rw [hstep] at hs; obtain ⟨a, ha1, ha2⟩ := hs; cases ha1
  | ok any =>
    rw [h1] at hstep
    dsimp only at hstep
    cases h2 : any.get mem ty with
    | throws y => rw [h2] at hstep; rw [hstep] at hs; obtain ⟨a, ha1, ha2⟩ := hs; cases ha1; cases ha2
    | ub => rw [h2] at hstep; rw [hstep] at hs; obtain ⟨a, ha1, ha2⟩ := hs; cases ha1
    | ok v =>
      rw [h2] at hstep
      simp only [Bool.false_eq_true, if_false] at hstep
      have e1 : r.2.1 = (d.set (bus node) v c).2.1 := by rw [hstep]
      rw [e1]
      rw [hstep] at hs
      unfold Data.set at hs ⊢
      cases hw : d.entry.writable with
      | false =>
        right
        refine ⟨rfl, ?_⟩
        simp only [hw, Bool.not_false, if_true]
        repeat' split
        all_goals rfl
      | true =>
        left
        simp only [hw, Bool.not_true, Bool.false_eq_true, if_false] at hs ⊢
        unfold Data.storeWrite at hs ⊢
        cases h3 : d.store v with
        | none => rw [h3] at hs; obtain ⟨a, ha1, ha2⟩ := hs; cases ha1
        | some d2 =>
          have hd2 : d2.wr = d.wr ∧ d2.entry = d.entry := store_keeps d d2 v h3
          refine ⟨d2.buffer, ?_⟩
          dsimp only
          split <;> simp [Data.callWrite, hd2.1, hd2.2]

example : let r := setObject (fun _ => goodBus) noRealTexts (fun _ => []) exampleMem textNodes ⟨[], []⟩ "n".toList "6081".toList "300".toList false
    Succeeded r.2.2 ∧ r.2.1.log = [.write .dev 0x6081#16 0#8 [0x2c#8, 1#8, 0#8, 0#8]] := ⟨⟨_, rfl, rfl⟩, by decide +kernel⟩

/-- C87.  A cached write of a number: if the value known of the object is that number already, nothing is sent; if it is another number or nothing is
known, a writable object is written with exactly the bytes of the number, and for a read-only object nothing is sent.  The answer is success in all
cases, see `C87_set_cached_false`. -/
theorem C87_set_cached (rp : RealParser) (ns : Nodes) (c : Ctx W) (node object : Text) (s s1 : Storage) (e : Entry) (t : IntTy) (d : Data)
    (ha : Addressed mem ns node object s e (.int t) s1 d) (a x b : Text) (v : Int) (hA : Blank a) (hB : Blank b) (hx : IntLit x v) (hf : FitsTy t v)
    (hlen : d.valid = true → d.buffer.length = t.size) :
    ∃ w : BitVec t.width, intValue t w = v ∧
      let r := setObject bus rp info mem ns c node object (a ++ x ++ b) true
      (d.valid = true ∧ d.buffer = leBytes t.size w → r.2.1 = c) ∧
      (¬ (d.valid = true ∧ d.buffer = leBytes t.size w) →
        (d.entry.writable = true → r.2.1.log = c.log ++ [.write d.wr d.entry.index d.entry.subIndex (leBytes t.size w)]) ∧
        (d.entry.writable = false → r.2.1 = c)) ∧
      Succeeded r.2.2 := by
  refine ⟨BitVec.ofInt t.width v, intValue_ofInt t v hf, ?_⟩
  have hr : readValue rp e.dataType (some (a ++ x ++ b)) = .ok (.val (.int t (BitVec.ofInt t.width v))) := by
    have := readValue_int rp e.dataType t (some (a ++ x ++ b)) ha.type
    rw [this, parseInt_plain t a x b v hA hB hx hf]
  have hd : d.ty = .int t := entry_ty mem s s1 d _ _ ha.record
  intro r
  have hstep : r = setObject bus rp info mem ns c node object (a ++ x ++ b) true := rfl
  unfold setObject Storage.writeText at hstep
  simp only [ha.known, ha.listed, (C87_types _ _).mpr ha.type, ha.record, hr] at hstep
  simp only [HoldAny.get, HoldAny.type, Payload.ty, HoldAny.data, Payload.bytes, if_true, if_false, reduceCtorEq, Bool.false_eq_true] at hstep
  generalize hbs : leBytes t.size (BitVec.ofInt t.width v) = bs at hstep ⊢
  have hbl : bs.length = t.size := by rw [← hbs]; simp [leBytes]
  have hty : (Ty.int t).size = t.size := rfl
  have hacc : d.valid = true → d.access = .ok d.buffer := by
    intro hv
    have hl := hlen hv
    simp [Data.access, hv, hd, hty, hl, List.take_of_length_le]
  have hcase : d.differs bs = some (decide ¬ (d.valid = true ∧ d.buffer = bs)) := by
    unfold Data.differs
    cases hv : d.valid with
    | false => simp
    | true => simp [hacc hv]
  have hstore : ∃ d2 : Data, d.store bs = some d2 ∧ d2.buffer = bs ∧ d2.wr = d.wr ∧ d2.entry = d.entry := by
    have hal : d.allocate.buffer.length = t.size ∧ d.allocate.ty = .int t ∧ d.allocate.wr = d.wr ∧ d.allocate.entry = d.entry := by
      unfold Data.allocate
      cases hv : d.valid with
      | false =>
        simp only [hd, hty, reduceCtorEq, if_false, Bool.not_false, if_true]
        refine ⟨?_, trivial, trivial, trivial⟩
        simp only [Txt.resize, List.length_append, List.length_take, List.length_replicate]
        omega
      | true => simp [hd, hlen hv]
    refine ⟨{ d.allocate with buffer := bs ++ d.allocate.buffer.drop t.size }, ?_, ?_, hal.2.2⟩
    · simp only [Data.store, hal.2.1, hty, hal.1]
      simp
    · simp [List.drop_of_length_le (Nat.le_of_eq hal.1)]
  obtain ⟨d2, hs2, hb2, hw2, he2⟩ := hstore
  have hset : d.setCached (bus node) bs c =
      if d.valid = true ∧ d.buffer = bs then (d, c, .ok ()) else
        if !d.entry.writable then (d, c, .throws .access) else d.storeWrite (bus node) c bs := by
    unfold Data.setCached
    rw [hcase]
    by_cases h : d.valid = true ∧ d.buffer = bs
    · simp [h]
    · simp [h]
  have hsw : (d.storeWrite (bus node) c bs).2.1.log = c.log ++ [.write d.wr d.entry.index d.entry.subIndex bs] ∧
      (d.storeWrite (bus node) c bs).2.2 ≠ .ub := by
    unfold Data.storeWrite
    rw [hs2]
    dsimp only
    split <;> simp [Data.callWrite, hw2, he2, hb2]
  have hne : (d.setCached (bus node) bs c).2.2 ≠ .ub := by
    rw [hset]
    repeat' split
    · simp
    · simp
    · exact hsw.2
  have h1 : r.2.1 = (d.setCached (bus node) bs c).2.1 := by
    rw [hstep]
  refine ⟨?_, ?_, ?_⟩
  · intro h
    rw [h1, hset, if_pos h]
  · intro h
    rw [h1, hset, if_neg h]
    refine ⟨fun hw => ?_, fun hw => ?_⟩
    · rw [if_neg (by simp [hw])]; exact hsw.1
    · rw [if_pos (by simp [hw])]
  · rw [hstep]
    cases h : (d.setCached (bus node) bs c).2.2 with
    | ok u => exact ⟨_, rfl, rfl⟩
    | throws y => exact ⟨_, rfl, rfl⟩
    | ub => exact absurd h hne

/-- 300 is written once; the second cached write of the same number sends nothing -/
example : let e := exampleEntry 0x6081#16 true true (.empty (.int .u32)) (.val (.int .u32 100#32))
    let d := Data.new e (.int .u32)
    let once := setObject (fun _ => goodBus) noRealTexts (fun _ => []) exampleMem textNodes ⟨[], []⟩ "n".toList "6081".toList "300".toList true
    Addressed exampleMem textNodes "n".toList "6081".toList (Storage.fresh exampleDict 1#8) e (.int .u32)
      ((Storage.fresh exampleDict 1#8).put (Key.fromText "6081".toList) d) d ∧ d.entry.writable = true ∧ (d.valid = true → d.buffer.length = 4) ∧
    once.2.1.log = [.write .dev 0x6081#16 0#8 [0x2c#8, 1#8, 0#8, 0#8]] ∧
    (setObject (fun _ => goodBus) noRealTexts (fun _ => []) exampleMem once.1 once.2.1 "n".toList "6081".toList "0x12C".toList true).2.1.log = once.2.1.log ∧
    (setObject (fun _ => goodBus) noRealTexts (fun _ => []) exampleMem once.1 once.2.1 "n".toList "6081".toList "301".toList true).2.1.log.length = 2 := by
  refine ⟨⟨rfl, rfl, by decide +kernel, rfl⟩, by decide +kernel, by decide +kernel, by decide +kernel, by decide +kernel, by decide +kernel⟩

/-- C87, the code does not keep it for cached writes: success is answered although the device refused the value (first), or the object is
read-only and nothing was sent (second). -/
theorem C87_set_cached_false :
    let refuse : Bus (List Byte) := { goodBus with write := fun _ _ _ w => (w, some 0x06010000) }
    (setObject (fun _ => refuse) noRealTexts (fun _ => []) exampleMem textNodes ⟨[], []⟩ "n".toList "6081".toList "300".toList true).2.2 = some ⟨true, [], []⟩ ∧
    Failed (setObject (fun _ => refuse) noRealTexts (fun _ => []) exampleMem textNodes ⟨[], []⟩ "n".toList "6081".toList "300".toList false).2.2 ∧
    (setObject (fun _ => goodBus) noRealTexts (fun _ => []) exampleMem textNodes ⟨[], []⟩ "n".toList "1000".toList "300".toList true).2 =
      (⟨[], []⟩, some ⟨true, [], []⟩) := by
  refine ⟨by decide +kernel, ⟨_, rfl, rfl, rfl⟩, rfl⟩

/-- C87, the code does not keep it for texts that are no numbers: they are written as 0, with success. -/
theorem C87_garbage_false :
    (setObject (fun _ => goodBus) noRealTexts (fun _ => []) exampleMem textNodes ⟨[1#8, 1#8, 1#8, 1#8], []⟩ "n".toList "6081".toList "off".toList false).2 =
      (⟨[0#8, 0#8, 0#8, 0#8], [.write .dev 0x6081#16 0#8 [0#8, 0#8, 0#8, 0#8]]⟩, some ⟨true, [], []⟩) := by
  refine Prod.ext ?_ (by decide +kernel)
  have h1 : (setObject (fun _ => goodBus) noRealTexts (fun _ => []) exampleMem textNodes ⟨[1#8, 1#8, 1#8, 1#8], []⟩ "n".toList "6081".toList "off".toList false).2.1.w =
    [0#8, 0#8, 0#8, 0#8] := by decide +kernel
  have h2 : (setObject (fun _ => goodBus) noRealTexts (fun _ => []) exampleMem textNodes ⟨[1#8, 1#8, 1#8, 1#8], []⟩ "n".toList "6081".toList "off".toList false).2.1.log =
    [.write .dev 0x6081#16 0#8 [0#8, 0#8, 0#8, 0#8]] := by decide +kernel
  generalize (setObject (fun _ => goodBus) noRealTexts (fun _ => []) exampleMem textNodes ⟨[1#8, 1#8, 1#8, 1#8], []⟩ "n".toList "6081".toList "off".toList false).2.1 = c at h1 h2
  cases c
  simp_all

/-- C87.  A `$NODEID` expression is refused for an integer object, and nothing is sent. -/
theorem C87_node_id_refused (rp : RealParser) (ns : Nodes) (c : Ctx W) (node object : Text) (s s1 : Storage) (e : Entry) (t : IntTy) (d : Data) (cached : Bool)
    (ha : Addressed mem ns node object s e (.int t) s1 d) (a w b1 b2 x b : Text) (v : Int) (hA : Blank a) (hB : Blank b) (h1 : Blank b1) (h2 : Blank b2)
    (hw : IsNodeIdWord w) (hx : IntLit x v) (hf : FitsTy t v) :
    let r := setObject bus rp info mem ns c node object (a ++ (w ++ b1 ++ '+' :: b2 ++ x) ++ b) cached
    Failed r.2.2 ∧ r.2.1 = c := by
  have hr := readValue_int rp e.dataType t (some (a ++ (w ++ b1 ++ '+' :: b2 ++ x) ++ b)) ha.type
  rw [parseInt_prefix t a w b1 b2 x b v hA hB h1 h2 hw hx hf] at hr
  unfold setObject Storage.writeText
  simp only [ha.known, ha.listed, (C87_types _ _).mpr ha.type, ha.record, hr]
  simp only [HoldAny.get, HoldAny.type, Payload.ty, reduceCtorEq, if_false, Option.some.injEq]
  exact ⟨⟨_, rfl, rfl, rfl⟩, trivial⟩

example : let r := setObject (fun _ => goodBus) noRealTexts (fun _ => []) exampleMem textNodes ⟨[1#8], []⟩ "n".toList "6081".toList "$NODEID+0x180".toList false
    Failed r.2.2 ∧ r.2.1.log = [] ∧ IsNodeIdWord "$NODEID".toList := ⟨⟨_, rfl, rfl, rfl⟩, by decide +kernel, by unfold IsNodeIdWord; decide⟩

/-- C87.  Requests for a node, object or data type that is not known fail and change nothing. -/
theorem C87_unknown (rp : RealPrinter) (rp' : RealParser) (ns : Nodes) (c : Ctx W) (node object x : Text) (cached : Bool)
    (h : ns.find node = none ∨ ∃ s, ns.find node = some s ∧ (s.dict.get (Key.fromText object) = none ∨
      ∃ e, s.dict.get (Key.fromText object) = some e ∧ ∀ ty, (e.dataType.toNat, ty) ∉ standardTypes)) :
    let g := getObject bus rp info mem ns c node object cached
    let p := setObject bus rp' info mem ns c node object x cached
    Failed g.2.2 ∧ g.2.1 = c ∧ (∀ n, g.1.find n = ns.find n) ∧ Failed p.2.2 ∧ p.2.1 = c ∧ (∀ n, p.1.find n = ns.find n) := by
  rcases h with h | ⟨s, hs, h⟩
  · simp only [getObject, setObject, h]
    exact ⟨⟨_, rfl, rfl, rfl⟩, trivial, fun _ => trivial, ⟨_, rfl, rfl, rfl⟩, trivial, fun _ => trivial⟩
  · have hid : ∀ n, (ns.update node s).find n = ns.find n := fun n => find_update_self ns node s hs n
    rcases h with h | ⟨e, he, ht⟩
    · simp only [getObject, setObject, hs, Storage.readText, Storage.writeText, h]
      exact ⟨⟨_, rfl, rfl, rfl⟩, trivial, hid, ⟨_, rfl, rfl, rfl⟩, trivial, hid⟩
    · have hn : typeOf e.dataType = none := by
        cases hty : typeOf e.dataType with
        | none => rfl
        | some ty => exact absurd ((C87_types _ _).mp hty) (ht ty)
      simp only [getObject, setObject, hs, Storage.readText, Storage.writeText, he, hn]
      exact ⟨⟨_, rfl, rfl, rfl⟩, trivial, hid, ⟨_, rfl, rfl, rfl⟩, trivial, hid⟩

example : textNodes.find "m".toList = none ∧
    (∃ s, textNodes.find "n".toList = some s ∧ s.dict.get (Key.fromText "6082".toList) = none) := ⟨rfl, _, rfl, rfl⟩

/-- C87.  A request touches no other node and no other object of its node. -/
theorem C87_others_untouched (rp : RealPrinter) (rp' : RealParser) (ns : Nodes) (c : Ctx W) (node object x : Text) (cached : Bool) :
    let g := getObject bus rp info mem ns c node object cached
    let p := setObject bus rp' info mem ns c node object x cached
    (∀ n, n ≠ node → g.1.find n = ns.find n ∧ p.1.find n = ns.find n) ∧
    (∀ s, ns.find node = some s → ∃ s1 s2, g.1.find node = some s1 ∧ p.1.find node = some s2 ∧
      ∀ k, k ≠ Key.fromText object → s1.data k = s.data k ∧ s2.data k = s.data k) := by
  intro g p
  constructor
  · intro n hn
    constructor
    · show (getObject bus rp info mem ns c node object cached).1.find n = _
      unfold getObject
      split
      · rfl
      · exact find_update_other ns node n _ hn
    · show (setObject bus rp' info mem ns c node object x cached).1.find n = _
      unfold setObject
      split
      · rfl
      · exact find_update_other ns node n _ hn
  · intro s hs
    refine ⟨(s.readText (bus node) rp mem c (Key.fromText object) cached).1,
      (s.writeText (bus node) rp' mem c (Key.fromText object) cached x).1, ?_, ?_, ?_⟩
    · show (getObject bus rp info mem ns c node object cached).1.find node = _
      simp only [getObject, hs]
      exact find_update_same ns node _ (by rw [hs]; rfl)
    · show (setObject bus rp' info mem ns c node object x cached).1.find node = _
      simp only [setObject, hs]
      exact find_update_same ns node _ (by rw [hs]; rfl)
    · intro k hk
      exact ⟨readText_others _ rp mem s c _ cached k hk, writeText_others _ rp' mem s c _ cached x k hk⟩

example : (Key.fromText "6081".toList ≠ Key.fromText "1000".toList) ∧ textNodes.find "n".toList ≠ none := by
  refine ⟨by decide +kernel, by rw [show textNodes.find "n".toList = some (Storage.fresh exampleDict 1#8) from rfl]; simp⟩

end Verif.Props
