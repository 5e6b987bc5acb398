import Verif.Model.Key

/-!
# Values and EDS/DCF files
canopen_master/include/canopen_master/objdict.h, canopen_master/src/objdict.cpp
-/

namespace Verif.OD
open Verif Verif.Txt

/-- the C++ types that occur as `T` of a value (canopen_master/include/canopen_master/objdict.h:542-558, 241) -/
inductive Ty where
  | int (t : IntTy)
  | real32
  | real64
  | string
  | offset (t : IntTy)
  deriving DecidableEq, Repr

/-- `sizeof(T)` (canopen_master/include/canopen_master/objdict.h:41): `NodeIdOffset<T>` is a number, padding and a function pointer (241-243), `String` a vector (44). -/
def Ty.size : Ty → Nat
  | .int t => t.size
  | .real32 => 4
  | .real64 => 8
  | .string => 24
  | .offset _ => 16

/-- a C++ object copied into a `HoldAny` (canopen_master/include/canopen_master/objdict.h:65-68) -/
inductive Payload where
  | int (t : IntTy) (v : BitVec t.width)
  | real32 (b : Vector Byte 4)
  | real64 (b : Vector Byte 8)
  | string (s : List Byte)
  | offset (t : IntTy) (v : BitVec t.width)

/-- its type (canopen_master/include/canopen_master/objdict.h:65) -/
def Payload.ty : Payload → Ty
  | .int t _ => .int t
  | .real32 _ => .real32
  | .real64 _ => .real64
  | .string _ => .string
  | .offset t _ => .offset t

/-- little-endian object representation of an integer (x86/ARM; used through canopen_master/include/canopen_master/objdict.h:67, 304) -/
def leBytes (n : Nat) (v : BitVec (8 * n)) : List Byte := (List.range n).map fun i => (v >>> (8 * i)).setWidth 8

/-- Object representation in memory of the two class types: number, padding and function address of `NodeIdOffset<T>`
(canopen_master/include/canopen_master/objdict.h:241-243), and the three pointers of a vector (canopen_master/include/canopen_master/objdict.h:44).  The addresses are not determined by the program text,
so they are a parameter. -/
structure Mem where
  offsetBytes : (t : IntTy) → BitVec t.width → List Byte
  stringBytes : List Byte → List Byte
  offset_size : ∀ t v, (offsetBytes t v).length = 16
  string_size : ∀ s, (stringBytes s).length = 24

/-- the bytes `HoldAny(const T&)` puts into its buffer (canopen_master/include/canopen_master/objdict.h:66-67) -/
def Payload.bytes (mem : Mem) : Payload → List Byte
  | .int t v => leBytes t.size v
  | .real32 b => b.toList
  | .real64 b => b.toList
  | .string s => mem.stringBytes s
  | .offset t v => mem.offsetBytes t v

/-- canopen_master/include/canopen_master/objdict.h:56-94 `HoldAny`: default constructed (61), typed but empty (75), or holding a
copy of an object (65-68).  The overload for `std::string` (69-74) is not used by the library. -/
inductive HoldAny where
  | none
  | empty (t : Ty)
  | val (p : Payload)

/-- canopen_master/include/canopen_master/objdict.h:63 `type()`; `Option.none` is an invalid guard -/
def HoldAny.type : HoldAny → Option Ty
  | .none => Option.none
  | .empty t => some t
  | .val p => some p.ty

/-- canopen_master/include/canopen_master/objdict.h:77 `is_empty` -/
def HoldAny.isEmpty : HoldAny → Bool
  | .val _ => false
  | _ => true

/-- the exceptions of this module (canopen_master/include/canopen_master/objdict.h:71, 81, 88, 90, 117, 260, 395, 408, 421, 272-276, 343-371, 581,
canopen_master/src/objdict.cpp:106, 210, 256-263); `device` stands for those of the delegates -/
inductive Err where
  | badCast
  | lengthError
  | outOfRange
  | badPath
  | parse
  | access
  | pointerInvalid
  | device (n : Nat)
  deriving DecidableEq, Repr

/-- canopen_master/include/canopen_master/objdict.h:79-84 `data()` -/
def HoldAny.data (mem : Mem) : HoldAny → Outcome Err (List Byte)
  | .val p => .ok (p.bytes mem)
  | _ => .throws .lengthError

/-- canopen_master/include/canopen_master/objdict.h:86-93 `get<T>` for an integer type -/
def HoldAny.getInt (t : IntTy) : HoldAny → Outcome Err (BitVec t.width)
  | .val (.int t' v) => if h : t' = t then .ok (h ▸ v) else .throws .badCast
  | .val _ => .throws .badCast
  | .empty t' => if t' = .int t then .throws .lengthError else .throws .badCast
  | .none => .throws .badCast

/-- canopen_master/include/canopen_master/objdict.h:86-93 `get<NodeIdOffset<T>>` -/
def HoldAny.getOffset (t : IntTy) : HoldAny → Outcome Err (BitVec t.width)
  | .val (.offset t' v) => if h : t' = t then .ok (h ▸ v) else .throws .badCast
  | .val _ => .throws .badCast
  | .empty t' => if t' = .offset t then .throws .lengthError else .throws .badCast
  | .none => .throws .badCast

/-- canopen_master/src/objdict.cpp:15-17 `get<String>`: the buffer, whatever it is -/
def HoldAny.getString (mem : Mem) : HoldAny → List Byte
  | .val p => p.bytes mem
  | _ => []

/-- canopen_master/include/canopen_master/objdict.h:251-263 `NodeIdOffset<T>::apply` (the addition 245-247 is done in `int` or wider and truncated to `T`) -/
def applyOffset (t : IntTy) (h : HoldAny) (u : BitVec 8) : Outcome Err (BitVec t.width) :=
  if h.isEmpty then .throws .badCast
  else if h.type = some (.int t) then h.getInt t
  else
    match h.getOffset t with
    | .ok off => .ok (BitVec.ofNat t.width (u.toNat + off.toNat))
    | .throws e => .throws e
    | .ub => .ub

/-- `boost::trim_copy` as used in canopen_master/src/objdict.cpp:141-145 -/
def trim (s : Text) : Text := ((s.dropWhile isSpace).reverse.dropWhile isSpace).reverse

/-- case-insensitive comparison of boost (canopen_master/src/objdict.cpp:142, 144, `iptree` keys) -/
def lower (s : Text) : Text := s.map Char.toLower

/-- `boost::istarts_with` (canopen_master/src/objdict.cpp:142) -/
def istartsWith (s p : Text) : Bool := lower (s.take p.length) = lower p

/-- `boost::iends_with` (canopen_master/src/objdict.cpp:144) -/
def iendsWith (s p : Text) : Bool := p.length ≤ s.length ∧ lower (s.drop (s.length - p.length)) = lower p

/-- `str.find("+", from)` (canopen_master/src/objdict.cpp:143, 145); `none` is `npos` -/
def findPlus (s : Text) (start : Nat) : Option Nat :=
  if (s.drop start).idxOf '+' < (s.drop start).length then some (start + (s.drop start).idxOf '+') else none

/-- `find(...) + 1` of a `size_t`: `npos + 1` is 0 (canopen_master/src/objdict.cpp:143, 145) -/
def succPos : Option Nat → Nat
  | some n => n + 1
  | Option.none => 0

/-- "$NODEID" (canopen_master/src/objdict.cpp:142) -/
def nodeIdText : Text := "$NODEID".toList

/-- canopen_master/src/objdict.cpp:138-147 `parse_int`; `Option.none`: the key is not there -/
def parseInt (t : IntTy) : Option Text → HoldAny
  | Option.none => .empty (.int t)
  | some raw =>
    let str := trim raw
    if istartsWith str nodeIdText then .val (.offset t (intFromString t (trim (str.drop (succPos (findPlus str 7))))))
    else if iendsWith str nodeIdText then .val (.offset t (intFromString t (trim (str.take (succPos (findPlus str 0))))))
    else .val (.int t (intFromString t str))

/-- characters of a text as bytes (`std::string` is a byte string; canopen_master/src/objdict.cpp:161) -/
def charBytes (s : Text) : List Byte := s.map fun c => BitVec.ofNat 8 c.toNat

/-- canopen_master/src/objdict.cpp:149-153 `parse_octets` -/
def parseOctets : Option Text → HoldAny
  | Option.none => .empty .string
  | some raw =>
    match hex2buffer [] raw true with
    | (true, _) => .empty .string
    | (false, out) => .val (.string out)

/-- canopen_master/src/objdict.cpp:159-162 `parse_typed_value<String>` -/
def parseString : Option Text → HoldAny
  | Option.none => .empty .string
  | some raw => .val (.string (charBytes raw))

/-- text to floating point number as done by the property tree (canopen_master/src/objdict.cpp:157); library behaviour, kept as a parameter -/
structure RealParser where
  real32 : Text → Option (Vector Byte 4)
  real64 : Text → Option (Vector Byte 8)

/-- canopen_master/src/objdict.cpp:155-158 `parse_typed_value<float>`, `<double>` -/
def parseReal32 (rp : RealParser) : Option Text → Outcome Err HoldAny
  | Option.none => .ok (.empty .real32)
  | some raw => match rp.real32 raw with
    | some b => .ok (.val (.real32 b))
    | Option.none => .throws .badPath

/-- see `parseReal32` (canopen_master/src/objdict.cpp:155-158) -/
def parseReal64 (rp : RealParser) : Option Text → Outcome Err HoldAny
  | Option.none => .ok (.empty .real64)
  | some raw => match rp.real64 raw with
    | some b => .ok (.val (.real64 b))
    | Option.none => .throws .badPath

/-- canopen_master/src/objdict.cpp:164-188 `ReadAnyValue::read_value` with canopen_master/include/canopen_master/objdict.h:560-583 `branch_type` -/
def readValue (rp : RealParser) (dt : BitVec 16) (v : Option Text) : Outcome Err HoldAny :=
  match dt.toNat with
  | 0x02 => .ok (parseInt .i8 v)
  | 0x03 => .ok (parseInt .i16 v)
  | 0x04 => .ok (parseInt .i32 v)
  | 0x15 => .ok (parseInt .i64 v)
  | 0x05 => .ok (parseInt .u8 v)
  | 0x06 => .ok (parseInt .u16 v)
  | 0x07 => .ok (parseInt .u32 v)
  | 0x1b => .ok (parseInt .u64 v)
  | 0x08 => parseReal32 rp v
  | 0x10 => parseReal64 rp v
  | 0x09 => .ok (parseString v)
  | 0x0a => .ok (parseOctets v)
  | 0x0b => .ok (parseString v)
  | 0x0f => .ok (parseOctets v)
  | _ => .throws .badCast

/-- canopen_master/include/canopen_master/objdict.h:164-188 `ObjectDict::Entry`.  Not modelled: `mappable`, which nothing reads. -/
structure Entry where
  objCode : BitVec 16
  index : BitVec 16
  subIndex : BitVec 8
  dataType : BitVec 16
  constant : Bool
  readable : Bool
  writable : Bool
  desc : Text
  defVal : HoldAny
  initVal : HoldAny

/-- canopen_master/include/canopen_master/objdict.h:186 `value()` -/
def Entry.value (e : Entry) : HoldAny := if !e.initVal.isEmpty then e.initVal else e.defVal

/-- rights set by `set_access` (canopen_master/src/objdict.cpp:83-108) -/
structure Rights where
  constant : Bool
  readable : Bool
  writable : Bool
  deriving DecidableEq, Repr

/-- canopen_master/src/objdict.cpp:83-108 `set_access`; `Option.none` is the exception -/
def setAccess (access : Text) : Option Rights :=
  let a := lower access
  if a = "ro".toList then some ⟨false, true, false⟩
  else if a = "wo".toList then some ⟨false, false, true⟩
  else if a = "rw".toList then some ⟨false, true, true⟩
  else if a = "rwr".toList then some ⟨false, true, true⟩
  else if a = "rww".toList then some ⟨false, true, true⟩
  else if a = "const".toList then some ⟨true, true, false⟩
  else Option.none

/-- A parsed ini file: sections with key/value pairs (canopen_master/src/objdict.cpp:278-281; `iptree` compares keys without case).
Simplification: section and key names contain no '.', the path separator. -/
structure Ini where
  sections : List (Text × List (Text × Text))

/-- `pt.get_child_optional(name)` on the root (canopen_master/src/objdict.cpp:218) -/
def Ini.sect (ini : Ini) (name : Text) : Option (List (Text × Text)) :=
  (ini.sections.find? fun s => lower s.1 = lower name).map (·.2)

/-- `object.get<std::string>(key)` (canopen_master/src/objdict.cpp:195, 207, 224) -/
def lookup (sec : List (Text × Text)) (key : Text) : Option Text :=
  (sec.find? fun s => lower s.1 = lower key).map (·.2)

/-- `put` into a section (canopen_master/src/objdict.cpp:325): replaces the value or appends the key -/
def putKey : List (Text × Text) → Text → Text → List (Text × Text)
  | [], k, v => [(k, v)]
  | (k', v') :: r, k, v => if lower k' = lower k then (k', v) :: r else (k', v') :: putKey r k v

/-- canopen_master/src/objdict.cpp:324-326 one overlay entry; `Option.none`: no such section (exception) -/
def Ini.overlay (ini : Ini) (name value : Text) : Option Ini :=
  let rec go : List (Text × List (Text × Text)) → Option (List (Text × List (Text × Text)))
    | [] => Option.none
    | (n, s) :: r =>
      if lower n = lower name then some ((n, putKey s "ParameterValue".toList value) :: r)
      else (go r).map fun r' => (n, s) :: r'
  (go ini.sections).map fun s => ⟨s⟩

/-- the dictionary (canopen_master/include/canopen_master/objdict.h:214, 233) as an association list -/
abbrev Dict := List (Key × Entry)

/-- canopen_master/include/canopen_master/objdict.h:197-208, 224-231 `get`/`has`/`at` -/
def Dict.get (d : Dict) (k : Key) : Option Entry := (d.find? fun p => p.1 = k).map (·.2)

/-- canopen_master/include/canopen_master/objdict.h:210-212 `insert` (an existing entry stays) -/
def Dict.insert (d : Dict) (k : Key) (e : Entry) : Dict := if (d.get k).isSome then d else d ++ [(k, e)]

/-- canopen_master/src/objdict.cpp:203-215 `read_var` -/
def readVar (rp : RealParser) (e : Entry) (sec : List (Text × Text)) : Outcome Err Entry :=
  match lookup sec "DataType".toList with
  | Option.none => .throws .badPath
  | some dts =>
    let dt := u16Of dts
    match (lookup sec "AccessType".toList).bind setAccess with
    | Option.none => .throws .parse
    | some r =>
      match readValue rp dt (lookup sec "DefaultValue".toList) with
      | .ok dv =>
        match readValue rp dt (lookup sec "ParameterValue".toList) with
        | .ok iv => .ok { e with dataType := dt, constant := r.constant, readable := r.readable, writable := r.writable,
                                 defVal := dv, initVal := iv }
        | .throws x => .throws x
        | .ub => .ub
      | .throws x => .throws x
      | .ub => .ub

/-- canopen_master/src/objdict.cpp:223-225: index, object code and description; the other members are not initialised yet (they are set
before the entry is used) -/
def newEntry (name : Text) (sec : List (Text × Text)) : Outcome Err Entry :=
  let code := u16Of ((lookup sec "ObjectType".toList).getD "7".toList)
  match lookup sec "ParameterName".toList with
  | Option.none => .throws .badPath
  | some pn => .ok { objCode := code, index := u16Of name, subIndex := 0, dataType := 0, constant := false,
                     readable := false, writable := false, desc := (lookup sec "Denotation".toList).getD pn, defVal := .none, initVal := .none }

/-- canopen_master/src/objdict.cpp:259-264: every exception becomes a `ParseException` -/
def asParse {α : Type} : Outcome Err α → Outcome Err α
  | .ok a => .ok a
  | .throws _ => .throws .parse
  | .ub => .ub

/-- canopen_master/src/objdict.cpp:217-231 `parse_object` with a sub-index -/
def parseSub (rp : RealParser) (ini : Ini) (d : Dict) (name : Text) (sub : BitVec 8) : Outcome Err Dict :=
  match ini.sect (name.drop 2) with
  | Option.none => .ok d
  | some sec =>
    match newEntry name sec with
    | .ok e =>
      match readVar rp { e with subIndex := sub } sec with
      | .ok e' => .ok (d.insert (Key.ofSub e'.index e'.subIndex) e')
      | .throws _ => .throws .parse
      | .ub => .ub
    | .throws _ => .throws .parse
    | .ub => .ub

/-- canopen_master/src/objdict.cpp:248-253: the loop over `SubNumber` sub-objects, from `i` on, `n` of them -/
def parseSubs (rp : RealParser) (ini : Ini) (name : Text) : Nat → Nat → Dict → Outcome Err Dict
  | _, 0, d => .ok d
  | i, n + 1, d =>
    match parseSub rp ini d (name ++ "sub".toList ++ ostreamHex true i) (BitVec.ofNat 8 i) with
    | .ok d' => parseSubs rp ini name (i + 1) n d'
    | o => o

/-- decimal text of a sub-index (canopen_master/src/objdict.cpp:240-244, `boost::lexical_cast<std::string>`) -/
def decText (n : Nat) : Text := (toString n).toList

/-- canopen_master/src/objdict.cpp:244: the value of a compact sub-object.  `pt.count(key)` looks for a section with the dotted name
(it takes no path), only then the path is followed. -/
def compactValue (rp : RealParser) (ini : Ini) (name : Text) (dt : BitVec 16) (i : Nat) : Outcome Err HoldAny :=
  match ini.sect (name.drop 2 ++ "Value.".toList ++ decText i) with
  | Option.none => readValue rp dt Option.none
  | some _ =>
    match (ini.sect (name.drop 2 ++ "Value".toList)).bind (lookup · (decText i)) with
    | some v => readValue rp dt (some v)
    | Option.none => .throws .badPath

/-- canopen_master/src/objdict.cpp:239-245: compact sub-objects from `i` on, `n` of them.  The constructor canopen_master/include/canopen_master/objdict.h:182-183 does not
initialise `constant`: `junk` says what is found there. -/
def compactSubs (rp : RealParser) (ini : Ini) (junk : Nat → Bool) (name : Text) (e : Entry) : Nat → Nat → Dict → Outcome Err Dict
  | _, 0, d => .ok d
  | i, n + 1, d =>
    match compactValue rp ini name e.dataType i with
    | .ok iv =>
      compactSubs rp ini junk name e (i + 1) n (d.insert (Key.ofSub e.index (BitVec.ofNat 8 i))
        { objCode := 7, index := e.index, subIndex := BitVec.ofNat 8 i, dataType := e.dataType, constant := junk i, readable := e.readable,
          writable := e.writable, desc := name, defVal := e.defVal, initVal := iv })
    | .throws x => .throws x
    | .ub => .ub

/-- canopen_master/src/objdict.cpp:235: the entry that holds the number of compact sub-objects -/
def nrOfObjects (junk : Nat → Bool) (index : BitVec 16) (subs : BitVec 8) : Entry :=
  { objCode := 7, index := index, subIndex := 0, dataType := 5, constant := junk 0, readable := true, writable := false,
    desc := "NrOfObjects".toList, defVal := .val (.int .u8 subs), initVal := .none }

/-- canopen_master/src/objdict.cpp:223-257: the part of `parse_object` inside `try` for an object (not a sub-object) -/
def parseBody (rp : RealParser) (ini : Ini) (junk : Nat → Bool) (d : Dict) (name : Text) (sec : List (Text × Text)) : Outcome Err Dict :=
  match newEntry name sec with
  | .ok e =>
    if e.objCode = 7 ∨ e.objCode = 2 then
      match readVar rp e sec with
      | .ok e' => .ok (d.insert (Key.ofIndex e'.index) e')
      | .throws x => .throws x
      | .ub => .ub
    else if e.objCode = 8 ∨ e.objCode = 9 then
      let subs := u8Of ((lookup sec "CompactSubObj".toList).getD [])
      if subs ≠ 0 then
        let d1 := d.insert (Key.ofSub e.index 0) (nrOfObjects junk e.index subs)
        match readVar rp e sec with
        | .ok e' => compactSubs rp ini junk name e' 1 (subs.toNat - 1) d1
        | .throws x => .throws x
        | .ub => .ub
      else
        match lookup sec "SubNumber".toList with
        | Option.none => .throws .badPath
        | some sn => parseSubs rp ini name 0 (u8Of sn).toNat d
    else .throws .parse
  | .throws x => .throws x
  | .ub => .ub

/-- canopen_master/src/objdict.cpp:217-265 `parse_object` without a sub-index -/
def parseObject (rp : RealParser) (ini : Ini) (junk : BitVec 16 → Nat → Bool) (d : Dict) (name : Text) : Outcome Err Dict :=
  if name.length < 2 then .throws .outOfRange
  else
    match ini.sect (name.drop 2) with
    | Option.none => .ok d
    | some sec => asParse (parseBody rp ini (junk (u16Of name)) d name sec)

/-- canopen_master/src/objdict.cpp:271-274: the loop over the listed names, from number `i` on, `n` of them -/
def parseListed (rp : RealParser) (ini : Ini) (junk : BitVec 16 → Nat → Bool) (list : List (Text × Text)) : Nat → Nat → Dict → Outcome Err Dict
  | _, 0, d => .ok d
  | i, n + 1, d =>
    match lookup list (decText (i + 1)) with
    | Option.none => .throws .badPath
    | some name =>
      match parseObject rp ini junk d name with
      | .ok d' => parseListed rp ini junk list (i + 1) n d'
      | o => o

/-- canopen_master/src/objdict.cpp:266-275 `parse_objects` -/
def parseObjects (rp : RealParser) (ini : Ini) (junk : BitVec 16 → Nat → Bool) (key : Text) (d : Dict) : Outcome Err Dict :=
  match ini.sect key with
  | Option.none => .ok d
  | some list => parseListed rp ini junk list 0 (u16Of ((lookup list "SupportedObjects".toList).getD [])).toNat d

/-- canopen_master/src/objdict.cpp:324-326 the overlay loop -/
def applyOverlay : Ini → List (Text × Text) → Option Ini
  | ini, [] => some ini
  | ini, (n, v) :: r => (ini.overlay n v).bind fun ini' => applyOverlay ini' r

/-- canopen_master/src/objdict.cpp:276-333 `ObjectDict::fromFile` after `read_ini`.  The `DeviceInfo` fields (283-320) are in `Verif.Model.DeviceInfo`; here only the
presence of the section is required. -/
def fromFile (rp : RealParser) (junk : BitVec 16 → Nat → Bool) (ini : Ini) (overlay : List (Text × Text)) : Outcome Err Dict :=
  match ini.sect "DeviceInfo".toList with
  | Option.none => .throws .badPath
  | some _ =>
    match applyOverlay ini overlay with
    | Option.none => .throws .badPath
    | some ini' =>
      match parseObjects rp ini' junk "MandatoryObjects".toList [] with
      | .ok d1 =>
        match parseObjects rp ini' junk "OptionalObjects".toList d1 with
        | .ok d2 => parseObjects rp ini' junk "ManufacturerObjects".toList d2
        | o => o
      | o => o

end Verif.OD
