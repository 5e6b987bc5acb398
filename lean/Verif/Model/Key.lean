import Verif.Model.Text

/-!
# Object dictionary keys and integer literals
canopen_master/include/canopen_master/objdict.h, canopen_master/src/objdict.cpp
-/

namespace Verif.OD
open Verif Verif.Txt

/-- canopen_master/include/canopen_master/objdict.h:122-134 `ObjectDict::Key`; `size_t` has 64 bits. -/
structure Key where
  hash : BitVec 64
  deriving DecidableEq, Repr

/-- canopen_master/include/canopen_master/objdict.h:126 `Key(uint16_t)`.  `i << 16` is computed in `int` (32 bit, wraps into the sign bit), converting to `size_t`
extends the sign. -/
def Key.ofIndex (i : BitVec 16) : Key :=
  ⟨((i.setWidth 32 <<< 16) ||| 0xFFFF#32).signExtend 64⟩

/-- canopen_master/include/canopen_master/objdict.h:127 `Key(uint16_t, uint8_t)` -/
def Key.ofSub (i : BitVec 16) (s : BitVec 8) : Key :=
  ⟨((i.setWidth 32 <<< 16) ||| s.setWidth 32).signExtend 64⟩

/-- canopen_master/include/canopen_master/objdict.h:129 `hasSub` -/
def Key.hasSub (k : Key) : Bool := (k.hash &&& 0xFFFF#64) ≠ 0xFFFF#64

/-- canopen_master/include/canopen_master/objdict.h:130 `sub_index` -/
def Key.subIndex (k : Key) : BitVec 8 := (k.hash &&& 0xFFFF#64).setWidth 8

/-- canopen_master/include/canopen_master/objdict.h:131 `index` -/
def Key.index (k : Key) : BitVec 16 := (k.hash >>> 16).setWidth 16

/-- canopen_master/src/objdict.cpp:37-42 `operator std::string` -/
def Key.toText (k : Key) : Text :=
  ostreamHex true k.index.toNat ++ (if k.hasSub then "sub".toList ++ ostreamHex true k.subIndex.toNat else [])

/-- value of a digit of the C number functions (library, used through canopen_master/src/objdict.cpp:34, 113-135) -/
def digitVal (c : Char) : Option Nat :=
  if '0'.toNat ≤ c.toNat ∧ c.toNat ≤ '9'.toNat then some (c.toNat - '0'.toNat)
  else if 'a'.toNat ≤ c.toNat ∧ c.toNat ≤ 'z'.toNat then some (c.toNat - 'a'.toNat + 10)
  else if 'A'.toNat ≤ c.toNat ∧ c.toNat ≤ 'Z'.toNat then some (c.toNat - 'A'.toNat + 10)
  else none

/-- longest run of digits of a base (library, canopen_master/src/objdict.cpp:34, 113-135): value, any digit seen, rest -/
def scanDigits (base : Nat) : Text → Nat → Bool → Nat × Bool × Text
  | [], acc, any => (acc, any, [])
  | c :: r, acc, any =>
    match digitVal c with
    | some d => if d < base then scanDigits base r (acc * base + d) true else (acc, any, c :: r)
    | none => (acc, any, c :: r)

/-- optional `0x` and hex digits of a `sscanf` `%x` conversion (library, canopen_master/src/objdict.cpp:34) -/
def scanPref16 : Text → Nat × Bool × Text
  | '0' :: 'x' :: t => scanDigits 16 t 0 false
  | '0' :: 'X' :: t => scanDigits 16 t 0 false
  | t => scanDigits 16 t 0 false

/-- one `%hx` / `%hhx` conversion of `sscanf` (canopen_master/src/objdict.cpp:34): white space, sign, optional `0x`, digits; `none` is a
matching failure.  The value is the one of `strtoul`: saturated at 2^64-1, negated modulo 2^64; storing truncates it. -/
def scanfHex (s : Text) : Option (BitVec 64 × Text) :=
  let ns := takeSign (s.dropWhile isSpace)
  let r := scanPref16 ns.2
  if r.2.1 then
    some (if r.1 ≥ 2 ^ 64 then BitVec.allOnes 64 else if ns.1 then -(BitVec.ofNat 64 r.1) else BitVec.ofNat 64 r.1, r.2.2)
  else none

/-- literal characters of a `sscanf` format (canopen_master/src/objdict.cpp:34) -/
def scanfLit : Text → Text → Option Text
  | [], s => some s
  | _ :: _, [] => none
  | c :: cs, d :: ds => if c = d then scanfLit cs ds else none

/-- canopen_master/src/objdict.cpp:31-36 `Key::fromString`, canopen_master/include/canopen_master/objdict.h:128 -/
def Key.fromText (s : Text) : Key :=
  match scanfHex s with
  | none => Key.ofIndex 0#16
  | some (v, r) =>
    let index := v.setWidth 16
    match scanfLit "sub".toList r with
    | none => Key.ofIndex index
    | some r' =>
      match scanfHex r' with
      | none => Key.ofIndex index
      | some (w, _) => Key.ofSub index (w.setWidth 8)

/-- the integer types stored in objects (canopen_master/include/canopen_master/objdict.h:542-550) -/
inductive IntTy where
  | i8 | i16 | i32 | i64 | u8 | u16 | u32 | u64
  deriving DecidableEq, Repr

/-- size in bytes (canopen_master/include/canopen_master/objdict.h:542-550) -/
def IntTy.size : IntTy → Nat
  | .i8 => 1 | .i16 => 2 | .i32 => 4 | .i64 => 8 | .u8 => 1 | .u16 => 2 | .u32 => 4 | .u64 => 8

/-- signedness (canopen_master/include/canopen_master/objdict.h:542-550) -/
def IntTy.signed : IntTy → Bool
  | .i8 => true | .i16 => true | .i32 => true | .i64 => true | _ => false

/-- width in bits (canopen_master/include/canopen_master/objdict.h:542-550) -/
abbrev IntTy.width (t : IntTy) : Nat := 8 * t.size

/-- base selection and digits of the `strtol` family with base 0 (library, canopen_master/src/objdict.cpp:112-136): `0x` selects base 16,
a leading `0` base 8, anything else base 10; the value of the longest run of digits -/
def magnitude : Text → Nat
  | '0' :: 'x' :: t => (scanDigits 16 t 0 false).1
  | '0' :: 'X' :: t => (scanDigits 16 t 0 false).1
  | '0' :: t => (scanDigits 8 t 0 false).1
  | t => (scanDigits 10 t 0 false).1

/-- `strtol` family with base 0 (library, canopen_master/src/objdict.cpp:112-136): white space, sign, number; result is the sign and the
magnitude. -/
def strtoMag (s : Text) : Bool × Nat :=
  let ns := takeSign (s.dropWhile isSpace)
  (ns.1, magnitude ns.2)

/-- `strtol`/`strtoll` (64 bit, saturating) as used in canopen_master/src/objdict.cpp:112-132 -/
def strtol (s : Text) : Int :=
  let m := strtoMag s
  let v : Int := if m.1 then -(m.2 : Int) else m.2
  if v > 2 ^ 63 - 1 then 2 ^ 63 - 1 else if v < -(2 ^ 63) then -(2 ^ 63) else v

/-- `strtoul`/`strtoull` (64 bit, saturating, a minus sign negates modulo 2^64) as used in canopen_master/src/objdict.cpp:115-135 -/
def strtoul (s : Text) : BitVec 64 :=
  let m := strtoMag s
  if m.2 ≥ 2 ^ 64 then BitVec.allOnes 64
  else if m.1 then -(BitVec.ofNat 64 m.2) else BitVec.ofNat 64 m.2

/-- canopen_master/src/objdict.cpp:110-136 `int_from_string<T>` (the conversion to `T` truncates) -/
def intFromString (t : IntTy) (s : Text) : BitVec t.width :=
  if t.signed then BitVec.ofInt t.width (strtol s) else (strtoul s).setWidth t.width

/-- `int_from_string<uint16_t>` (canopen_master/src/objdict.cpp:122-124) -/
def u16Of (s : Text) : BitVec 16 := intFromString .u16 s

/-- `int_from_string<uint8_t>` (canopen_master/src/objdict.cpp:119-121) -/
def u8Of (s : Text) : BitVec 8 := intFromString .u8 s

end Verif.OD
