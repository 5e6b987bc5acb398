import Verif.Model.Frame

/-!
# Text codec for frames
socketcan_interface/src/string.cpp
-/

namespace Verif.Txt

open Verif

/-- socketcan_interface/src/string.cpp:6-17 `hex2dec`; `none` is the return value `false`. -/
def hex2dec (h : Char) : Option Byte :=
  if '0'.toNat ≤ h.toNat ∧ h.toNat ≤ '9'.toNat then some (BitVec.ofNat 8 (h.toNat - '0'.toNat))
  else if 'a'.toNat ≤ h.toNat ∧ h.toNat ≤ 'f'.toNat then some (BitVec.ofNat 8 (h.toNat - 'a'.toNat + 10))
  else if 'A'.toNat ≤ h.toNat ∧ h.toNat ≤ 'F'.toNat then some (BitVec.ofNat 8 (h.toNat - 'A'.toNat + 10))
  else none

/-- `std::string::resize` as used in socketcan_interface/src/string.cpp:27 -/
def resize (n : Nat) (s : List Byte) : List Byte := s.take n ++ List.replicate (n - s.length) 0#8

/-- The loop socketcan_interface/src/string.cpp:28-35 (first argument: the not yet written part of `out`,
second: the not yet read part of `in`). -/
def hex2bufferLoop : List Byte → Text → Bool × List Byte
  | o :: os, a :: b :: r =>
    match hex2dec a, hex2dec b with
    | some hi, some lo =>
      let (ok, os') := hex2bufferLoop os r
      (ok, ((hi <<< 4) ||| lo) :: os')
    | _, _ => (false, o :: os)
  | os, _ => (true, os)

/-- socketcan_interface/src/string.cpp:19-36 `hex2buffer`; result is the return value and the new `out`. -/
def hex2buffer (out : List Byte) (inRaw : Text) (pad : Bool) : Bool × List Byte :=
  if inRaw.length % 2 ≠ 0 then
    if pad then
      hex2bufferLoop (resize (('0' :: inRaw).length / 2) out) ('0' :: inRaw)
    else (false, out)
  else hex2bufferLoop (resize (inRaw.length / 2) out) inRaw

/-- socketcan_interface/src/string.cpp:38-50 `dec2hex` (return value and character). -/
def dec2hex (d : Byte) (lc : Bool) : Bool × Char :=
  if d.toNat < 10 then (true, Char.ofNat ('0'.toNat + d.toNat))
  else if d.toNat < 16 ∧ lc = true then (true, Char.ofNat ('a'.toNat + (d.toNat - 10)))
  else if d.toNat < 16 ∧ lc = false then (true, Char.ofNat ('A'.toNat + (d.toNat - 10)))
  else (false, '?')

/-- socketcan_interface/src/string.cpp:52-63 `byte2hex` -/
def byte2hex (d : Byte) (pad lc : Bool) : Text :=
  let hi := d >>> 4
  (if hi ≠ 0 ∨ pad = true then [(dec2hex hi lc).2] else []) ++ [(dec2hex (d &&& 0xf#8) lc).2]

/-- socketcan_interface/src/string.cpp:65-76 `buffer2hex` (the test for an empty `b` at line 70 returns the
empty string). -/
def buffer2hex : List Byte → Bool → Text
  | [], _ => []
  | b :: bs, lc =>
    let t := byte2hex b true lc
    if t.isEmpty then t else t ++ buffer2hex bs lc

/-- `ostream << std::hex << unsigned` as used in socketcan_interface/src/string.cpp:82-91
(library behaviour: no leading zeros, "0" for zero, letter case by `std::uppercase`). -/
def ostreamHex (lc : Bool) (n : Nat) : Text :=
  if n < 16 then [(dec2hex (BitVec.ofNat 8 n) lc).2]
  else ostreamHex lc (n / 16) ++ [(dec2hex (BitVec.ofNat 8 (n % 16)) lc).2]
termination_by n
decreasing_by omega

/-- `std::setfill('0') << std::setw(8)` at socketcan_interface/src/string.cpp:89 (right aligned, never truncates). -/
def padLeft (w : Nat) (s : Text) : Text := List.replicate (w - s.length) '0' ++ s

/-- socketcan_interface/src/string.cpp:78-93 `tostring(const Header&, bool)` -/
def headerToString (h : Header) (lc : Bool) : Text :=
  let s := ostreamHex lc (h.fullid &&& ~~~Header.EXTENDED_MASK).toNat
  if h.isExtended then padLeft 8 s else s

/-- whitespace of the classic locale, skipped by `operator>>` (socketcan_interface/src/string.cpp:99). -/
def isSpace (c : Char) : Bool :=
  c = ' ' || c = '\t' || c = '\n' || c.toNat = 11 || c.toNat = 12 || c = '\r'

/-- digits collected by `num_get` with `std::hex` (socketcan_interface/src/string.cpp:98-99): value of the longest
prefix of hex digits, accumulated on `acc`, and whether there was any digit. -/
def scanHex : Text → Nat → Bool → Nat × Bool
  | [], acc, any => (acc, any)
  | c :: r, acc, any =>
    match hex2dec c with
    | some d => scanHex r (acc * 16 + d.toNat) true
    | none => (acc, any)

/-- optional sign read by `num_get` (socketcan_interface/src/string.cpp:99): negative flag and rest -/
def takeSign : Text → Bool × Text
  | '-' :: r => (true, r)
  | '+' :: r => (false, r)
  | r => (false, r)

/-- optional `0x` prefix and digits read by `num_get` with `std::hex` (socketcan_interface/src/string.cpp:98-99);
a lone leading zero already counts as a digit, the zero of `0x` does not. -/
def scanPrefixed : Text → Nat × Bool
  | '0' :: 'x' :: r => scanHex r 0 false
  | '0' :: 'X' :: r => scanHex r 0 false
  | '0' :: r => scanHex r 0 true
  | r => scanHex r 0 false

/-- socketcan_interface/src/string.cpp:95-101 `tohex`: `std::stringstream << std::hex << s >> (unsigned int)`.
The library behaviour (libstdc++ `num_get`) is rendered completely: leading white space, an optional sign,
an optional `0x`/`0X`, then hex digits; no digit gives 0, overflow gives the maximum, a minus sign
negates modulo 2^32.  (The incremental overflow test of the library is rendered as a test on the exact value.) -/
def tohex (s : Text) : BitVec 32 :=
  let ns := takeSign (s.dropWhile isSpace)
  let va := scanPrefixed ns.2
  if va.2 = false then 0#32
  else if va.1 ≥ 2 ^ 32 then 0xFFFFFFFF#32
  else if ns.1 then -(BitVec.ofNat 32 va.1)
  else BitVec.ofNat 32 va.1

/-- socketcan_interface/src/string.cpp:103-108 `toheader` -/
def toheader (s : Text) : Header :=
  let h := tohex s
  let id := h &&& Header.ID_MASK
  Header.mk' id
    ((h &&& Header.EXTENDED_MASK) ≠ 0#32 || (s.length = 8 && 2 ^ 11 ≤ id.toNat))
    ((h &&& Header.RTR_MASK) ≠ 0#32)
    ((h &&& Header.ERROR_MASK) ≠ 0#32)

/-- socketcan_interface/src/string.cpp:110-117 `tostring(const Frame&, bool)`; undefined for `dlc > 8`. -/
def frameToString {ε : Type} (f : Frame) (lc : Bool) : Outcome ε Text :=
  match (f.bytes : Outcome ε _) with
  | .ok s => .ok (headerToString f.toHeader lc ++ '#' :: buffer2hex s lc)
  | .throws e => .throws e
  | .ub => .ub

/-- `std::string::find` / `find_first_of` with the two `substr` calls that follow it
(socketcan_interface/src/string.cpp:120-127, 141-151): text before, the separator, text after. -/
def splitFirst (p : Char → Bool) : Text → Option (Text × Char × Text)
  | [] => none
  | c :: r => if p c then some ([], c, r) else (splitFirst p r).map fun (a, x, b) => (c :: a, x, b)

/-- The copy loop socketcan_interface/src/string.cpp:131-133 (`buffer.size() ≤ 8` was tested before). -/
def copyInto (data : Vector Byte 8) (buffer : List Byte) : Vector Byte 8 :=
  Vector.ofFn fun i : Fin 8 => (buffer[i.val]?).getD data[i]

/-- socketcan_interface/src/string.cpp:119-137 `toframe`.  `junk` is the uninitialised payload array. -/
def toframe (junk : Vector Byte 8) (s : Text) : Frame :=
  match splitFirst (· = '#') s with
  | none => Frame.ofHeader junk (Header.msg 0xfff#32)
  | some (hd, _, rest) =>
    let header := toheader hd
    let frame := Frame.ofHeader junk header
    if header.isValid then
      match hex2buffer [] rest false with
      | (true, buffer) =>
        if buffer.length > 8 then Frame.ofHeader junk (Header.msg 0xfff#32)
        else { frame with data := copyInto frame.data buffer, dlc := BitVec.ofNat 8 buffer.length }
      | (false, _) => frame
    else frame

end Verif.Txt
