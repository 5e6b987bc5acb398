import Verif.Model.Eds

/-!
# The device information of an EDS file
canopen_master/include/canopen_master/objdict.h:98-115, canopen_master/src/objdict.cpp:190-201, 283-322
-/

namespace Verif.OD
open Verif Verif.Txt

/-- canopen_master/include/canopen_master/objdict.h:98-115 `DeviceInfo`; the sets are lists without order -/
structure DeviceInfo where
  vendorName : Text
  vendorNumber : BitVec 32
  productName : Text
  productNumber : BitVec 32
  revisionNumber : BitVec 32
  orderCode : Text
  baudrates : List (BitVec 32)
  simpleBootUpMaster : Bool
  simpleBootUpSlave : Bool
  granularity : BitVec 8
  dynamicChannelsSupported : Bool
  groupMessaging : Bool
  nrOfRxPdo : BitVec 16
  nrOfTxPdo : BitVec 16
  lssSupported : Bool
  dummyUsage : List (BitVec 16)
  deriving DecidableEq

/-- `stream >> number` in decimal, the default of a stream (library, through `pt.get` in canopen_master/src/objdict.cpp:191): white space, a sign, digits; sign, value and
whether there was a digit, and what is left -/
def streamDec (s : Text) : Bool × (Nat × Bool × Text) :=
  let ns := takeSign (s.dropWhile isSpace)
  (ns.1, scanDigits 10 ns.2 0 false)

/-- `pt.get<uintN_t>` of the property tree for 16 and 32 bits (library, canopen_master/src/objdict.cpp:191): the text must be used up but for white space; a value that does
not fit is an error, a negative one is taken modulo 2^N.  `none`: no value. -/
def readUnsigned (w : Nat) (s : Text) : Option (BitVec w) :=
  let r := streamDec s
  if r.2.2.1 && decide (r.2.1 < 2 ^ w) && r.2.2.2.all isSpace then some (if r.1 then -(BitVec.ofNat w r.2.1) else BitVec.ofNat w r.2.1) else none

/-- the same for `uint8_t` (library, canopen_master/src/objdict.cpp:191): the property tree reads an `unsigned` and checks its range -/
def readUint8 (s : Text) : Option (BitVec 8) :=
  match readUnsigned 32 s with
  | some v => if v.toNat ≤ 255 then some (v.setWidth 8) else none
  | none => none

/-- the same for `bool` (library, canopen_master/src/objdict.cpp:191, 306, 316): a number 0 or 1; otherwise the words `true` and `false`, looked for after what was used up by
the attempt to read a number -/
def readBool (s : Text) : Option Bool :=
  let r := streamDec s
  let done : Option (Bool × Text) :=
    if r.2.2.1 && r.2.1 == 0 then some (false, r.2.2.2)
    else if r.2.2.1 && r.2.1 == 1 && !r.1 then some (true, r.2.2.2)
    else
      let t := r.2.2.2.dropWhile isSpace
      if "true".toList.isPrefixOf t then some (true, t.drop 4)
      else if "false".toList.isPrefixOf t then some (false, t.drop 5)
      else none
  match done with
  | some (b, t) => if t.all isSpace then some b else none
  | none => none

/-- canopen_master/src/objdict.cpp:190-192 `read_optional`: no entry and an entry without a value of the type give `T()` -/
def readOptional {α : Type} (read : Text → Option α) (zero : α) (sec : List (Text × Text)) (key : Text) : α :=
  match lookup sec key with
  | none => zero
  | some s => (read s).getD zero

/-- canopen_master/src/objdict.cpp:303-309, 312-319: the entries of a section that begin with `pre` (with regard to case) and are true; `num` is the number made of the rest of
the name.  `Option.none`: the exception of `get_value<bool>`. -/
def flagged {α : Type} (pre : Text) (num : Text → α) : List (Text × Text) → Option (List α)
  | [] => some []
  | (k, v) :: l =>
    if pre.isPrefixOf k then
      match readBool v with
      | none => none
      | some b => (flagged pre num l).map fun r => if b then num (k.drop pre.length) :: r else r
    else flagged pre num l

/-- canopen_master/src/objdict.cpp:307 `rate * 1000` -/
def rateOf (t : Text) : BitVec 32 := BitVec.ofNat 32 ((u16Of t).toNat * 1000)

/-- canopen_master/src/objdict.cpp:315 `"0x" + ...` -/
def dummyOf (t : Text) : BitVec 16 := u16Of ("0x".toList ++ t)

/-- canopen_master/src/objdict.cpp:283-322: the part of `fromFile` that fills `info`; `get_child` of a missing section and `get_value<bool>` of another text throw (both exceptions of
the property tree, here `badPath`) -/
def deviceInfo (ini : Ini) : Outcome Err DeviceInfo :=
  match ini.sect "DeviceInfo".toList with
  | none => .throws .badPath
  | some di =>
    match flagged "BaudRate_".toList rateOf di, flagged "Dummy".toList dummyOf ((ini.sect "DummyUsage".toList).getD []) with
    | some rates, some dummies => .ok {
        vendorName := readOptional some [] di "VendorName".toList
        vendorNumber := readOptional (readUnsigned 32) 0 di "VendorNumber".toList
        productName := readOptional some [] di "ProductName".toList
        productNumber := readOptional (readUnsigned 32) 0 di "ProductNumber".toList
        revisionNumber := readOptional (readUnsigned 32) 0 di "RevisionNumber".toList
        orderCode := readOptional some [] di "OrderCode".toList
        baudrates := rates
        simpleBootUpMaster := readOptional readBool false di "SimpleBootUpMaster".toList
        simpleBootUpSlave := readOptional readBool false di "SimpleBootUpSlave".toList
        granularity := readOptional readUint8 0 di "Granularity".toList
        dynamicChannelsSupported := readOptional readBool false di "DynamicChannelsSupported".toList
        groupMessaging := readOptional readBool false di "GroupMessaging".toList
        nrOfRxPdo := readOptional (readUnsigned 16) 0 di "NrOfRXPDO".toList
        nrOfTxPdo := readOptional (readUnsigned 16) 0 di "NrOfTXPDO".toList
        lssSupported := readOptional readBool false di "LSS_Supported".toList
        dummyUsage := dummies }
    | _, _ => .throws .badPath

/-- canopen_master/src/objdict.cpp:276-333 `ObjectDict::fromFile` after `read_ini`, with the device information -/
def loadFile (rp : RealParser) (junk : BitVec 16 → Nat → Bool) (ini : Ini) (overlay : List (Text × Text)) : Outcome Err (DeviceInfo × Dict) :=
  match deviceInfo ini with
  | .ok info =>
    match fromFile rp junk ini overlay with
    | .ok d => .ok (info, d)
    | .throws e => .throws e
    | .ub => .ub
  | .throws e => .throws e
  | .ub => .ub

end Verif.OD
