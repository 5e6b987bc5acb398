import Verif.Model.Basic

/-!
# CAN header and frame
socketcan_interface/include/socketcan_interface/interface.h
-/

namespace Verif

/-- socketcan_interface/include/socketcan_interface/interface.h:17-46 `struct Header`
(bit-fields `id:29`, `is_error:1`, `is_rtr:1`, `is_extended:1`). -/
structure Header where
  id : BitVec 29
  isError : Bool
  isRtr : Bool
  isExtended : Bool
  deriving DecidableEq, Repr, Inhabited

namespace Header

/-- socketcan_interface/include/socketcan_interface/interface.h:18 `ID_MASK` -/
def ID_MASK : BitVec 32 := 0x1FFFFFFF#32
/-- socketcan_interface/include/socketcan_interface/interface.h:19 `ERROR_MASK` -/
def ERROR_MASK : BitVec 32 := 1#32 <<< 29
/-- socketcan_interface/include/socketcan_interface/interface.h:20 `RTR_MASK` -/
def RTR_MASK : BitVec 32 := 1#32 <<< 30
/-- socketcan_interface/include/socketcan_interface/interface.h:21 `EXTENDED_MASK` -/
def EXTENDED_MASK : BitVec 32 := 1#32 <<< 31

/-- socketcan_interface/include/socketcan_interface/interface.h:28-30 `Header::isValid` -/
def isValid (h : Header) : Bool :=
  h.id.toNat < (if h.isExtended then 2 ^ 29 else 2 ^ 11)

/-- socketcan_interface/include/socketcan_interface/interface.h:31 `Header::fullid` -/
def fullid (h : Header) : BitVec 32 :=
  h.id.setWidth 32 ||| (if h.isError then ERROR_MASK else 0#32)
    ||| (if h.isRtr then RTR_MASK else 0#32)
    ||| (if h.isExtended then EXTENDED_MASK else 0#32)

/-- socketcan_interface/include/socketcan_interface/interface.h:32 `Header::key` -/
def key (h : Header) : BitVec 32 := if h.isError then ERROR_MASK else h.fullid

/-- socketcan_interface/include/socketcan_interface/interface.h:44-45 `Header(i, extended, rtr, error)`;
the 32 bit argument is truncated into the 29 bit field. -/
def mk' (i : BitVec 32) (extended rtr error : Bool) : Header :=
  { id := i.setWidth 29, isError := error, isRtr := rtr, isExtended := extended }

/-- socketcan_interface/include/socketcan_interface/interface.h:41-42 `Header()` -/
def default' : Header := { id := 0, isError := false, isRtr := false, isExtended := false }

/-- socketcan_interface/include/socketcan_interface/interface.h:49-51 `MsgHeader` -/
def msg (i : BitVec 32) (rtr : Bool := false) : Header := mk' i false rtr false
/-- socketcan_interface/include/socketcan_interface/interface.h:52-54 `ExtendedHeader` -/
def ext (i : BitVec 32) (rtr : Bool := false) : Header := mk' i true rtr false
/-- socketcan_interface/include/socketcan_interface/interface.h:55-57 `ErrorHeader` -/
def err (i : BitVec 32) : Header := mk' i false false true

end Header

/-- socketcan_interface/include/socketcan_interface/interface.h:62-83 `struct Frame : Header` -/
structure Frame extends Header where
  data : Vector Byte 8
  dlc : Byte
  deriving DecidableEq, Repr, Inhabited

namespace Frame

/-- socketcan_interface/include/socketcan_interface/interface.h:68-70 `Frame::isValid` -/
def isValid (f : Frame) : Bool := f.dlc.toNat ≤ 8 && f.toHeader.isValid

/-- socketcan_interface/include/socketcan_interface/interface.h:79 `Frame(h, l)`.  The constructor does not
initialise `data`; its contents are the parameter `junk`. -/
def ofHeader (junk : Vector Byte 8) (h : Header) (l : Byte := 0) : Frame :=
  { toHeader := h, data := junk, dlc := l }

/-- The loop `for(i < dlc) … data[i]` used by every consumer of a frame, e.g.
socketcan_interface/src/string.cpp:113-115.  `std::array::operator[]` is unchecked, so reading with
`dlc > 8` is undefined behaviour. -/
def bytes {ε : Type} (f : Frame) : Outcome ε (List Byte) :=
  if f.dlc.toNat ≤ 8 then .ok (f.data.toList.take f.dlc.toNat) else .ub

end Frame

end Verif
