import Verif.Model.Frame

/-!
# SDO client
canopen_master/src/sdo.cpp, canopen_master/include/canopen_master/canopen.h:24-69

A frame overlay is the 8 data bytes of the frame; packed bit-fields are read and written on those bytes, lowest bit first (the layout
gcc uses on little-endian targets, which the code relies on).  `memcpy` is checked: leaving the source or the destination is
undefined behaviour (`Outcome.ub`).  `size_t` is an unbounded natural number.

The frames returned by `reader_.read` are a parameter of a transfer: a list of frames, followed by silence (time-out).  A time-out
ends a transfer, so every behaviour of the bus during a terminating transfer is such a list.
-/

namespace Verif.Sdo

/-- the 8 data bytes under an overlay (canopen_master/include/canopen_master/canopen.h:24-30) -/
abbrev Bytes8 := Vector Byte 8

/-- what a transfer throws: `TimeoutException` (canopen_master/src/sdo.cpp:429,441,449) -/
inductive Exc where
  | timeout
  deriving DecidableEq, Repr

/-- the part of `ObjectDict::Entry` the client looks at: `index`, `sub_index`
(canopen_master/src/sdo.cpp:105-106,160-161,294) -/
structure Obj where
  index : BitVec 16
  sub : Byte
  deriving DecidableEq, Repr

/-- source side of `memcpy(_, buffer.data() + off, n)`: the bytes, or `none` when the range leaves the buffer
(canopen_master/src/sdo.cpp:68,95,189,226) -/
def memRead (buf : List Byte) (off n : Nat) : Option (List Byte) :=
  if off + n ≤ buf.length then some ((buf.drop off).take n) else none

/-- destination side of `memcpy(buffer.data() + off, …)` with the bytes `src`; `none` when the range leaves the buffer
(canopen_master/src/sdo.cpp:68,95,189,226) -/
def memWrite (buf : List Byte) (off : Nat) (src : List Byte) : Option (List Byte) :=
  if off + src.length ≤ buf.length then some (buf.take off ++ src ++ buf.drop (off + src.length)) else none

/-- `String::resize(n)` (canopen_master/src/sdo.cpp:186,223): cut, or fill up with zeros -/
def resize (buf : List Byte) (n : Nat) : List Byte := buf.take n ++ List.replicate (n - buf.length) 0

/-! ## fields -/

/-- `command:3`, bits 5-7 of byte 0, in every overlay (canopen_master/src/sdo.cpp:35,46,77,85,236), and
`msg.data[0] >> 5` (canopen_master/src/sdo.cpp:302) -/
def command (d : Bytes8) : Nat := d[0].toNat / 32
/-- `size_indicated:1` (canopen_master/src/sdo.cpp:42) -/
def sizeIndicated (d : Bytes8) : Bool := d[0].toNat % 2 == 1
/-- `expedited:1` (canopen_master/src/sdo.cpp:43) -/
def expedited (d : Bytes8) : Bool := d[0].toNat / 2 % 2 == 1
/-- `num:2` of InitiateLong (canopen_master/src/sdo.cpp:44) -/
def initNum (d : Bytes8) : Nat := d[0].toNat / 4 % 4
/-- `done:1` (canopen_master/src/sdo.cpp:82) -/
def segDone (d : Bytes8) : Bool := d[0].toNat % 2 == 1
/-- `num:3` of SegmentLong (canopen_master/src/sdo.cpp:83) -/
def segNum (d : Bytes8) : Nat := d[0].toNat / 2 % 8
/-- `toggle:1` of SegmentShort and SegmentLong (canopen_master/src/sdo.cpp:76,84) -/
def toggle (d : Bytes8) : Bool := d[0].toNat / 16 % 2 == 1
/-- `index` (canopen_master/src/sdo.cpp:36,47,237), little endian -/
def index (d : Bytes8) : BitVec 16 := d[2] ++ d[1]
/-- `sub_index` (canopen_master/src/sdo.cpp:37,48,238) -/
def subIndex (d : Bytes8) : Byte := d[3]
/-- `reason` of AbortData (canopen_master/src/sdo.cpp:239), little endian -/
def reason (d : Bytes8) : BitVec 32 := d[7] ++ d[6] ++ d[5] ++ d[4]
/-- `payload[4]` of InitiateLong (canopen_master/src/sdo.cpp:49) -/
def payload4 (d : Bytes8) : List Byte := [d[4], d[5], d[6], d[7]]
/-- `payload[7]` of SegmentLong (canopen_master/src/sdo.cpp:86) -/
def payload7 (d : Bytes8) : List Byte := [d[1], d[2], d[3], d[4], d[5], d[6], d[7]]

/-- canopen_master/src/sdo.cpp:51-55 `InitiateLong::data_size` -/
def initSize (d : Bytes8) : Nat :=
  if expedited d && sizeIndicated d then 4 - initNum d
  else if !expedited d && sizeIndicated d then d[4].toNat + 256 * d[7].toNat
  else 0

/-- canopen_master/src/sdo.cpp:87-89 `SegmentLong::data_size` -/
def segSize (d : Bytes8) : Nat := 7 - segNum d

/-! ## building messages -/

/-- value of a one bit field (canopen_master/src/sdo.cpp:42-43,76,82,84) -/
def bit (b : Bool) : Nat := if b then 1 else 0

/-- byte 0 of InitiateLong (canopen_master/src/sdo.cpp:42-46); a value too large for a field is cut to the field's width -/
def initByte (si ex : Bool) (num cmd : Nat) : Byte := BitVec.ofNat 8 (bit si + 2 * bit ex + 4 * (num % 4) + 32 * cmd)

/-- byte 0 of SegmentLong and, with `dn = false`, `num = 0`, of SegmentShort (canopen_master/src/sdo.cpp:75-77,82-85) -/
def segByte (dn : Bool) (num : Nat) (tg : Bool) (cmd : Nat) : Byte :=
  BitVec.ofNat 8 (bit dn + 2 * (num % 8) + 16 * bit tg + 32 * cmd)

/-- low byte (canopen_master/src/sdo.cpp:36,47,237 as stored in memory) -/
def lo (i : BitVec 16) : Byte := i.setWidth 8
/-- high byte (canopen_master/src/sdo.cpp:36,47,237 as stored in memory) -/
def hi (i : BitVec 16) : Byte := (i >>> 8).setWidth 8

/-- canopen_master/include/canopen_master/canopen.h:26-28 `FrameOverlay(h)`: 8 bytes, zero-filled, here already with its contents -/
def frame (h : Header) (d : Bytes8) : Frame := { toHeader := h, data := d, dlc := 8 }

/-- canopen_master/src/sdo.cpp:100-110 `DownloadInitiateRequest(h, entry, buffer, offset)` with
`InitiateLong::apply_buffer` (56-71); returns the frame and the new `offset`. -/
def downloadInit (h : Header) (key : Obj) (buffer : List Byte) : Option (Frame × Nat) :=
  if buffer.length > 4 then
    some (frame h #v[initByte true false 0 1, lo key.index, hi key.index, key.sub,
      BitVec.ofNat 8 buffer.length, 0, 0, BitVec.ofNat 8 (buffer.length / 256)], 0)
  else
    match memRead buffer 0 buffer.length with
    | none => none
    | some src =>
      match memWrite [0, 0, 0, 0] 0 src with
      | some [p0, p1, p2, p3] =>
        some (frame h #v[initByte true true (4 - buffer.length) 1, lo key.index, hi key.index, key.sub, p0, p1, p2, p3],
          buffer.length)
      | _ => none

/-- number of bytes in a segment and the `done` flag (canopen_master/src/sdo.cpp:91-94) -/
def segSplit (size : Nat) : Nat × Bool := if size > 7 then (7, false) else (size, true)

/-- canopen_master/src/sdo.cpp:127-137 `DownloadSegmentRequest(h, toggle, buffer, offset)` with
`SegmentLong::apply_buffer` (90-97); returns the frame and the new `offset`. -/
def downloadSegment (h : Header) (tg : Bool) (buffer : List Byte) (offset : Nat) : Option (Frame × Nat) :=
  let size := (segSplit (buffer.length - offset)).1
  let dn := (segSplit (buffer.length - offset)).2
  match memRead buffer offset size with
  | none => none
  | some src =>
    match memWrite [0, 0, 0, 0, 0, 0, 0] 0 src with
    | some [p0, p1, p2, p3, p4, p5, p6] => some (frame h #v[segByte dn (7 - size) tg 0, p0, p1, p2, p3, p4, p5, p6], offset + size)
    | _ => none

/-- canopen_master/src/sdo.cpp:156-164 `UploadInitiateRequest(h, entry)` -/
def uploadInit (h : Header) (key : Obj) : Frame :=
  frame h #v[initByte false false 0 2, lo key.index, hi key.index, key.sub, 0, 0, 0, 0]

/-- canopen_master/src/sdo.cpp:196-203 `UploadSegmentRequest(h, toggle)` -/
def uploadSegment (h : Header) (tg : Bool) : Frame := frame h #v[segByte false 0 tg 3, 0, 0, 0, 0, 0, 0, 0]

/-- canopen_master/src/sdo.cpp:279-288 `AbortTranserRequest(h, index, sub_index, reason)` -/
def abortRequest (h : Header) (idx : BitVec 16) (sub : Byte) (rs : BitVec 32) : Frame :=
  frame h #v[initByte false false 0 4, lo idx, hi idx, sub,
    rs.setWidth 8, (rs >>> 8).setWidth 8, (rs >>> 16).setWidth 8, (rs >>> 24).setWidth 8]

/-! ## the client -/

/-- canopen_master/include/canopen_master/canopen.h:32-51 `SDOClient`.  `sent` records the calls of `interface_->send`; the reader is a
parameter of the transfer (see the head of this file). -/
structure Client where
  clientId : Header
  buffer : List Byte
  offset : Nat
  total : Nat
  done : Bool
  lastMsg : Frame
  current : Option Obj
  sent : List Frame
  deriving DecidableEq, Repr

/-- `interface_->send(last_msg = …)` (canopen_master/src/sdo.cpp:294,308,320,335,348,408,410); whether the interface
accepted the frame is not looked at by the code -/
def Client.post (c : Client) (f : Frame) : Client := { c with lastMsg := f, sent := c.sent ++ [f] }

/-- canopen_master/src/sdo.cpp:292-296 `SDOClient::abort` -/
def Client.abort (c : Client) (rs : BitVec 32) : Client :=
  match c.current with
  | none => c
  | some k => c.post (abortRequest c.clientId k.index k.sub rs)

/-- canopen_master/src/sdo.cpp:117-124 `DownloadInitiateResponse::test`: `none` accepted, `some reason` refused -/
def testDownloadInit (d last : Bytes8) : Option (BitVec 32) :=
  if command last == 1 && index d == index last && subIndex d == subIndex last then none else some 0x08000000#32

/-- canopen_master/src/sdo.cpp:143-153 `DownloadSegmentResponse::test` -/
def testDownloadSegment (d last : Bytes8) : Option (BitVec 32) :=
  if command last != 0 then some 0x08000000#32
  else if toggle d != toggle last then some 0x05030000#32
  else none

/-- canopen_master/src/sdo.cpp:169-182 `UploadInitiateResponse::test` -/
def testUploadInit (d last : Bytes8) (size : Nat) : Option (BitVec 32) :=
  if command last == 2 && index d == index last && subIndex d == subIndex last then
    if initSize d == 0 || size == 0 || decide (initSize d ≥ size) then
      if !expedited d || (decide (initSize d ≤ 4) && decide (size ≤ 4)) then none else some 0x08000000#32
    else some 0x06070010#32
  else some 0x08000000#32

/-- canopen_master/src/sdo.cpp:209-219 `UploadSegmentResponse::test` -/
def testUploadSegment (d last : Bytes8) : Option (BitVec 32) :=
  if command last != 3 then some 0x08000000#32
  else if toggle d != toggle last then some 0x05030000#32
  else none

/-- canopen_master/src/sdo.cpp:184-187: a size indication is taken over when no size was requested -/
def Client.takeSize (c : Client) (d : Bytes8) : Client :=
  if sizeIndicated d && c.total == 0 then { c with total := initSize d, buffer := resize c.buffer (initSize d) } else c

/-- canopen_master/src/sdo.cpp:183-194 `UploadInitiateResponse::read_data`.  `&buffer.front()` of an empty buffer with a zero length
`memcpy` is taken to be harmless. -/
def Client.readInit (c : Client) (d : Bytes8) : Outcome Empty (Client × Bool) :=
  let c := c.takeSize d
  if expedited d then
    match memRead (payload4 d) 0 c.buffer.length with
    | none => .ub
    | some src =>
      match memWrite c.buffer 0 src with
      | none => .ub
      | some b => .ok ({ c with buffer := b, offset := b.length }, true)
  else .ok (c, false)

/-- canopen_master/src/sdo.cpp:222-224: without known size the buffer grows -/
def Client.grow (c : Client) (n : Nat) : Client :=
  if c.total == 0 then { c with buffer := resize c.buffer (c.offset + n) } else c

/-- canopen_master/src/sdo.cpp:220-231 `UploadSegmentResponse::read_data` -/
def Client.readSegment (c : Client) (d : Bytes8) : Outcome Empty (Client × Bool) :=
  let n := segSize d
  let c := c.grow n
  if c.offset + n ≤ c.buffer.length then
    match memRead (payload7 d) 0 n with
    | none => .ub
    | some src =>
      match memWrite c.buffer c.offset src with
      | none => .ub
      | some b => .ok ({ c with buffer := b, offset := c.offset + n }, true)
  else .ok (c, false)

/-- canopen_master/src/sdo.cpp:364-368: a protocol violation -/
def Client.refuse (c : Client) (rs : BitVec 32) : Client × Bool := ({ (c.abort rs) with offset := 0 }, false)

/-- the common part of canopen_master/src/sdo.cpp:307-311 and 319-323 -/
def Client.nextDownload (c : Client) (tg : Bool) : Outcome Empty (Client × Bool) :=
  if c.offset < c.total then
    match downloadSegment c.clientId tg c.buffer c.offset with
    | none => .ub
    | some (f, off) => .ok ({ c with offset := off }.post f, true)
  else .ok ({ c with done := true }, true)

/-- canopen_master/src/sdo.cpp:332-336: after `read_data` of an initiate answer -/
def afterInit : Outcome Empty (Client × Bool) → Outcome Empty (Client × Bool)
  | .ok (c, true) => .ok ({ c with done := true }, true)
  | .ok (c, false) => .ok (c.post (uploadSegment c.clientId false), true)
  | .throws e => nomatch e
  | .ub => .ub

/-- canopen_master/src/sdo.cpp:344-354,364-368: after `read_data` of a segment -/
def afterSegment (last tg : Bool) : Outcome Empty (Client × Bool) → Outcome Empty (Client × Bool)
  | .ok (c, true) =>
    if last || c.offset == c.total then .ok ({ c with done := true }, true)
    else .ok (c.post (uploadSegment c.clientId (!tg)), true)
  | .ok (c, false) => .ok (c.refuse 0x06070010#32)
  | .throws e => nomatch e
  | .ub => .ub

/-- canopen_master/src/sdo.cpp:298-371 `SDOClient::processFrame`: new state and return value -/
def Client.processFrame (c : Client) (msg : Frame) : Outcome Empty (Client × Bool) :=
  if msg.dlc != 8 then .ok (c, false)
  else if command msg.data = 3 then
    match testDownloadInit msg.data c.lastMsg.data with
    | some rs => .ok (c.refuse rs)
    | none => c.nextDownload false
  else if command msg.data = 1 then
    match testDownloadSegment msg.data c.lastMsg.data with
    | some rs => .ok (c.refuse rs)
    | none => c.nextDownload (!toggle msg.data)
  else if command msg.data = 2 then
    match testUploadInit msg.data c.lastMsg.data c.total with
    | some rs => .ok (c.refuse rs)
    | none => afterInit (c.readInit msg.data)
  else if command msg.data = 0 then
    match testUploadSegment msg.data c.lastMsg.data with
    | some rs => .ok (c.refuse rs)
    | none => afterSegment (segDone msg.data) (toggle msg.data) (c.readSegment msg.data)
  else if command msg.data = 4 then .ok ({ c with offset := 0 }, false)
  else .ok (c, true)

/-- canopen_master/src/sdo.cpp:399-411: the beginning of a transfer -/
def Client.begin (c : Client) (key : Obj) (data : List Byte) (upload : Bool) : Outcome Empty Client :=
  let c := { c with buffer := data, offset := 0, total := data.length, current := some key, done := false }
  if upload then .ok (c.post (uploadInit c.clientId key))
  else
    match downloadInit c.clientId key data with
    | none => .ub
    | some (f, off) => .ok ({ c with offset := off }.post f)

/-- the loop canopen_master/src/sdo.cpp:416-427, fed with the frames returned by `reader_.read` and silence afterwards -/
def Client.loop (c : Client) : List Frame → Outcome Empty Client
  | [] => .ok (if c.done then c else c.abort 0x05040000#32)
  | f :: fs =>
    if c.done then .ok c
    else
      match c.processFrame f with
      | .ok (c, true) => c.loop fs
      | .ok (c, false) => .ok c
      | .throws e => nomatch e
      | .ub => .ub

/-- canopen_master/src/sdo.cpp:428-432: the outcome of a transfer; a value is the contents of `buffer` -/
def Client.finish (c : Client) : Client × Outcome Exc (List Byte) :=
  if c.offset == 0 || c.offset != c.total then (c, .throws .timeout) else (c, .ok c.buffer)

/-- canopen_master/src/sdo.cpp:398-434 `SDOClient::transmitAndWait` -/
def Client.transmit (c : Client) (key : Obj) (data : List Byte) (upload : Bool) (frames : List Frame) :
    Client × Outcome Exc (List Byte) :=
  match c.begin key data upload with
  | .ok c1 =>
    match c1.loop frames with
    | .ok c2 => c2.finish
    | .throws e => nomatch e
    | .ub => (c1, .ub)
  | .throws e => nomatch e
  | .ub => (c, .ub)

/-- canopen_master/src/sdo.cpp:436-443 `SDOClient::read`: client, result of the call and the caller's variable afterwards.
`locked`: the mutex was obtained within two seconds. -/
def Client.read (c : Client) (locked : Bool) (key : Obj) (data : List Byte) (frames : List Frame) :
    Client × Outcome Exc Unit × List Byte :=
  if locked then
    match c.transmit key data true frames with
    | (c, .ok v) => (c, .ok (), v)
    | (c, .throws e) => (c, .throws e, data)
    | (c, .ub) => (c, .ub, data)
  else (c, .throws .timeout, data)

/-- canopen_master/src/sdo.cpp:444-451 `SDOClient::write` -/
def Client.write (c : Client) (locked : Bool) (key : Obj) (data : List Byte) (frames : List Frame) : Client × Outcome Exc Unit :=
  if locked then
    match c.transmit key data false frames with
    | (c, .ok _) => (c, .ok ())
    | (c, .throws e) => (c, .throws e)
    | (c, .ub) => (c, .ub)
  else (c, .throws .timeout)

end Verif.Sdo
