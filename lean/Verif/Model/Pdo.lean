import Verif.Model.Frame
import Verif.Model.Layer

/-!
# PDO buffers, transmission and reception
canopen_master/include/canopen_master/canopen.h:71-147, canopen_master/src/pdo.cpp:8-34, 255-383

The two `memcpy`s of a buffer are modelled with their bounds; a violation is `Outcome.ub`.  `assert`s are taken as compiled out
(`NDEBUG`).
-/

namespace Verif.Pdo
open Verif

/-- canopen_master/src/pdo.cpp:8-23 `PDOid` -/
structure PdoId where
  value : BitVec 32

/-- canopen_master/src/pdo.cpp:11,19-21 `header(fill_rtr)` -/
def PdoId.header (p : PdoId) (fillRtr : Bool) : Header :=
  { id := (p.value &&& 0x1FFFFFFF#32).setWidth 29
    isExtended := p.value &&& 0x20000000#32 != 0#32
    isRtr := fillRtr && !(p.value &&& 0x40000000#32 != 0#32)
    isError := false }

/-- canopen_master/src/pdo.cpp:22 `isInvalid` -/
def PdoId.isInvalid (p : PdoId) : Bool := p.value &&& 0x80000000#32 != 0#32

/-- canopen_master/src/pdo.cpp:25-34 `PDOmap` -/
structure PdoMap where
  length : BitVec 8
  subIndex : BitVec 8
  index : BitVec 16
  deriving DecidableEq

/-- canopen_master/src/pdo.cpp:29-33 `PDOmap(val)` -/
def PdoMap.ofWord (val : BitVec 32) : PdoMap :=
  { length := (val &&& 0xFF#32).setWidth 8, subIndex := ((val >>> 8) &&& 0xFF#32).setWidth 8, index := (val >>> 16).setWidth 16 }

/-- canopen_master/include/canopen_master/canopen.h:74-89 `PDOMapper::Buffer` -/
structure Buffer where
  size : Nat
  dirty : Bool
  empty : Bool
  buffer : List Byte
  deriving DecidableEq, Repr

/-- what the buffer functions throw (canopen_master/src/pdo.cpp:343, 355, 365, 368, 378) -/
inductive BErr where
  | badCast
  | timeout
  deriving DecidableEq, Repr

/-- canopen_master/include/canopen_master/canopen.h:82 -/
def Buffer.new (sz : Nat) : Buffer := { size := sz, dirty := false, empty := true, buffer := List.replicate sz 0#8 }

/-- canopen_master/include/canopen_master/canopen.h:80 `clean` -/
def Buffer.clean (b : Buffer) : Buffer := { b with dirty := false }

/-- canopen_master/src/pdo.cpp:340-351 `Buffer::read(b, len)`: new state, the bytes copied to the destination if any, result -/
def Buffer.readRaw (b : Buffer) (len : Nat) : Outcome BErr (Buffer × Option (List Byte) × Bool) :=
  if b.size > len then .throws .badCast
  else if b.empty then .ok (b, none, false)
  else if b.buffer.length < b.size then .ub
  else .ok ({ b with dirty := false }, some (b.buffer.take b.size), b.dirty)

/-- canopen_master/src/pdo.cpp:352-360 `Buffer::write(b, len)`; `src` is the memory readable at `b` -/
def Buffer.writeRaw (b : Buffer) (src : List Byte) (len : Nat) : Outcome BErr Buffer :=
  if b.size > len then .throws .badCast
  else if src.length < b.size ∨ b.buffer.length < b.size then .ub
  else .ok { b with empty := false, dirty := true, buffer := src.take b.size ++ b.buffer.drop b.size }

/-- canopen_master/src/pdo.cpp:361-374 `Buffer::read(entry, data)`: new state and new contents of `data` -/
def Buffer.readEntry (b : Buffer) (data : List Byte) : Outcome BErr (Buffer × List Byte) :=
  if b.size ≠ data.length then .throws .badCast
  else if b.empty then .throws .timeout
  else if b.dirty then .ok ({ b with dirty := false }, b.buffer)
  else .ok (b, data)

/-- canopen_master/src/pdo.cpp:375-383 `Buffer::write(entry, data)` -/
def Buffer.writeEntry (b : Buffer) (data : List Byte) : Outcome BErr Buffer :=
  if b.size ≠ data.length then .throws .badCast
  else .ok { b with empty := false, dirty := true, buffer := data }

/-- A mapped object: its size, and its value when the mapping was set up, if one was known.  `ObjectStorage::map` writes that value to the
buffer (canopen_master/src/objdict.cpp:355-361), then `clean()` is called (canopen_master/src/pdo.cpp:144).  Entries below 0x1000 and objects
without a known value have none. -/
structure Obj where
  size : Nat
  init : Option (List Byte)

/-- canopen_master/src/pdo.cpp:124-145: the buffer of a mapped object -/
def Obj.buffer (o : Obj) : Buffer :=
  { size := o.size, dirty := false, empty := o.init.isNone, buffer := o.init.getD (List.replicate o.size 0#8) }

/-- the `memcpy` into the frame (canopen_master/src/pdo.cpp:347 with 260, 264) -/
def patch (d : Vector Byte 8) (off : Nat) (bytes : List Byte) : Option (Vector Byte 8) :=
  if off + bytes.length ≤ 8 then some (Vector.ofFn fun i : Fin 8 => if off ≤ i.val ∧ i.val < off + bytes.length then bytes.getD (i.val - off) 0 else d[i])
  else none

/-- canopen_master/include/canopen_master/canopen.h:92-98,100-114 `TPDO` -/
structure Tpdo where
  frame : Frame
  bufs : List Buffer

/-- the local variables of `TPDO::sync` (canopen_master/src/pdo.cpp:258-261); `dest` is an offset into the frame's data -/
structure Cycle where
  pos : Nat
  dest : Nat
  len : Nat
  updated : Bool

/-- canopen_master/src/pdo.cpp:258-261: the variables at the start -/
def Tpdo.start (t : Tpdo) : Cycle := { pos := 0, dest := 0, len := t.frame.dlc.toNat, updated := false }

/-- canopen_master/src/pdo.cpp:261-270: the loop body for one buffer.  `Buffer::read` holds the buffer's own lock (341), so that writes from
other threads fall between two of these steps. -/
def Tpdo.pick (t : Tpdo) (cy : Cycle) : Outcome BErr (Tpdo × Cycle) :=
  match t.bufs[cy.pos]? with
  | none => .ok (t, cy)
  | some b =>
    if b.size ≤ cy.len then
      match b.readRaw cy.len with
      | .throws e => .throws e
      | .ub => .ub
      | .ok (b', bytes, upd) =>
        match patch t.frame.data cy.dest (bytes.getD []) with
        | none => .ub
        | some d =>
          .ok ({ frame := { t.frame with data := d }, bufs := t.bufs.set cy.pos b' },
            { pos := cy.pos + 1, dest := cy.dest + b.size, len := cy.len - b.size, updated := upd || cy.updated })
    else .ok (t, { cy with pos := cy.pos + 1 })

/-- canopen_master/src/pdo.cpp:375-383 through the write delegate set at 136-137: a write to the `i`-th mapped object -/
def Tpdo.write (t : Tpdo) (i : Nat) (data : List Byte) : Outcome BErr Tpdo :=
  match t.bufs[i]? with
  | none => .ok t
  | some b =>
    match b.writeEntry data with
    | .ok b' => .ok { t with bufs := t.bufs.set i b' }
    | .throws e => .throws e
    | .ub => .ub

/-- what threads do with a TPDO: write an object, or one step of the cycle in progress (a new one after the last buffer).  `TPDO::sync` holds
the TPDO's lock (canopen_master/src/pdo.cpp:256), so cycles follow each other. -/
inductive TOp where
  | write (i : Nat) (data : List Byte)
  | pick
  deriving DecidableEq

/-- a TPDO together with the cycle in progress (canopen_master/src/pdo.cpp:255-280) -/
structure TSched where
  t : Tpdo
  cy : Cycle

/-- canopen_master/src/pdo.cpp:233-253: a TPDO with a mapping; `f` is its frame with the total size as length (142) -/
def TSched.fresh (f : Frame) (objs : List Obj) : TSched :=
  let t : Tpdo := { frame := f, bufs := objs.map Obj.buffer }
  { t := t, cy := t.start }

/-- canopen_master/src/pdo.cpp:255-280: one step of a schedule; a finished cycle sends the frame if something was updated (275-277).  A write
that throws changes nothing (the exception goes to the writer). -/
def TSched.step (s : TSched) : TOp → Outcome BErr (TSched × Option Frame)
  | .write i data =>
    match s.t.write i data with
    | .ok t => .ok ({ s with t := t }, none)
    | .throws _ => .ok (s, none)
    | .ub => .ub
  | .pick =>
    match s.t.pick s.cy with
    | .throws e => .throws e
    | .ub => .ub
    | .ok (t, cy) =>
      if cy.pos < t.bufs.length then .ok (⟨t, cy⟩, none)
      else .ok (⟨t, t.start⟩, if cy.updated then some t.frame else none)

/-- a schedule, with the result of each step (canopen_master/src/pdo.cpp:255-280, 375-383) -/
def TSched.run (s : TSched) : List TOp → Outcome BErr (TSched × List (Option Frame))
  | [] => .ok (s, [])
  | o :: os =>
    match s.step o with
    | .ok (s', out) =>
      match s'.run os with
      | .ok (s'', outs) => .ok (s'', out :: outs)
      | .throws e => .throws e
      | .ub => .ub
    | .throws e => .throws e
    | .ub => .ub

/-- canopen_master/include/canopen_master/canopen.h:92-98,116-134 `RPDO` -/
structure Rpdo where
  frame : Frame
  transmissionType : Byte
  bufs : List Buffer
  timeout : Int

/-- canopen_master/src/pdo.cpp:212-231, canopen.h:127: an RPDO with a mapping -/
def Rpdo.fresh (f : Frame) (type : Byte) (objs : List Obj) : Rpdo :=
  { frame := f, transmissionType := type, bufs := objs.map Obj.buffer, timeout := -1 }

/-- canopen_master/src/pdo.cpp:299-310: storing the payload, from offset `off` on -/
def deliver (msg : Frame) : List Buffer → Nat → Outcome BErr (List Buffer)
  | [], _ => .ok []
  | b :: bs, off =>
    if off + b.size ≤ msg.dlc.toNat then
      match b.writeRaw (msg.data.toList.drop off) b.size with
      | .ok b' =>
        match deliver msg bs (off + b.size) with
        | .ok bs' => .ok (b' :: bs')
        | .throws e => .throws e
        | .ub => .ub
      | .throws e => .throws e
      | .ub => .ub
    else
      match deliver msg bs off with
      | .ok bs' => .ok (b :: bs')
      | .throws e => .throws e
      | .ub => .ub

/-- canopen_master/src/pdo.cpp:314-323: the new timeout -/
def Rpdo.rearm (r : Rpdo) : Int :=
  if 1 ≤ r.transmissionType.toNat ∧ r.transmissionType.toNat ≤ 240 then r.transmissionType.toNat + 2
  else if (r.transmissionType = 0xFC#8 ∨ r.transmissionType = 0xFD#8) ∧ r.frame.isRtr = true then 1 + 2
  else r.timeout

/-- canopen_master/src/pdo.cpp:298-324 `RPDO::handleFrame` -/
def Rpdo.handleFrame (r : Rpdo) (msg : Frame) : Outcome BErr Rpdo :=
  match deliver msg r.bufs 0 with
  | .ok bs => .ok { r with bufs := bs, timeout := r.rearm }
  | .throws e => .throws e
  | .ub => .ub

/-- canopen_master/src/pdo.cpp:284: supervised transmission types -/
def Rpdo.cyclic (r : Rpdo) : Bool :=
  (decide (1 ≤ r.transmissionType.toNat) && decide (r.transmissionType.toNat ≤ 240)) || r.transmissionType == 0xFC#8

/-- canopen_master/src/pdo.cpp:282-296 `RPDO::sync`: new state, whether a warning is reported, frame sent -/
def Rpdo.sync (r : Rpdo) : Rpdo × Bool × Option Frame :=
  let r' := if r.cyclic && decide (r.timeout > 0) then { r with timeout := r.timeout - 1 } else r
  (r', r.cyclic && r.timeout == 0,
    if (r.transmissionType == 0xFC#8 || r.transmissionType == 0xFD#8) && r.frame.isRtr then some r.frame else none)

/-- canopen_master/src/pdo.cpp:361-374 through the read delegate set at 131-133: a read of the `i`-th mapped object whose value the caller
holds in `data` -/
def Rpdo.read (r : Rpdo) (i : Nat) (data : List Byte) : Outcome BErr (Rpdo × List Byte) :=
  match r.bufs[i]? with
  | none => .throws .badCast
  | some b =>
    match b.readEntry data with
    | .ok (b', d) => .ok ({ r with bufs := r.bufs.set i b' }, d)
    | .throws e => .throws e
    | .ub => .ub

/-- what happens to an RPDO's objects: a frame arrives, or object `i` is read by a caller holding the value `data`.  Buffers have their own
locks (canopen_master/src/pdo.cpp:353, 362). -/
inductive ROp where
  | frame (f : Frame)
  | read (i : Nat) (data : List Byte)

/-- canopen_master/src/pdo.cpp:298-324, 361-374: one step, with the result of a read -/
def Rpdo.step (r : Rpdo) : ROp → Outcome BErr (Rpdo × Option (Outcome BErr (List Byte)))
  | .frame f =>
    match r.handleFrame f with
    | .ok r' => .ok (r', none)
    | .throws e => .throws e
    | .ub => .ub
  | .read i data =>
    match r.read i data with
    | .ok (r', d) => .ok (r', some (.ok d))
    | .throws e => .ok (r, some (.throws e))
    | .ub => .ub

/-- a schedule of such steps (canopen_master/src/pdo.cpp:298-324, 361-374) -/
def Rpdo.run (r : Rpdo) : List ROp → Outcome BErr (Rpdo × List (Option (Outcome BErr (List Byte))))
  | [] => .ok (r, [])
  | o :: os =>
    match r.step o with
    | .ok (r', out) =>
      match r'.run os with
      | .ok (r'', outs) => .ok (r'', out :: outs)
      | .throws e => .throws e
      | .ub => .ub
    | .throws e => .throws e
    | .ub => .ub

/-- for supervision: a frame arrives, or the cycle's `sync` runs (canopen_master/src/pdo.cpp:282-324) -/
inductive SEv where
  | frame (f : Frame)
  | cycle

/-- canopen_master/src/pdo.cpp:282-324: one event; whether a warning was reported and what was sent -/
def Rpdo.event (r : Rpdo) : SEv → Outcome BErr (Rpdo × Bool × Option Frame)
  | .frame f =>
    match r.handleFrame f with
    | .ok r' => .ok (r', false, none)
    | .throws e => .throws e
    | .ub => .ub
  | .cycle => .ok r.sync

/-- a history of events (canopen_master/src/pdo.cpp:282-324) -/
def Rpdo.events (r : Rpdo) : List SEv → Outcome BErr (Rpdo × List (Bool × Option Frame))
  | [] => .ok (r, [])
  | e :: es =>
    match r.event e with
    | .ok (r', out) =>
      match r'.events es with
      | .ok (r'', outs) => .ok (r'', out :: outs)
      | .throws e => .throws e
      | .ub => .ub
    | .throws e => .throws e
    | .ub => .ub

end Verif.Pdo
