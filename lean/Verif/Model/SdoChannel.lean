import Verif.Model.Sdo
import Verif.Model.Reader
import Verif.Model.Eds

/-!
# The SDO channel of a node: identifiers, reader and one transfer after the other
canopen_master/src/sdo.cpp, canopen_master/include/canopen_master/canopen.h, socketcan_interface/include/socketcan_interface/reader.h

`Verif.Sdo` describes one transfer that is fed with frames.  Here frames arrive at any time, pass the listener and the buffered reader of length
one, and calls of `read`, `write` and `init` follow each other.  Steps of different threads are interleaved freely.  The mutex of the client is held
by the running call.  `init` does not take it; it is one step here, although it consists of several assignments.
-/

namespace Verif.Chan
open Verif Verif.Sdo Verif.OD

/-- canopen_master/src/sdo.cpp:18-30 `SDOid(val).header()`: bits 0-28 identifier, bit 29 extended; bits 30 and 31 (dynamic, invalid) are not used -/
def sdoHeader (v : BitVec 32) : Header := Header.mk' (v &&& 0x1FFFFFFF#32) (v.getLsbD 29) false false

/-- canopen_master/src/sdo.cpp:378-383, 389-394: the identifier is taken from a sub-object of 1200 or, if that throws anything, the default -/
def channelId (dict : Dict) (node : BitVec 8) (s : BitVec 8) (base : BitVec 32) : Header :=
  match dict.get (Key.ofSub 0x1200#16 s) with
  | none => Header.msg (base + node.setWidth 32)
  | some e =>
    match applyOffset .u32 e.value node with
    | .ok v => sdoHeader v
    | _ => Header.msg (base + node.setWidth 32)

/-- arguments of a running call (canopen_master/src/sdo.cpp:398) and the former state of the reader (405) -/
structure Call where
  key : Obj
  data : List Byte
  upload : Bool
  before : Bool
  deriving DecidableEq, Repr

/-- canopen_master/include/canopen_master/canopen.h:32-69 `SDOClient`: `listens` is the key of the header the reader listens for, `running` the call that
holds the mutex and whether it left its loop -/
structure State where
  client : Client
  reader : Rd.Reader Frame
  listens : Option (BitVec 32)
  running : Option (Call × Bool)
  deriving DecidableEq, Repr

/-- canopen_master/include/canopen_master/canopen.h:60-68 the constructor: the identifier is the one of `Header()`, zero; `junk` is the
uninitialised rest -/
def State.fresh (junk : Client) : State :=
  { client := { junk with clientId := Header.default', sent := [] }, reader := Rd.Reader.new false 1, listens := none, running := none }

/-- what a call returned (canopen_master/src/sdo.cpp:436-451); a write has no value -/
structure Result where
  key : Obj
  upload : Bool
  out : Outcome Exc (List Byte)
  deriving DecidableEq, Repr

/-- what happens (canopen_master/src/sdo.cpp:373-451, socketcan_interface/include/socketcan_interface/reader.h:29-38) -/
inductive Ev where
  /-- `init` with the dictionary of the node -/
  | init (dict : Dict) (node : BitVec 8)
  /-- the interface hands a frame to the listeners -/
  | arrive (f : Frame)
  /-- a call gets the mutex and sends its request -/
  | call (key : Obj) (data : List Byte) (upload : Bool)
  /-- a call does not get the mutex within two seconds -/
  | busy (key : Obj) (upload : Bool)
  /-- the running call reads a frame -/
  | take
  /-- no frame came for a second -/
  | expire
  /-- the running call returns -/
  | leave

/-- canopen_master/src/sdo.cpp:373-396 `init` -/
def State.init (s : State) (dict : Dict) (node : BitVec 8) : State :=
  let cid := channelId dict node 1 0x600#32
  { s with client := { s.client with clientId := cid, lastMsg := abortRequest cid 0 0 0, current := none },
           reader := s.reader.listen, listens := some (channelId dict node 2 0x580#32).key }

/-- the listener for the header (canopen_master/src/sdo.cpp:395, socketcan_interface/include/socketcan_interface/dispatcher.h:104-109,
socketcan_interface/include/socketcan_interface/reader.h:29-38) -/
def State.arrive (s : State) (f : Frame) : State :=
  if s.listens = some f.key then { s with reader := s.reader.handleFrame f } else s

/-- canopen_master/src/sdo.cpp:399-411 with the mutex (437, 445): nothing happens as long as another call holds it -/
def State.call (s : State) (key : Obj) (data : List Byte) (upload : Bool) : State :=
  match s.running with
  | some _ => s
  | none =>
    match s.client.begin key data upload with
    | .ok c => { s with client := c, reader := (s.reader.setEnabled true).1, running := some (⟨key, data, upload, s.reader.enabled⟩, false) }
    | _ => s

/-- canopen_master/src/sdo.cpp:416-427: a frame is read and processed; the loop goes on unless the transfer is done or the frame was refused -/
def State.take (s : State) : State :=
  match s.running, s.reader.readUntil true with
  | some (k, false), (r, true, some f) =>
    match s.client.processFrame f with
    | .ok (c, go) => { s with client := c, reader := r, running := some (k, c.done || !go) }
    | _ => s
  | _, _ => s

/-- canopen_master/src/sdo.cpp:417-422: the time is up and the buffer is empty -/
def State.expire (s : State) : State :=
  match s.running, s.reader.buffer with
  | some (k, false), [] => { s with client := s.client.abort 0x05040000#32, running := some (k, true) }
  | _, _ => s

/-- canopen_master/src/sdo.cpp:428-434, 440, 448 and the destructor of the enabler (socketcan_interface/include/socketcan_interface/reader.h:45).  The
exception is made from `*current_entry` (429), a null pointer after `init`. -/
def State.leave (s : State) : State × List Result :=
  match s.running with
  | some (k, true) =>
    ({ s with reader := (s.reader.setEnabled k.before).1, running := none },
     [⟨k.key, k.upload,
       match s.client.finish.2 with
       | .ok v => .ok (if k.upload then v else [])
       | .throws e => if s.client.current.isNone then .ub else .throws e
       | .ub => .ub⟩])
  | _ => (s, [])

/-- one step (canopen_master/src/sdo.cpp:373-451); a call that does not get the mutex throws (441, 449) -/
def State.step (s : State) : Ev → State × List Result
  | .init dict node => (s.init dict node, [])
  | .arrive f => (s.arrive f, [])
  | .call k d u => (s.call k d u, [])
  | .busy k u => (s, [⟨k, u, .throws .timeout⟩])
  | .take => (s.take, [])
  | .expire => (s.expire, [])
  | .leave => s.leave

/-- a history (canopen_master/src/sdo.cpp:373-451) -/
def State.run (s : State) : List Ev → State × List Result
  | [] => (s, [])
  | e :: es =>
    let r := s.step e
    let t := r.1.run es
    (t.1, r.2 ++ t.2)

end Verif.Chan
