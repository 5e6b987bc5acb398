import Verif.Model.Frame
import Verif.Model.Layer

/-!
# Emergency handler, SYNC producers
canopen_master/src/emcy.cpp, canopen_master/src/master_plugin.cpp, canopen_master/include/canopen_master/bcm_sync.h,
socketcan_interface/include/socketcan_interface/bcm.h
-/

namespace Verif.Emcy
open Verif Verif.Lay

/-- canopen_master/src/emcy.cpp:9-21: header of the emergency frames for a COB-ID entry (object 0x1014); the `invalid` bit 31 is not looked at -/
def header (cob : BitVec 32) : Header :=
  { id := cob.extractLsb' 0 29, isExtended := cob.getLsbD 29, isRtr := false, isError := false }

/-- canopen_master/include/canopen_master/canopen.h:148-168: `has_error_`, and the dictionary's optional object 0x1003sub0 -/
structure Handler where
  hasError : Bool
  hasList : Bool

/-- canopen_master/src/emcy.cpp:53-70: the constructor (an error is assumed until the first initialisation) -/
def Handler.fresh (hasList : Bool) : Handler := { hasError := true, hasList := hasList }

/-- canopen_master/src/emcy.cpp:31-39, 43-51: `handleEMCY`; byte 2 of the frame is the error register -/
def Handler.handleEMCY (h : Handler) (f : Frame) : Handler :=
  { h with hasError := (f.data[2] &&& ~~~ (32 : Byte)) ≠ 0 }

/-- canopen_master/src/emcy.cpp:136-139 `resetErrors`; `clears` says whether clearing the error list on the device succeeds, otherwise an
exception leaves and the flag is not reset -/
def Handler.resetErrors (h : Handler) (clears : Bool) : Handler × Bool :=
  if h.hasList ∧ !clears then (h, false) else ({ h with hasError := false }, true)

/-- canopen_master/src/emcy.cpp:123-135, 141-143 `handleInit`, `handleRecover`.  `reg` is the error register read from the device (`none`: it
could not be read).  Second component: whether the call went without an error. -/
def Handler.handleInit (h : Handler) (reg : Option Byte) (clears : Bool) : Handler × Bool :=
  match reg with
  | none => (h, false)
  | some r => if r &&& 1 ≠ 0 then (h, false) else h.resetErrors clears

/-- canopen_master/src/emcy.cpp:72-78 `handleRead`: whether an error is reported -/
def Handler.handleRead (h : Handler) (st : LayerState) : Bool := decide (st = .ready) && h.hasError

/-- the severity of a diagnostics report (canopen_master/src/emcy.cpp:83-97) -/
inductive Severity where
  | ok | warn | error
  deriving DecidableEq, Repr

/-- canopen_master/src/emcy.cpp:83-97 `handleDiag`, the severity -/
def diag (reg : Option Byte) : Severity :=
  match reg with
  | none => .error
  | some r => if r = 0 then .ok else if r &&& 1 ≠ 0 then .error else if r &&& ~~~ (32 : Byte) ≠ 0 then .warn else .ok

/-- how reading one entry of the error list (object 0x1003) ends: canopen_master/src/emcy.cpp:105-117; other exceptions leave `handleDiag` and are
not modelled here -/
inductive ListRead where
  | value (v : BitVec 32)
  | notInDict
  | timeout
  deriving DecidableEq

/-- one element of the printed list: canopen_master/src/emcy.cpp:23-29, 109, 112, 115 (error code and additional information, printed in
hexadecimal) -/
inductive ListItem where
  | error (code info : BitVec 16)
  | notInDict
  | underflow
  deriving DecidableEq

/-- canopen_master/src/emcy.cpp:101-119: the list printed for `num` entries from sub-index `i + 1` on -/
def errorList (get : Nat → ListRead) : Nat → Nat → List ListItem
  | 0, _ => []
  | n + 1, i =>
    match get (i + 1) with
    | .value v => .error (v.extractLsb' 0 16) (v.extractLsb' 16 16) :: errorList get n (i + 1)
    | .notInDict => .notInDict :: errorList get n (i + 1)
    | .timeout => [.underflow]

/-- what happens to the handler: canopen_master/src/emcy.cpp:43, 123, 141 -/
inductive Ev where
  | frame (f : Frame)
  | init (reg : Option Byte) (clears : Bool)

/-- one event: canopen_master/src/emcy.cpp:43-51, 123-143 -/
def Handler.step (h : Handler) : Ev → Handler
  | .frame f => h.handleEMCY f
  | .init reg clears => (h.handleInit reg clears).1

/-- a history: canopen_master/src/emcy.cpp:43-51, 123-143 -/
def Handler.run (h : Handler) : List Ev → Handler
  | [] => h
  | e :: es => (h.step e).run es

end Verif.Emcy

namespace Verif.Sync
open Verif Verif.Lay

/-- canopen_master/include/canopen_master/canopen.h:170-177 -/
structure Props where
  header : Header
  period : BitVec 16
  overflow : Byte

/-- canopen_master/src/master_plugin.cpp:9-16, 44-47 `SimpleSyncLayer`: the nodes that take part (a set of pointers, here numbers) and the
frame -/
structure Simple where
  nodes : List Nat
  frame : Frame
  overflow : Byte

/-- canopen_master/src/master_plugin.cpp:84-92 the constructor; `none`: it throws.  `junk` is the uninitialised payload. -/
def Simple.create (p : Props) (junk : Vector Byte 8) : Option Simple :=
  let f : Frame := { p.header with data := junk, dlc := 0 }
  if p.overflow = 1 ∨ p.overflow.toNat > 240 then none
  else if p.overflow.toNat > 1 then some { nodes := [], frame := { f with dlc := 1, data := junk.set 0 1 }, overflow := p.overflow }
  else some { nodes := [], frame := f, overflow := p.overflow }

/-- canopen_master/src/master_plugin.cpp:31-35 -/
def Simple.addNode (s : Simple) (n : Nat) : Simple := { s with nodes := if n ∈ s.nodes then s.nodes else n :: s.nodes }
/-- canopen_master/src/master_plugin.cpp:36-40 -/
def Simple.removeNode (s : Simple) (n : Nat) : Simple := { s with nodes := s.nodes.filter (· ≠ n) }

/-- canopen_master/src/master_plugin.cpp:52-60 `tryUpdateCounter` -/
def Simple.update (s : Simple) : Simple :=
  if s.frame.dlc.toNat > 0 then
    if s.frame.data[0].toNat ≥ s.overflow.toNat then { s with frame := { s.frame with data := s.frame.data.set 0 1 } }
    else { s with frame := { s.frame with data := s.frame.data.set 0 (s.frame.data[0] + 1) } }
  else s

/-- canopen_master/src/master_plugin.cpp:68-77 `handleWrite` (the waiting until the write time is left out): new state, frames sent -/
def Simple.handleWrite (s : Simple) (st : LayerState) : Simple × List Frame :=
  if st.toNat > LayerState.init.toNat then
    let s := s.update
    (s, if s.nodes.length ≠ 0 then [s.frame] else [])
  else (s, [])

/-- what happens to the producer: canopen_master/src/master_plugin.cpp:31, 36, 68 -/
inductive Ev where
  | add (n : Nat)
  | remove (n : Nat)
  | write (st : LayerState)
  deriving DecidableEq

/-- one event: canopen_master/src/master_plugin.cpp:31-40, 68-77 -/
def Simple.step (s : Simple) : Ev → Simple × List Frame
  | .add n => (s.addNode n, [])
  | .remove n => (s.removeNode n, [])
  | .write st => s.handleWrite st

/-- a history and the frames sent: canopen_master/src/master_plugin.cpp:31-40, 68-77 -/
def Simple.run (s : Simple) : List Ev → Simple × List Frame
  | [] => (s, [])
  | e :: es =>
    let r := s.step e
    let q := r.1.run es
    (q.1, r.2 ++ q.2)

end Verif.Sync

namespace Verif.Bcm
open Verif

/-- a transmission job of the kernel's broadcast manager: what socketcan_interface/include/socketcan_interface/bcm.h:81-99 writes -/
structure Job where
  canId : BitVec 32
  sec : Nat
  usec : Nat
  frames : List (Byte × List Byte)
  deriving DecidableEq

/-- socketcan_interface/include/socketcan_interface/bcm.h:41-43 `setHeader`; `CAN_EFF_FLAG` is bit 31 -/
def canId (h : Header) : BitVec 32 := h.id.setWidth 32 ||| (if h.isExtended then 0x80000000#32 else 0)

/-- socketcan_interface/include/socketcan_interface/bcm.h:36-40, 81-99: the message of `startTX`; the period is in milliseconds -/
def txSetup (period : Nat) (h : Header) (frames : List Frame) : Job :=
  let usec := period * 1000
  { canId := canId h, sec := usec / 1000000, usec := usec % 1000000,
    frames := frames.map fun f => (f.dlc, f.data.toList.take f.dlc.toNat) }

/-- canopen_master/include/canopen_master/bcm_sync.h:21-37 `BCMsync`, with the kernel's part: whether the socket is open and which job it runs -/
structure State where
  ignored : List Nat
  monitored : List Nat
  known : List Nat
  started : List Nat
  running : Bool
  syncFrames : List Frame
  header : Header
  period : Nat
  open_ : Bool
  job : Option Job
  listening : Bool

/-- canopen_master/include/canopen_master/bcm_sync.h:143-164: constructor, `setMonitored` and `setIgnored`; `junk` is uninitialised payload -/
def State.create (p : Sync.Props) (junk : Vector Byte 8) (monitored ignored : List Nat) : State :=
  { ignored := ignored, monitored := monitored, known := [], started := [], running := false,
    syncFrames := if p.overflow = 0 then [{ p.header with data := junk, dlc := 0 }]
      else (List.range p.overflow.toNat).map fun i => { p.header with data := junk.set 0 (BitVec.ofNat 8 (i + 1)), dlc := 1 },
    header := p.header, period := p.period.toNat, open_ := false, job := none, listening := false }

/-- `std::set::insert`, used in canopen_master/include/canopen_master/bcm_sync.h:42, 56, 57 -/
def insert (n : Nat) (l : List Nat) : List Nat := if n ∈ l then l else n :: l

/-- canopen_master/include/canopen_master/bcm_sync.h:39-44 `skipNode` -/
def State.skipNode (s : State) (id : Nat) : Bool := id ∈ s.ignored || (!s.monitored.isEmpty && !(id ∈ s.monitored))

/-- socketcan_interface/include/socketcan_interface/bcm.h:100-105 `stopTX`: the kernel refuses (EINVAL) if there is no such job -/
def State.stopTX (s : State) : State × Bool :=
  if s.open_ ∧ s.job.isSome then ({ s with job := none }, true) else (s, false)

/-- socketcan_interface/include/socketcan_interface/bcm.h:81-99 `startTX`; `ok` is the kernel's answer -/
def State.startTX (s : State) (ok : Bool) : State × Bool :=
  if s.open_ ∧ ok then ({ s with job := some (txSetup s.period s.header s.syncFrames) }, true) else (s, false)

/-- canopen_master/include/canopen_master/bcm_sync.h:70-75: the end of `handleFrame` -/
def State.toggle (s : State) (ok : Bool) : State :=
  if s.started.isEmpty ∧ s.running then
    let r := s.stopTX
    { r.1 with running := !r.2 }
  else if !s.started.isEmpty ∧ !s.running then
    let r := s.startTX ok
    { r.1 with running := r.2 }
  else s

/-- canopen_master/include/canopen_master/bcm_sync.h:46-76 `handleFrame` -/
def State.handleFrame (s : State) (f : Frame) (ok : Bool) : State :=
  if f.id = 0 then
    if f.dlc.toNat > 1 then
      let id := f.data[1].toNat
      if s.skipNode id then s
      else
        let s := { s with known := insert id s.known }
        if f.data[0] = 1 then
          if id ≠ 0 then State.toggle { s with started := insert id s.started } ok
          else State.toggle { s with started := s.known.foldr insert s.started } ok
        else
          if id ≠ 0 then State.toggle { s with started := s.started.filter (· ≠ id) } ok
          else State.toggle { s with started := [] } ok
    else s.toggle ok
  else if f.id &&& ~~~ (127 : BitVec 29) = 0x700 then
    let id := (f.id &&& 127).toNat
    if s.skipNode id then s
    else
      let s := { s with known := insert id s.known }
      if f.dlc.toNat > 0 ∧ f.data[0] = 4 then State.toggle { s with started := s.started.filter (· ≠ id) } ok
      else s.toggle ok
  else s.toggle ok

/-- canopen_master/include/canopen_master/bcm_sync.h:95-118 `handleInit`; `bcm`: the socket could be set up, `filter`: the filter could be set -/
def State.handleInit (s : State) (bcm filter : Bool) : State :=
  let s := { s with started := [] }
  if !bcm then { s with open_ := false, job := none }
  else if !filter then { s with open_ := true, job := none }
  else { s with open_ := true, job := none, listening := true }

/-- canopen_master/include/canopen_master/bcm_sync.h:119-123 `handleShutdown`: closing the socket ends its jobs -/
def State.handleShutdown (s : State) : State := { s with listening := false, open_ := false, job := none }

/-- canopen_master/include/canopen_master/bcm_sync.h:125-132 `handleHalt` -/
def State.handleHalt (s : State) : State :=
  if s.running then { s.stopTX.1 with running := false, started := [] } else s

/-- what happens to the layer: canopen_master/include/canopen_master/bcm_sync.h:46, 95, 119, 125, 134 -/
inductive Ev where
  | frame (f : Frame) (ok : Bool)
  | init (bcm filter : Bool)
  | halt
  | shutdown
  | recover (bcm filter : Bool)

/-- one event: canopen_master/include/canopen_master/bcm_sync.h:46-137 -/
def State.step (s : State) : Ev → State
  | .frame f ok => if s.listening then s.handleFrame f ok else s
  | .init b f => s.handleInit b f
  | .halt => s.handleHalt
  | .shutdown => s.handleShutdown
  | .recover b f => s.handleShutdown.handleInit b f

/-- a history: canopen_master/include/canopen_master/bcm_sync.h:46-137 -/
def State.run (s : State) : List Ev → State
  | [] => s
  | e :: es => (s.step e).run es

end Verif.Bcm
