import Verif.Model.NodeLayer

/-!
# A node and its device while the node is initialised: notions used to state C114

The device follows the state machine of CiA 301.  Commands reach it in the order in which they were sent, its reports are handled in the order in which it sent
them; how long this takes is open, and so is when the two threads of the master go on.
-/

namespace Verif.Spec.BringUp
open Verif Verif.Nmt

/-- A device: its number, its state (the number in its reports, 0 while it initialises), whether it sends heartbeats now and after a reset, and whether it holds the
values the master configured. -/
structure Device where
  id : Byte
  state : Byte
  beats : Bool
  beatsAfterReset : Bool
  configured : Bool
  deriving DecidableEq

/-- the device gets an NMT command (two bytes with identifier 0: command and node number, 0 for all); it gets none while it initialises -/
def Device.obey (d : Device) (f : Frame) : Device :=
  if d.state = 0 ∨ f.id ≠ 0 ∨ f.dlc ≠ 2 ∨ (f.data[1] ≠ d.id ∧ f.data[1] ≠ 0) then d
  else if f.data[0] = 1 then { d with state := 5 }
  else if f.data[0] = 2 then { d with state := 4 }
  else if f.data[0] = 128 then { d with state := 127 }
  else if f.data[0] = 129 ∨ f.data[0] = 130 then { d with state := 0, beats := d.beatsAfterReset, configured := false }
  else d

/-- a report of state `s` -/
def report (id s : Byte) : Frame :=
  { id := 0x700 + id.setWidth 29, isError := false, isRtr := false, isExtended := false, data := #v[s, 0, 0, 0, 0, 0, 0, 0], dlc := 1 }

/-- the node that is being initialised, its device, the commands on their way to it and the reports on their way back -/
structure Sys where
  i : Initing
  dev : Device
  inbox : List Frame
  wire : List Frame

/-- what can happen -/
inductive Ev where
  /-- the calling thread goes on; `p`: how a part that concerns SDOs or PDOs ends -/
  | next (p : Part) (now : Int)
  /-- it looks at the state it waits for -/
  | wake
  /-- its wait times out -/
  | expire (now : Int) (sdo : Option (BitVec 16)) (timeout : Bool)
  /-- it ends the reset by writing the heartbeat interval -/
  | finish (ok timeout : Bool)
  /-- the receiving thread handles the next report -/
  | hear (now : Int)
  /-- the receiving thread handles all reports that are there -/
  | drain (now : Int)
  /-- the device gets the next command -/
  | take
  /-- the device ends its initialisation, with the boot-up message -/
  | boot
  /-- the device sends a heartbeat -/
  | beat

/-- the frames sent among what happened -/
def sent (log : List Item) : List Frame := log.filterMap fun x => match x with
  | .sent f => some f
  | _ => none

/-- a step of the master; what it sends is on its way to the device -/
def Sys.master (s : Sys) (e : IEv) : Sys :=
  { s with i := s.i.step e, inbox := s.inbox ++ sent ((s.i.step e).log.drop s.i.log.length) }

/-- the receiving thread handles one report -/
def Sys.hear (s : Sys) (now : Int) : Sys :=
  match s.wire with
  | [] => s
  | f :: w => Sys.master { s with wire := w } (.frame f now)

/-- the receiving thread handles `n` reports -/
def Sys.hears (s : Sys) (now : Int) : Nat → Sys
  | 0 => s
  | n + 1 => (s.hear now).hears now n

/-- One step.  The configured values reach the device when they have been written; writing the heartbeat interval switches the heartbeat on or off. -/
def Sys.step (s : Sys) : Ev → Sys
  | .next p now =>
    let t := s.master (.next p now)
    if s.i.pc = .values ∧ p = .works then { t with dev := { t.dev with configured := true } } else t
  | .wake => s.master .wake
  | .expire now sdo timeout => s.master (.expire now sdo timeout)
  | .finish ok timeout =>
    let t := s.master (.finish ok timeout)
    match s.i.node.hb.conf with
    | some v => if s.i.pc = .resetting ∧ t.i.pc = .pdo ∧ s.i.node.hb.present = true then { t with dev := { t.dev with beats := decide (v ≠ 0) } } else t
    | none => t
  | .hear now => s.hear now
  | .drain now => s.hears now s.wire.length
  | .take =>
    match s.inbox with
    | [] => s
    | f :: q => { s with dev := s.dev.obey f, inbox := q }
  | .boot => if s.dev.state = 0 then { s with dev := { s.dev with state := 127 }, wire := s.wire ++ [report s.dev.id 0] } else s
  | .beat => if s.dev.state ≠ 0 ∧ s.dev.beats = true then { s with wire := s.wire ++ [report s.dev.id s.dev.state] } else s

/-- a history -/
def Sys.run (s : Sys) : List Ev → Sys
  | [] => s
  | e :: es => (s.step e).run es

/-- The initialisation of a node begins, with a device in whatever state it is, but up; `old` are reports it sent before, none of them a boot-up message, and the
node has not heard of one either. -/
def begins (n : Node) (d : Device) (old : List Frame) : Sys := { i := n.beginInit, dev := d, inbox := [], wire := old }

/-- the conditions for that -/
structure Begin (n : Node) (d : Device) (old : List Frame) : Prop where
  id : d.id = n.id
  idle : n.phase = .idle
  up : d.state ≠ 0
  unheard : n.state ≠ 0
  old : ∀ f ∈ old, f.data[0] ≠ 0

/-- nothing goes wrong: no wait times out, no access to the device fails -/
def Well : Ev → Prop
  | .next p _ => p = .works
  | .finish ok _ => ok = true
  | .expire _ _ _ => False
  | _ => True

/-- everybody does something: in whatever order, the device takes a command, ends its initialisation, sends a heartbeat, the receiving thread handles the
reports that are there, and the calling thread goes on -/
structure Round (es : List Ev) : Prop where
  take : Ev.take ∈ es
  boot : Ev.boot ∈ es
  beat : Ev.beat ∈ es
  drain : ∃ now, Ev.drain now ∈ es
  wake : Ev.wake ∈ es
  finish : ∃ ok to, Ev.finish ok to ∈ es
  next : ∃ p now, Ev.next p now ∈ es

end Verif.Spec.BringUp
