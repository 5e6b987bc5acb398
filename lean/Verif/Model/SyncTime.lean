import Verif.Model.Master
import Verif.Model.Reader

/-!
# The timing of the SYNC layers
canopen_master/src/master_plugin.cpp

Time is counted in microseconds of the steady clock that `boost::chrono::high_resolution_clock` is.  The layer is driven by calls; an event tells how much time passes
between the return of one call and the next call (`gap`: other layers, the scheduler) and how much later than asked for a sleep ends (`late`).
-/

namespace Verif.SyT
open Verif Verif.Lay

/-- canopen_master/src/master_plugin.cpp:12, 27: `step_`, in microseconds -/
def step (p : Sync.Props) : Nat := p.period.toNat * 1000
/-- canopen_master/src/master_plugin.cpp:12, 27: `half_step_`, an integer number of milliseconds -/
def half (p : Sync.Props) : Nat := p.period.toNat / 2 * 1000

/-- canopen_master/src/master_plugin.cpp:63, 69, 100: `current_state > Init` -/
def active (st : LayerState) : Prop := LayerState.init.toNat < st.toNat

/-- the comparison in canopen_master/src/master_plugin.cpp:63, 69, 100 can be decided -/
instance (st : LayerState) : Decidable (active st) := by unfold active; infer_instance

/-- canopen_master/src/master_plugin.cpp:44-47 `SimpleSyncLayer` with its times; `clock` is the time now, `sent` the frames sent so far with their times -/
structure Simple where
  props : Sync.Props
  s : Sync.Simple
  clock : Nat
  readAt : Nat
  writeAt : Nat
  sent : List (Nat × Frame)

/-- canopen_master/src/master_plugin.cpp:84-92: the constructor at time `now`; the time points are default-constructed -/
def Simple.create (p : Sync.Props) (junk : Vector Byte 8) (now : Nat) : Option Simple :=
  (Sync.Simple.create p junk).map fun s => { props := p, s := s, clock := now, readAt := 0, writeAt := 0, sent := [] }

/-- what happens to the layer (canopen_master/src/master_plugin.cpp:31-40, 62-82) -/
inductive Ev where
  | init (gap : Nat)
  | read (st : LayerState) (gap late : Nat)
  | write (st : LayerState) (gap late : Nat)
  | add (n : Nat)
  | remove (n : Nat)
  deriving DecidableEq

/-- canopen_master/src/master_plugin.cpp:79-82 `handleInit`; simplification: both lines see the same time -/
def Simple.init (t : Simple) (gap : Nat) : Simple :=
  let now := t.clock + gap
  { t with clock := now, writeAt := now + step t.props, readAt := now + half t.props }

/-- canopen_master/src/master_plugin.cpp:62-67 `handleRead`; a time in the past is not waited for -/
def Simple.read (t : Simple) (st : LayerState) (gap late : Nat) : Simple :=
  if active st then { t with clock := max (t.clock + gap) t.readAt + late, writeAt := t.writeAt + step t.props }
  else { t with clock := t.clock + gap }

/-- canopen_master/src/master_plugin.cpp:68-77 `handleWrite`; simplification: sending takes no time -/
def Simple.write (t : Simple) (st : LayerState) (gap late : Nat) : Simple :=
  if active st then
    let now := max (t.clock + gap) t.writeAt + late
    { t with s := (t.s.handleWrite st).1, clock := now, readAt := now + half t.props, sent := t.sent ++ (t.s.handleWrite st).2.map fun f => (now, f) }
  else { t with clock := t.clock + gap }

/-- one event (canopen_master/src/master_plugin.cpp:31-40, 62-82) -/
def Simple.step (t : Simple) : Ev → Simple
  | .init g => t.init g
  | .read st g l => t.read st g l
  | .write st g l => t.write st g l
  | .add n => { t with s := t.s.addNode n }
  | .remove n => { t with s := t.s.removeNode n }

/-- a history (canopen_master/src/master_plugin.cpp:31-40, 62-82) -/
def Simple.run (t : Simple) (es : List Ev) : Simple := es.foldl Simple.step t

/-- canopen_master/src/master_plugin.cpp:95-115 `ExternalSyncLayer`: the reader with one place, whether it is registered, the time, the frames that are still to
come with their times (in order), and the calls of `handleRead` that waited: when called, the SYNC used (with its time of arrival), when returned -/
structure External where
  props : Sync.Props
  reader : Rd.Reader (Nat × Frame)
  listening : Bool
  clock : Nat
  bus : List (Nat × Frame)
  reads : List (Nat × Option (Nat × Frame) × Nat)

/-- canopen_master/src/master_plugin.cpp:113-114: constructor -/
def External.create (p : Sync.Props) (now : Nat) (bus : List (Nat × Frame)) : External :=
  { props := p, reader := Rd.Reader.new true 1, listening := false, clock := now, bus := bus, reads := [] }

/-- a frame arrives: the listener registered in canopen_master/src/master_plugin.cpp:110 gets the frames with the key of the header
(socketcan_interface/include/socketcan_interface/reader.h:85-89, 29-38) -/
def External.arrive (e : External) (x : Nat × Frame) : External :=
  if e.listening ∧ x.2.toHeader.key = e.props.header.key then { e with reader := e.reader.handleFrame x } else e

/-- the frames `xs` arrive, one after the other (socketcan_interface/include/socketcan_interface/reader.h:29-38) -/
def External.arriveAll (e : External) (xs : List (Nat × Frame)) : External := xs.foldl External.arrive e

/-- time passes until `t`: what is due arrives (environment of canopen_master/src/master_plugin.cpp:98-105) -/
def External.advance (e : External) (t : Nat) : External :=
  let e' := e.arriveAll (e.bus.takeWhile fun x => x.1 ≤ t)
  { e' with clock := max e.clock t, bus := e.bus.dropWhile fun x => x.1 ≤ t }

/-- the waiting in socketcan_interface/include/socketcan_interface/reader.h:97-98 until `limit`: frames arrive until there is one in the buffer or the time is over;
`fuel` is the number of frames on the bus -/
def External.await (e : External) (limit : Nat) : Nat → External
  | 0 => if e.reader.buffer ≠ [] then e else e.advance limit
  | fuel + 1 =>
    if e.reader.buffer ≠ [] then e
    else
      match e.bus with
      | [] => e.advance limit
      | x :: _ => if x.1 ≤ limit then (e.advance x.1).await limit fuel else e.advance limit

/-- canopen_master/src/master_plugin.cpp:98-105 `handleRead`; `late1`, `late2` are the delays of the two waits -/
def External.read (e : External) (st : LayerState) (gap late1 late2 : Nat) : External :=
  let e := e.advance (e.clock + gap)
  if active st then
    let called := e.clock
    let e := e.await (called + step e.props) e.bus.length
    let e := e.advance (e.clock + late1)
    let r := e.reader.readUntil true
    let e := { e with reader := r.1 }
    let e := if r.2.1 then e.advance (e.clock + half e.props + late2) else e
    { e with reads := e.reads ++ [(called, r.2.2, e.clock)] }
  else e

/-- canopen_master/src/master_plugin.cpp:109-111 `handleInit` -/
def External.init (e : External) (gap : Nat) : External :=
  let e := e.advance (e.clock + gap)
  { e with reader := e.reader.listen, listening := true }

/-- what happens to the layer (canopen_master/src/master_plugin.cpp:98-111) -/
inductive XEv where
  | init (gap : Nat)
  | read (st : LayerState) (gap late1 late2 : Nat)
  | write (st : LayerState) (gap : Nat)
  deriving DecidableEq

/-- one event (canopen_master/src/master_plugin.cpp:98-111; `handleWrite`, 106-108, does nothing) -/
def External.step (e : External) : XEv → External
  | .init g => e.init g
  | .read st g l1 l2 => e.read st g l1 l2
  | .write _ g => e.advance (e.clock + g)

/-- a history (canopen_master/src/master_plugin.cpp:98-111) -/
def External.run (e : External) (es : List XEv) : External := es.foldl External.step e

end Verif.SyT
