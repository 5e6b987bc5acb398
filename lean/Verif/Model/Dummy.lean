import Verif.Model.Dispatcher
import Verif.Model.Text

/-!
# Virtual bus
socketcan_interface/include/socketcan_interface/dummy.h

One bus with any number of `DummyInterface` objects (numbered).  Each critical section is one atomic step.
-/

namespace Verif.Dummy
open Verif Verif.Disp

/-- The parts of `DummyInterface` relevant for delivery: `in_`, `loopback_`
(socketcan_interface/include/socketcan_interface/dummy.h:61-62), and the frames its receive loop has handed to
`frame_dispatcher_` so far (line 161). -/
structure Iface where
  queue : List Frame
  loopback : Bool
  delivered : List Frame

/-- The bus dispatcher (socketcan_interface/include/socketcan_interface/dummy.h:27, listeners are the `enqueue` bindings of
the interfaces, identified by the interface number) and all interfaces. -/
structure World where
  bus : Base Nat
  ifs : Nat → Iface

/-- nothing connected, nothing queued (socketcan_interface/include/socketcan_interface/dummy.h:87) -/
def World.init : World := { bus := ⟨[]⟩, ifs := fun _ => { queue := [], loopback := false, delivered := [] } }

/-- socketcan_interface/include/socketcan_interface/dummy.h:75-80 `enqueue` of interface `j` -/
def World.enqueue (w : World) (f : Frame) (j : Nat) : World :=
  { w with ifs := fun k => if k = j then { w.ifs k with queue := (w.ifs k).queue ++ [f] } else w.ifs k }

/-- socketcan_interface/include/socketcan_interface/dummy.h:169-174 `init(device, loopback)`: connects to the bus; an old
connection is dropped after the new listener was created (lines 48-51, 171). -/
def World.connect (w : World) (i : Nat) (loopback : Bool) : World :=
  { bus := (w.bus.remove i).createListener i,
    ifs := fun k => if k = i then { w.ifs k with loopback := loopback } else w.ifs k }

/-- socketcan_interface/include/socketcan_interface/dummy.h:82-85 `shutdown_internal`: the connection is dropped -/
def World.disconnect (w : World) (i : Nat) : World := { w with bus := w.bus.remove i }

/-- socketcan_interface/include/socketcan_interface/dummy.h:92-101 `send` with lines 40-42 (`dispatch_filtered` excluding
the own listener).  Without a connection `bus_` is a null pointer: undefined behaviour. -/
def World.send (w : World) (i : Nat) (f : Frame) : Outcome Empty World :=
  if i ∈ w.bus.listeners then
    let w1 := if (w.ifs i).loopback then w.enqueue f i else w
    .ok ((w1.bus.dispatchNolock (some i)).foldl (fun w j => w.enqueue f j) w1)
  else .ub

/-- one iteration of the inner loop of `run` (socketcan_interface/include/socketcan_interface/dummy.h:155-162) -/
def World.receive (w : World) (i : Nat) : World :=
  match (w.ifs i).queue with
  | [] => w
  | f :: r => { w with ifs := fun k => if k = i then { w.ifs k with queue := r, delivered := (w.ifs k).delivered ++ [f] } else w.ifs k }

/-- the atomic steps of the system (socketcan_interface/include/socketcan_interface/dummy.h:82-174) -/
inductive Ev where
  | connect (i : Nat) (loopback : Bool)
  | disconnect (i : Nat)
  | send (i : Nat) (f : Frame)
  | receive (i : Nat)

/-- one step (socketcan_interface/include/socketcan_interface/dummy.h:82-174) -/
def World.step (w : World) : Ev → Outcome Empty World
  | .connect i l => .ok (w.connect i l)
  | .disconnect i => .ok (w.disconnect i)
  | .send i f => w.send i f
  | .receive i => .ok (w.receive i)

/-- a schedule (socketcan_interface/include/socketcan_interface/dummy.h:82-174) -/
def World.run (w : World) : List Ev → Outcome Empty World
  | [] => .ok w
  | e :: es => match w.step e with
    | .ok w' => w'.run es
    | .throws x => .throws x
    | .ub => .ub

/-- socketcan_interface/include/socketcan_interface/dummy.h:215-225 `DummyReplay::respond`: frames sent and remaining script.
`replay_.front()` of an empty list is undefined behaviour, and so is printing a frame with `dlc > 8`. -/
def respond (replay : List (Text × List Frame)) (msg : Frame) :
    Outcome Empty (List Frame × List (Text × List Frame)) :=
  match replay with
  | [] => .ub
  | (expect, out) :: rest =>
    match Txt.frameToString (ε := Empty) msg true with
    | .ok s => if s = expect then .ok (out, rest) else .ok ([], (expect, out) :: rest)
    | .throws e => .throws e
    | .ub => .ub

/-- socketcan_interface/include/socketcan_interface/dummy.h:229-236 `DummyReplay::add`; `boost::to_lower_copy` in the classic
locale.  `junk` stands for the uninitialised payload arrays of the frames made by `toframe`. -/
def addScript (junk : Vector Byte 8) (replay : List (Text × List Frame)) (read : Text) (write : List Text) :
    List (Text × List Frame) :=
  replay ++ [(read.map Char.toLower, write.map (Txt.toframe junk))]

/-- socketcan_interface/include/socketcan_interface/dummy.h:237-239 `DummyReplay::add` with one answer -/
def addScriptOne (junk : Vector Byte 8) (replay : List (Text × List Frame)) (read write : Text) :
    List (Text × List Frame) :=
  addScript junk replay read [write]

/-- socketcan_interface/include/socketcan_interface/dummy.h:240 `DummyReplay::done` -/
def scriptDone (replay : List (Text × List Frame)) : Bool := replay.isEmpty

/-- The receive loop of the replay's interface calling `respond` for each frame (dummy.h:153-162 and 215-225 of
socketcan_interface/include/socketcan_interface/dummy.h): all frames sent and the remaining script. -/
def serve (replay : List (Text × List Frame)) : List Frame →
    Outcome Empty (List Frame × List (Text × List Frame))
  | [] => .ok ([], replay)
  | m :: ms =>
    match respond replay m with
    | .ok (out, replay1) =>
      match serve replay1 ms with
      | .ok (out2, replay2) => .ok (out ++ out2, replay2)
      | .throws e => .throws e
      | .ub => .ub
    | .throws e => .throws e
    | .ub => .ub

end Verif.Dummy
