import Verif.Model.Node

/-!
# Node as a layer: initialisation, recovery, shut-down, diagnostics
canopen_master/src/node.cpp:148-219

The calling thread executes one of these handlers while the receive thread handles NMT frames in between; a schedule is a list of events.  What the
SDO client, the PDO mapper, the storage and the device answer are parameters of the events.
-/

namespace Verif.Nmt
open Verif Verif.Lay

/-- how a part ends: `fails` is a result of `false` with an error in the status, the others are exceptions, `TimeoutException` or another one
(canopen_master/src/node.cpp:180-196) -/
inductive Part where
  | works | fails | timesOut | throws
  deriving DecidableEq, Repr

/-- what a handler reports: nothing, an error in the status, or an exception that leaves it (canopen_master/src/node.cpp:176-215) -/
inductive Report where
  | fine | error | exception
  deriving DecidableEq, Repr

/-- where the calling thread is in `handleInit` (canopen_master/src/node.cpp:177, 179, 181, 188, 191, 192, 196) -/
inductive Pc where
  | listen | sdo | reset | resetting | pdo | values | sdoAgain | start | starting
  | done (r : Report)
  deriving DecidableEq, Repr

/-- what happens, in order: reported states that were taken over, frames sent, states assumed, and parts done (canopen_master/src/node.cpp:94-140,
176-201) -/
inductive Item where
  | told (s : Byte)
  | sent (f : Frame)
  | assumed (s : Byte)
  /-- `reset_com` is through (181) -/
  | isReset
  /-- the PDOs are set up (188) -/
  | pdos
  /-- all configured values are written (191) -/
  | configured

/-- outputs of the node as items (canopen_master/src/node.cpp:44-83) -/
def items (os : List Out) : List Item := os.filterMap fun o => match o with
  | .sent f => some (.sent f)
  | .assumed s => some (.assumed s)
  | _ => none

/-- a node that is being initialised (canopen_master/src/node.cpp:176-201) or recovered, which is the last part of it (202-209) -/
structure Initing where
  node : Node
  pc : Pc
  log : List Item
  recovering : Bool

/-- the steps of the two threads (canopen_master/src/node.cpp:115-140, 176-201) -/
inductive IEv where
  /-- the receive thread handles a frame of the node -/
  | frame (f : Frame) (now : Int)
  /-- the calling thread does its next step; `p` is the result of a part, `now` the time -/
  | next (p : Part) (now : Int)
  /-- the waiting thread evaluates its condition -/
  | wake
  /-- its wait times out; `sdo`: answer of the device if the heartbeat interval must be read, otherwise `timeout` says which exception -/
  | expire (now : Int) (sdo : Option (BitVec 16)) (timeout : Bool)
  /-- the rest of the reset; `ok`: whether writing the heartbeat interval succeeds, otherwise `timeout` says which exception -/
  | finish (ok timeout : Bool)

/-- canopen_master/src/node.cpp:115-121: a frame; it is taken over unless the node does not listen or the interval cannot be read -/
def Initing.frame (i : Initing) (f : Frame) (now : Int) : Initing :=
  if i.node.listening ∧ (i.node.hb.interval none).2.isSome then { i with node := (i.node.step (.frame f now)).1, log := i.log ++ [.told f.data[0]] }
  else { i with node := (i.node.step (.frame f now)).1 }

/-- canopen_master/src/node.cpp:180-186, 195-200: a command that is waiting goes on; when it returns or throws, `handleInit` goes on -/
def Initing.command (i : Initing) (e : Ev) (timeout : Bool) (onOk onFalse : Pc) (mark : List Item) : Initing :=
  let r := i.node.step e
  let j := { i with node := r.1, log := i.log ++ items r.2 }
  if r.2.any (fun o => match o with | .returned _ true => true | _ => false) then { j with pc := onOk, log := j.log ++ mark }
  else if r.2.any (fun o => match o with | .returned _ false => true | _ => false) then { j with pc := onFalse }
  else if r.2.any (fun o => match o with | .threw _ => true | _ => false) then { j with pc := .done (if timeout then .error else .exception) }
  else j

/-- canopen_master/src/node.cpp:180-200, 203-208: the same, depending on the command; recovery drops the result of `start` -/
def Initing.cont (i : Initing) (e : Ev) (timeout : Bool) : Initing :=
  match i.pc with
  | .resetting => i.command e timeout .pdo (.done .error) [.isReset]
  | .starting => i.command e timeout (.done .fine) (.done (if i.recovering then .fine else .error)) []
  | _ => i

/-- the next statement of `handleInit` by the calling thread (canopen_master/src/node.cpp:176-201) -/
def Initing.next (i : Initing) (p : Part) (now : Int) : Pc → Initing
  | .listen => { i with node := { i.node with listening := true }, pc := .sdo }
  | .sdo => if p = .works then { i with pc := .reset } else { i with pc := .done .exception }
  | .reset =>
    if p = .works then
      { i with node := (i.node.step (.call .resetCom now)).1, pc := .resetting, log := i.log ++ items (i.node.step (.call .resetCom now)).2 }
    else i
  | .pdo =>
    if p = .works then { i with pc := .values, log := i.log ++ [.pdos] }
    else if p = .fails then { i with pc := .done .error }
    else { i with pc := .done .exception }
  | .values => if p = .works then { i with pc := .sdoAgain, log := i.log ++ [.configured] } else { i with pc := .done .exception }
  | .sdoAgain => if p = .works then { i with pc := .start } else { i with pc := .done .exception }
  | .start =>
    if p = .works then
      { i with node := (i.node.step (.call .start now)).1, pc := .starting, log := i.log ++ items (i.node.step (.call .start now)).2 }
    else i
  | _ => i

/-- canopen_master/src/node.cpp:176-201 `handleInit`, one step -/
def Initing.step (i : Initing) : IEv → Initing
  | .frame f now => i.frame f now
  | .next p now => i.next p now i.pc
  | .wake => i.cont .wake false
  | .expire now sdo timeout => i.cont (.expire now sdo) timeout
  | .finish ok timeout => i.cont (.finish ok) timeout

/-- a schedule (canopen_master/src/node.cpp:176-201) -/
def Initing.run (i : Initing) (es : List IEv) : Initing := es.foldl Initing.step i

/-- `handleInit` is called (canopen_master/src/node.cpp:176) -/
def Node.beginInit (n : Node) : Initing := { node := n, pc := .listen, log := [], recovering := false }

/-- `handleRecover` is called: `start` (canopen_master/src/node.cpp:204, 76-83) -/
def Node.beginRecover (n : Node) (now : Int) : Initing :=
  { node := (n.step (.call .start now)).1, pc := .starting, log := items (n.step (.call .start now)).2, recovering := true }

/-- where the calling thread is in `handleShutdown` (canopen_master/src/node.cpp:211-214) -/
inductive SPc where
  | heartbeat | stop | unlisten | forget
  | done (r : Report)
  deriving DecidableEq, Repr

/-- a node that is being shut down: what was sent, and whether the heartbeat was switched off on the device (canopen_master/src/node.cpp:210-215) -/
structure Closing where
  node : Node
  pc : SPc
  sent : List Frame
  hbOff : Bool

/-- the steps of the two threads (canopen_master/src/node.cpp:115-121, 210-215) -/
inductive SEv where
  | frame (f : Frame) (now : Int)
  /-- the next step of the calling thread; `sdo`: the interval if it must be read (`none`: exception), `ok`: whether the write succeeds -/
  | next (sdo : Option (BitVec 16)) (ok : Bool)

/-- frames among outputs (canopen_master/src/node.cpp:90) -/
def sentOf (os : List Out) : List Frame := os.filterMap fun o => match o with
  | .sent f => some f
  | _ => none

/-- canopen_master/src/node.cpp:210-215 `handleShutdown`, one step -/
def Closing.step (c : Closing) : SEv → Closing
  | .frame f now => { c with node := (c.node.step (.frame f now)).1 }
  | .next sdo ok =>
    match c.pc with
    | .heartbeat =>
      match c.node.hb.interval sdo with
      | (hb, none) => { c with node := { c.node with hb := hb }, pc := .done .exception }
      | (_, some v) =>
        let n := (c.node.step (.hbOff sdo ok)).1
        if v ≠ 0 then
          if ok then { c with node := n, pc := .stop, hbOff := true } else { c with node := n, pc := .done .exception }
        else { c with node := n, pc := .stop }
    | .stop => { c with node := (c.node.step .stop).1, pc := .unlisten, sent := c.sent ++ sentOf (c.node.step .stop).2 }
    | .unlisten => { c with node := (c.node.step .unlisten).1, pc := .forget }
    | .forget => { c with node := (c.node.step .forget).1, pc := .done .fine }
    | .done _ => c

/-- a schedule (canopen_master/src/node.cpp:210-215) -/
def Closing.run (c : Closing) (es : List SEv) : Closing := es.foldl Closing.step c

/-- `handleShutdown` is called (canopen_master/src/node.cpp:210) -/
def Node.beginShutdown (n : Node) : Closing := { node := n, pc := .heartbeat, sent := [], hbOff := false }

/-- what `handleDiag` reports (canopen_master/src/node.cpp:167-175) -/
inductive DiagRes where
  | nothing
  | notOperational (state : Byte)
  | heartbeatTimeout
  | exception
  deriving DecidableEq, Repr

/-- canopen_master/src/node.cpp:167-175 `handleDiag` -/
def Node.handleDiag (n : Node) (now : Int) (sdo : Option (BitVec 16)) : DiagRes :=
  if n.state ≠ Operational then .notOperational n.state
  else match n.checkHeartbeat now sdo with
    | none => .exception
    | some false => .heartbeatTimeout
    | some true => .nothing

/-- what `handleWrite` does (canopen_master/src/node.cpp:159-164) -/
inductive WriteRes where
  | nothing | notOperational | problem | written
  deriving DecidableEq, Repr

/-- canopen_master/src/node.cpp:159-164 `handleWrite`; `pdo` is the result of `pdo_.write()` -/
def Node.handleWrite (n : Node) (st : LayerState) (pdo : Bool) : WriteRes :=
  if st.toNat > LayerState.init.toNat then
    if n.state ≠ Operational then .notOperational else if pdo then .written else .problem
  else .nothing

end Verif.Nmt
