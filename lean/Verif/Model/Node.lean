import Verif.Model.Frame
import Verif.Model.Layer

/-!
# Node (NMT)
canopen_master/src/node.cpp, canopen_master/include/canopen_master/canopen.h:189-258

Commands hold the node's `mutex`, so one command runs at a time; NMT frames are handled by the receive thread in between, under
`cond_mutex`.  A command is therefore a sequence of events: `call` (send the command), `wake`/`expire` (the loop of `wait_for`), `finish` (the
rest of `reset`/`reset_com`).  `Node::handleShutdown` is the sequence `hbOff`, `stop`, `unlisten`, `forget`.

Times are in milliseconds.
-/

namespace Verif.Nmt
open Verif Verif.Lay

/-- canopen_master/include/canopen_master/canopen.h:191-193 -/
def Unknown : Byte := 255
/-- canopen_master/include/canopen_master/canopen.h:191-193 -/
def BootUp : Byte := 0
/-- canopen_master/include/canopen_master/canopen.h:191-193 -/
def Stopped : Byte := 4
/-- canopen_master/include/canopen_master/canopen.h:191-193 -/
def Operational : Byte := 5
/-- canopen_master/include/canopen_master/canopen.h:191-193 -/
def PreOperational : Byte := 127

/-- The handle `heartbeat_` to object 0x1017 (canopen.h:242): whether the object exists, its default and its configured value (`desc().value()`),
and the stored value with its `valid` flag (canopen_master/include/canopen_master/objdict.h:294-295).  Simplification: the object is readable and writable. -/
structure Hb where
  present : Bool
  dflt : Option (BitVec 16)
  conf : Option (BitVec 16)
  buf : BitVec 16
  valid : Bool

/-- canopen.h:254 `getHeartbeatInterval` with canopen_master/include/canopen_master/objdict.h:339-354; `sdo` is the answer of the device if it must be asked (`none`: an exception) -/
def Hb.interval (h : Hb) (sdo : Option (BitVec 16)) : Hb × Option (BitVec 16) :=
  if !h.present then (h, some 0)
  else if h.valid then (h, some h.buf)
  else match sdo with
    | some v => ({ h with buf := v, valid := true }, some v)
    | none => ({ h with valid := true }, none)

/-- canopen_master/src/objdict.cpp:67-75, 421-426: `getStorage()->reset()`, as far as object 0x1017 is concerned -/
def Hb.reset (h : Hb) : Hb :=
  match h.dflt with
  | some v => { h with buf := v, valid := true }
  | none => { h with valid := false }

/-- the commands that wait (canopen_master/src/node.cpp:44-83) -/
inductive Cmd where
  | resetCom | reset | prepare | start
  deriving DecidableEq, Repr

/-- canopen_master/src/node.cpp:10-16, 47, 59, 73, 81 -/
def Cmd.code : Cmd → Byte
  | .resetCom => 130 | .reset => 129 | .prepare => 128 | .start => 1

/-- canopen_master/src/node.cpp:48, 60, 74, 82 -/
def Cmd.target : Cmd → Byte
  | .resetCom => BootUp | .reset => BootUp | .prepare => PreOperational | .start => Operational

/-- canopen_master/src/node.cpp:48, 60, 74, 82 -/
def Cmd.timeout : Cmd → Int
  | .resetCom => 10000 | .reset => 10000 | .prepare => 2000 | .start => 2000

/-- canopen_master/src/node.cpp:45-54, 56-66: whether the command resets the storage and continues after the wait -/
def Cmd.isReset : Cmd → Bool
  | .resetCom => true | .reset => true | _ => false

/-- canopen_master/src/node.cpp:20-25 with canopen.h:26-28: the NMT command frame -/
def nmtFrame (code node : Byte) : Frame :=
  { id := 0, isError := false, isRtr := false, isExtended := false, data := #v[code, node, 0, 0, 0, 0, 0, 0], dlc := 2 }

/-- where the thread running a command is: canopen_master/src/node.cpp:44-83, 122-140 -/
inductive Phase where
  | idle
  | waiting (c : Cmd) (deadline : Int)
  | finishing (c : Cmd)
  deriving DecidableEq, Repr

/-- canopen_master/include/canopen_master/canopen.h:189-258 `Node`: `synced` is membership of the sync object, if there is one -/
structure Node where
  id : Byte
  hasSync : Bool
  state : Byte
  hb : Hb
  hbTimeout : Int
  synced : Bool
  listening : Bool
  phase : Phase

/-- canopen_master/src/node.cpp:30-37 the constructor, with the listener of 177.  `heartbeat_timeout_` is value-initialised to the clock's
epoch. -/
def Node.fresh (id : Byte) (hasSync : Bool) (hb : Hb) : Node :=
  { id := id, hasSync := hasSync, state := Unknown, hb := hb, hbTimeout := 0, synced := false, listening := true, phase := .idle }

/-- what can be observed (canopen_master/src/node.cpp:44-145): frames sent, calls of state listeners, results of commands -/
inductive Out where
  | sent (f : Frame)
  | notify (s : Byte)
  /-- a state was assumed without a report (canopen_master/src/node.cpp:133-136) -/
  | assumed (s : Byte)
  | returned (c : Cmd) (ok : Bool)
  | threw (c : Cmd)
  /-- an exception leaves `handleNMT` into the receive thread -/
  | escaped

/-- canopen_master/src/node.cpp:94-114 `switchState`: new state and listener notifications -/
def Node.switchState (n : Node) (s : Byte) : Node × List Out :=
  let changed : Bool := n.state ≠ s
  let synced :=
    if s = Operational then (if changed && n.hasSync then true else n.synced)
    else if s = BootUp ∨ s = PreOperational ∨ s = Stopped then (if changed && n.hasSync then false else n.synced)
    else n.synced
  if changed then ({ n with state := s, synced := synced }, [.notify s])
  else ({ n with synced := synced }, [])

/-- canopen_master/src/node.cpp:115-121 `handleNMT` (asserts compiled out).  The device cannot be asked from here: the answer would have to be
received by this very thread, so an interval that is not cached ends in an exception. -/
def Node.handleNMT (n : Node) (f : Frame) (now : Int) : Node × List Out :=
  match n.hb.interval none with
  | (hb, none) => ({ n with hb := hb }, [.escaped])
  | (hb, some v) =>
    let n := { n with hb := hb, hbTimeout := if v ≠ 0 then now + 3 * v.toNat else n.hbTimeout }
    n.switchState f.data[0]

/-- what can happen to a node: canopen_master/src/node.cpp:44-92 (commands), 115-140 (frames, waiting), 210-215 (shut-down) -/
inductive Ev where
  /-- a frame with the identifier of the node's error control -/
  | frame (f : Frame) (now : Int)
  /-- a command is called -/
  | call (c : Cmd) (now : Int)
  /-- `Node::stop` -/
  | stop
  /-- the waiting thread evaluates the condition of its loop -/
  | wake
  /-- its wait times out; `sdo`: answer of the device if the heartbeat interval must be read -/
  | expire (now : Int) (sdo : Option (BitVec 16))
  /-- the rest of a reset; `ok`: whether writing the heartbeat interval succeeds -/
  | finish (ok : Bool)
  /-- switching off the heartbeat (`ok`: the write succeeds) -/
  | hbOff (sdo : Option (BitVec 16)) (ok : Bool)
  /-- the listener is dropped (canopen_master/src/node.cpp:213) -/
  | unlisten
  /-- `switchState(Unknown)` (canopen_master/src/node.cpp:214) -/
  | forget

/-- canopen_master/src/node.cpp:48-54, 60-66, 74, 82: what the command does with the result of `wait_for` -/
def Node.waited (n : Node) (c : Cmd) (r : Int) : Node × List Out :=
  if c.isReset then
    if r ≠ 1 then ({ n with phase := .idle }, [.returned c false]) else ({ n with phase := .finishing c }, [])
  else ({ n with phase := .idle }, [.returned c (r ≠ 0)])

/-- canopen_master/src/node.cpp:44-145, 210-215: one event -/
def Node.step (n : Node) : Ev → Node × List Out
  | .frame f now => if n.listening then n.handleNMT f now else (n, [])
  | .call c now =>
    match n.phase with
    | .idle =>
      ({ n with hb := if c.isReset then n.hb.reset else n.hb, phase := .waiting c (now + c.timeout) }, [.sent (nmtFrame c.code n.id)])
    | _ => (n, [])
  | .stop =>
    match n.phase with
    | .idle => ({ n with synced := if n.hasSync then false else n.synced }, [.sent (nmtFrame 2 n.id)])
    | _ => (n, [])
  | .wake =>
    match n.phase with
    | .waiting c _ => if n.state = c.target then n.waited c 1 else (n, [])
    | _ => (n, [])
  | .expire now sdo =>
    match n.phase with
    | .waiting c deadline =>
      if now < deadline then (n, [])
      else if n.state = c.target then n.waited c 1
      else match n.hb.interval sdo with
        | (hb, none) => ({ n with hb := hb, phase := .idle }, [.threw c])
        | (hb, some v) =>
          if v = 0 then
            let r := ({ n with hb := hb }).switchState c.target
            let q := r.1.waited c (-1)
            (q.1, [.assumed c.target] ++ r.2 ++ q.2)
          else ({ n with hb := hb }).waited c 0
    | _ => (n, [])
  | .finish ok =>
    match n.phase with
    | .finishing c =>
      let n := { n with state := PreOperational, phase := .idle }
      if !n.hb.present then (n, [.returned c true])
      else match n.hb.conf with
        | none => (n, [.threw c])
        | some v =>
          let n := { n with hb := { n.hb with buf := v, valid := true } }
          if ok then (n, [.returned c true]) else (n, [.threw c])
    | _ => (n, [])
  | .hbOff sdo _ =>
    match n.hb.interval sdo with
    | (hb, none) => ({ n with hb := hb }, [])
    | (hb, some v) => if v ≠ 0 then ({ n with hb := { hb with buf := 0, valid := true } }, []) else ({ n with hb := hb }, [])
  | .unlisten => ({ n with listening := false }, [])
  | .forget => n.switchState Unknown

/-- a history of events; canopen_master/src/node.cpp:44-145, 210-215 -/
def Node.run (n : Node) : List Ev → Node × List Out
  | [] => (n, [])
  | e :: es =>
    let r := n.step e
    let q := r.1.run es
    (q.1, r.2 ++ q.2)

/-- canopen_master/src/node.cpp:141-145 `checkHeartbeat` (an interval that must be read and cannot: an exception, `none`) -/
def Node.checkHeartbeat (n : Node) (now : Int) (sdo : Option (BitVec 16)) : Option Bool :=
  match (n.hb.interval sdo).2 with
  | none => none
  | some v => if v = 0 then some true else some (decide (n.hbTimeout ≥ now))

/-- what a read cycle reports (canopen_master/src/node.cpp:148-158) -/
inductive ReadRes where
  | nothing | heartbeatProblem | notOperational | pdo | exception
  deriving DecidableEq, Repr

/-- canopen_master/src/node.cpp:148-158 `handleRead` -/
def Node.handleRead (n : Node) (st : LayerState) (now : Int) (sdo : Option (BitVec 16)) : ReadRes :=
  if st.toNat > LayerState.init.toNat then
    match n.checkHeartbeat now sdo with
    | none => .exception
    | some false => .heartbeatProblem
    | some true => if n.state ≠ Operational then .notOperational else .pdo
  else .nothing

end Verif.Nmt
