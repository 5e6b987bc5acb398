import Verif.Model.Layer
import Verif.Model.Motor

/-!
Model of the mode switching part of `canopen_motor_node`: interface mapping, handle layer and robot layer.
-/

namespace Verif.Rob
open Verif.Lay

/-- `MotorBase::OperationMode` (canopen_402/include/canopen_402/base.h:13-26). Simplified: a natural number; values
outside of the enumeration are kept as they are (the C++ conversion of line 97 of robot_layer.cpp is unspecified there).
`No_Mode` is 0. -/
abbrev Mode := Nat

/-- The three command handles `jph_`, `jvh_`, `jeh_` (canopen_motor_node/include/canopen_motor_node/handle_layer.h:104). -/
inductive Kind where
  | pos | vel | eff
  deriving DecidableEq, Repr

/-- Interface names used by the mapping (canopen_motor_node/src/interface_mapping.h:18-27). -/
def Kind.iface : Kind → String
  | .pos => "hardware_interface::PositionJointInterface"
  | .vel => "hardware_interface::VelocityJointInterface"
  | .eff => "hardware_interface::EffortJointInterface"

/-- The bimap of interfaces and modes (canopen_motor_node/src/interface_mapping.h:17-28). -/
def mapping : List (Kind × Mode) :=
  [(.pos, 1), (.pos, 7), (.pos, 8), (.vel, 2), (.vel, 3), (.vel, 9), (.eff, 4), (.eff, 10)]

/-- `getInterfaceModes` for one of the three interfaces (canopen_motor_node/src/interface_mapping.h:29-35). -/
def interfaceModes (k : Kind) : List Mode := (mapping.filter (fun p => p.1 = k)).map (·.2)

/-- `hasConflict` (canopen_motor_node/src/interface_mapping.h:36-42). -/
def hasConflict (iface : String) (m : Mode) : Bool :=
  match mapping.find? (fun p => p.2 = m) with
  | some p => decide (p.1.iface ≠ iface)
  | none => false

/-- State of a `HandleLayer` and what it sees of its motor
(canopen_motor_node/include/canopen_motor_node/handle_layer.h:90-132). `mode`, `state` and `supports` are the motor's
`getMode()`, `getLayerState()` and `isModeSupported()`. Simplified: converters, filters and limits handles are not part
of it; `isModeSupported` is assumed not to throw. -/
structure Handle where
  /-- `commands_`: mode to handle pointer, `none` inside is the null pointer -/
  commands : List (Mode × Option Kind)
  /-- `jh_` -/
  jh : Option Kind
  /-- `forward_command_` -/
  forward : Bool
  /-- `enable_limits_` -/
  limits : Bool
  /-- mode of the motor -/
  mode : Mode
  /-- layer state of the motor -/
  state : LayerState
  /-- modes the motor supports -/
  supports : Mode → Bool

/-- Lookup in `commands_` (`CommandMap::find`, canopen_motor_node/src/handle_layer.cpp:20 and 60). -/
def Handle.command (h : Handle) (m : Mode) : Option (Option Kind) := h.commands.lookup m

/-- Constructor: only `No_Mode` is known, no handle, nothing is forwarded, limits enabled
(canopen_motor_node/src/handle_layer.cpp:26-30). -/
def Handle.construct (mode : Mode) (state : LayerState) (supports : Mode → Bool) : Handle :=
  { commands := [(0, none)], jh := none, forward := false, limits := true, mode := mode, state := state, supports := supports }

/-- `addHandle` (canopen_motor_node/include/canopen_motor_node/handle_layer.h:111-128). Simplified: the registration at
the ROS interface and the limits handles are left out. -/
def Handle.addHandle (h : Handle) (k : Kind) : Handle :=
  if (interfaceModes k).any h.supports then
    { h with commands := (interfaceModes k).map (fun m => (m, some k)) ++ h.commands }
  else h

/-- The three registrations of the first init (canopen_motor_node/src/robot_layer.cpp:68-70). -/
def Handle.registerAll (h : Handle) : Handle := ((h.addHandle .pos).addHandle .vel).addHandle .eff

/-- `CanSwitchResult` (canopen_motor_node/include/canopen_motor_node/handle_layer_base.h:14-19). -/
inductive CanSwitch where
  | notSupported | notReady | ready | noNeed
  deriving DecidableEq, Repr

/-- `canSwitch` (canopen_motor_node/src/handle_layer.cpp:59-69). -/
def Handle.canSwitch (h : Handle) (m : Mode) : CanSwitch :=
  if !h.supports m || (h.command m).isNone then .notSupported
  else if h.mode = m then .noNeed
  else if h.state = .ready then .ready
  else .notReady

/-- `select` (canopen_motor_node/src/handle_layer.cpp:19-24). -/
def Handle.select (h : Handle) (m : Mode) : Handle × Bool :=
  match h.command m with
  | some j => ({ h with jh := j }, true)
  | none => (h, false)

/-- What a motor does with a request to enter a mode: it enters the mode or it fails and is left in some mode
(canopen_402/src/motor.cpp:254-261 and 291-357; the request for `No_Mode` always succeeds, lines 293-300). -/
inductive Answer where
  | entered
  | failed (left : Mode)
  deriving DecidableEq, Repr

/-- `Layer::halt` of the motor, state only (canopen_master/include/canopen_master/layer.h:103-109). -/
def haltState (s : LayerState) : LayerState := if LayerState.halt.toNat < s.toNat then .error else s

/-- `switchMode` (canopen_motor_node/src/handle_layer.cpp:71-83). -/
def Handle.switchMode (h : Handle) (m : Mode) (a : Answer) : Handle × Bool :=
  if h.mode = m then h.select m
  else
    match (if m = 0 then Answer.entered else a) with
    | .entered => { h with forward := false, jh := none, mode := m }.select m
    | .failed left => ({ h with forward := false, jh := none, mode := left, state := haltState h.state }, false)

/-- `forwardForMode` (canopen_motor_node/src/handle_layer.cpp:85-91). -/
def Handle.forwardForMode (h : Handle) (m : Mode) : Handle × Bool :=
  if h.mode = m then ({ h with forward := true }, true) else (h, false)

/-- The command handle whose value `handleWrite` passes to the motor's `setTarget`
(canopen_motor_node/src/handle_layer.cpp:146-170); `state` is the state of the handle layer. -/
def Handle.sends (h : Handle) (state : LayerState) : Option Kind :=
  if state = .ready then (if h.forward then h.jh else none) else none

/-- `SwitchData` (canopen_motor_node/include/canopen_motor_node/robot_layer.h:37-41); the handle pointer is represented
by the joint name it was looked up with. -/
structure SwitchData where
  /-- joint, stands for the pointer to the handle -/
  joint : String
  /-- mode to switch to -/
  mode : Mode
  /-- limits -/
  enforce : Bool
  deriving DecidableEq, Repr

/-- `hardware_interface::ControllerInfo` as used in `prepareSwitch` (canopen_motor_node/src/robot_layer.cpp:120-130):
name and for each interface the claimed resources. -/
structure Controller where
  /-- name -/
  name : String
  /-- `claimed_resources` -/
  claims : List (String × List String)
  deriving DecidableEq, Repr

/-- Parameters of a controller (canopen_motor_node/src/robot_layer.cpp:88-91 and 149). -/
structure Params where
  /-- `required_drive_mode` -/
  defaultMode : Option Mode
  /-- `required_drive_modes` -/
  modes : Option (List (String × Mode))
  /-- `enforce_limits` -/
  enforce : Option Bool
  deriving DecidableEq, Repr

/-- `ModeLookup::hasModes` (canopen_motor_node/src/robot_layer.cpp:92). -/
def Params.hasModes (p : Params) : Bool := p.defaultMode.isSome || p.modes.isSome

/-- `ModeLookup::hasMixedModes` (canopen_motor_node/src/robot_layer.cpp:93). -/
def Params.hasMixedModes (p : Params) : Bool := p.modes.isSome

/-- `ModeLookup::getMode` (canopen_motor_node/src/robot_layer.cpp:94-104). -/
def Params.getMode (p : Params) (joint : String) : Option Mode :=
  match (p.modes.getD []).lookup joint with
  | some m => some m
  | none => p.defaultMode

/-- `RobotLayer` (canopen_motor_node/include/canopen_motor_node/robot_layer.h:35-44): `handles_` and `switch_map_`;
`asked` counts the requests to motors and indexes their answers. -/
structure Robot where
  /-- `handles_` -/
  handles : String → Option Handle
  /-- `switch_map_` -/
  switchMap : String → Option (List SwitchData)
  /-- number of requests made to motors so far -/
  asked : Nat

/-- `add` (canopen_motor_node/src/robot_layer.cpp:26-29): `insert` keeps an existing handle. -/
def Robot.add (r : Robot) (name : String) (h : Handle) : Robot :=
  { r with handles := fun n => if n = name then some ((r.handles n).getD h) else r.handles n }

/-- Write access to one handle (pointer dereference in canopen_motor_node/src/robot_layer.cpp:194-232). -/
def Robot.setHandle (r : Robot) (j : String) (h : Handle) : Robot :=
  { r with handles := fun n => if n = j then some h else r.handles n }

/-- One claimed resource of the admission loop (canopen_motor_node/src/robot_layer.cpp:130-174): `seen` are the
interfaces claimed so far, the result is `none` if the request is refused. -/
def admitOne (r : Robot) (p : Params) (iface joint : String) (seen : List String) (acc : List SwitchData) :
    Option (List String × List SwitchData) :=
  let seen' := if iface ∈ seen then seen else iface :: seen
  if !p.hasModes then none
  else if 1 < seen'.length ∧ !p.hasMixedModes then none
  else
    match r.handles joint with
    | none => none
    | some h =>
      match p.getMode joint with
      | none => none
      | some m =>
        if hasConflict iface m then none
        else
          match h.canSwitch m with
          | .notSupported => none
          | .notReady => none
          | _ => some (seen', acc ++ [⟨joint, m, p.enforce.getD true⟩])

/-- All claims flattened in iteration order (canopen_motor_node/src/robot_layer.cpp:127-129). -/
def Controller.flat (c : Controller) : List (String × String) := c.claims.flatMap (fun cl => cl.2.map (fun j => (cl.1, j)))

/-- The loop over all claims of a controller (canopen_motor_node/src/robot_layer.cpp:128-176). -/
def admitLoop (r : Robot) (p : Params) : List (String × String) → List String → List SwitchData → Option (List SwitchData)
  | [], _, acc => some acc
  | (i, j) :: rest, seen, acc =>
    match admitOne r p i j seen acc with
    | none => none
    | some (seen', acc') => admitLoop r p rest seen' acc'

/-- Admission of one controller (canopen_motor_node/src/robot_layer.cpp:121-177). -/
def admit (r : Robot) (p : Params) (c : Controller) : Option (List SwitchData) := admitLoop r p c.flat [] []

/-- `switch_map_.insert`: an existing record is kept (canopen_motor_node/src/robot_layer.cpp:178). -/
def Robot.record (r : Robot) (name : String) (sw : List SwitchData) : Robot :=
  { r with switchMap := fun n => if n = name then some ((r.switchMap n).getD sw) else r.switchMap n }

/-- The loop over the controllers to start (canopen_motor_node/src/robot_layer.cpp:120-179); `false` is the early return. -/
def admitAll (params : String → Params) : Robot → List Controller → Robot × Bool
  | r, [] => (r, true)
  | r, c :: cs =>
    match admit r (params c.name) c with
    | none => (r, false)
    | some sw => admitAll params (r.record c.name sw) cs

/-- Call of `switchMode` for a recorded handle (canopen_motor_node/src/robot_layer.cpp:194, 197, 212, 232). The handle
exists for every recorded joint; an unknown joint is reported as failure. -/
def Robot.switchMode (ans : Nat → Answer) (r : Robot) (j : String) (m : Mode) : Robot × Bool :=
  match r.handles j with
  | none => (r, false)
  | some h =>
    let (h', ok) := h.switchMode m (ans r.asked)
    ({ r.setHandle j h' with asked := r.asked + 1 }, ok)

/-- `switchMode(No_Mode)` for a list of joints (canopen_motor_node/src/robot_layer.cpp:193-195 and 211-213). -/
def stopAll (ans : Nat → Answer) (r : Robot) : List String → Robot
  | [] => r
  | j :: js => stopAll ans (r.switchMode ans j 0).1 js

/-- `enableLimits` (canopen_motor_node/src/handle_layer.cpp:213-215). -/
def Robot.enableLimits (r : Robot) (j : String) (b : Bool) : Robot :=
  match r.handles j with
  | none => r
  | some h => r.setHandle j { h with limits := b }

/-- Insertion into the set `to_stop` (canopen_motor_node/src/robot_layer.cpp:187 and 201). -/
def insertAll (s : List String) (js : List String) : List String := js.foldl (fun s j => if j ∈ s then s else s ++ [j]) s

/-- Second loop over the joints of a controller (canopen_motor_node/src/robot_layer.cpp:196-209): returns the set of
joints to stop and whether all joints were switched. -/
def startLoop (ans : Nat → Answer) (all : List String) : Robot → List String → List SwitchData → Robot × List String × Bool
  | r, stop, [] => (r, stop, true)
  | r, stop, d :: ds =>
    match r.switchMode ans d.joint d.mode with
    | (r', false) => (r', insertAll stop all, false)
    | (r', true) => startLoop ans all (r'.enableLimits d.joint d.enforce) (stop.erase d.joint) ds

/-- Start of one controller (canopen_motor_node/src/robot_layer.cpp:191-209). -/
def startOne (ans : Nat → Answer) (r : Robot) (stop : List String) (sw : List SwitchData) : Robot × List String × Bool :=
  let js := sw.map (·.joint)
  startLoop ans js (stopAll ans r js) stop sw

/-- The loop over all controllers to start (canopen_motor_node/src/robot_layer.cpp:190-210). `switch_map_.at` cannot
throw here, all names have been recorded. -/
def startAll (ans : Nat → Answer) : Robot → List String → List String → List Controller → Robot × List String × List String
  | r, stop, failed, [] => (r, stop, failed)
  | r, stop, failed, c :: cs =>
    let (r', stop', ok) := startOne ans r stop ((r.switchMap c.name).getD [])
    startAll ans r' stop' (if ok then failed else failed ++ [c.name]) cs

/-- Joints of the controllers to stop (canopen_motor_node/src/robot_layer.cpp:184-189). -/
def stopJoints (r : Robot) (cs : List Controller) : List String :=
  cs.foldl (fun s c => insertAll s (((r.switchMap c.name).getD []).map (·.joint))) []

/-- `prepareSwitch` (canopen_motor_node/src/robot_layer.cpp:106-220). The iteration order of the unordered set `to_stop`
is the parameter `order`. Result: new state, return value, controllers passed to `stopControllers`. -/
def Robot.prepareSwitch (params : String → Params) (ans : Nat → Answer) (order : List String → List String)
    (r : Robot) (start stop : List Controller) : Robot × Bool × List String :=
  if stop.any (fun c => (r.switchMap c.name).isNone) then (r, false, [])
  else
    match admitAll params r start with
    | (r1, false) => (r1, false, [])
    | (r1, true) =>
      let (r2, toStop, failed) := startAll ans r1 (stopJoints r1 stop) [] start
      (stopAll ans r2 (order toStop), true, failed)

/-- The inner loop of a failed `doSwitch`: `switchMode(No_Mode)` is called once per joint of the controller, but always
for the joint that failed (canopen_motor_node/src/robot_layer.cpp:231-233). -/
def stopSame (ans : Nat → Answer) (r : Robot) (j : String) : Nat → Robot
  | 0 => r
  | n + 1 => stopSame ans (r.switchMode ans j 0).1 j n

/-- Loop over the joints of one controller in `doSwitch` (canopen_motor_node/src/robot_layer.cpp:227-236). -/
def forwardLoop (ans : Nat → Answer) (n : Nat) : Robot → List SwitchData → Robot × Bool
  | r, [] => (r, true)
  | r, d :: ds =>
    match r.handles d.joint with
    | none => (r, false)
    | some h =>
      match h.forwardForMode d.mode with
      | (h', true) => forwardLoop ans n (r.setHandle d.joint h') ds
      | (_, false) => (stopSame ans r d.joint n, false)

/-- `doSwitch` (canopen_motor_node/src/robot_layer.cpp:222-246): new state and the controllers passed to
`stopControllers`. -/
def Robot.doSwitch (ans : Nat → Answer) : Robot → List String → List Controller → Robot × List String
  | r, failed, [] => (r, failed)
  | r, failed, c :: cs =>
    match r.switchMap c.name with
    | none => doSwitch ans r (failed ++ [c.name]) cs
    | some sw =>
      match forwardLoop ans sw.length r sw with
      | (r', true) => doSwitch ans r' failed cs
      | (r', false) => doSwitch ans r' (failed ++ [c.name]) cs

end Verif.Rob

namespace Verif.Rob
open Verif.Lay

/-- A handle layer used by two threads: the service thread switches modes, the loop thread forwards and writes.
`pending` is the mode a running `switchMode` waits for (canopen_motor_node/src/handle_layer.cpp:71-83). -/
structure HState where
  /-- the handle layer -/
  h : Handle
  /-- running mode switch -/
  pending : Option Mode

/-- What can happen to a handle layer (canopen_motor_node/src/handle_layer.cpp:71-91, 146-170). -/
inductive HEv where
  /-- registration at the interfaces (canopen_motor_node/src/robot_layer.cpp:68-70) -/
  | register
  /-- `switchMode` is called and runs up to `enterModeAndWait` (canopen_motor_node/src/handle_layer.cpp:71-75) -/
  | begin (m : Mode)
  /-- `enterModeAndWait` returns (canopen_motor_node/src/handle_layer.cpp:75-82) -/
  | finish (a : Answer)
  /-- `forwardForMode` (canopen_motor_node/src/handle_layer.cpp:85-91) -/
  | forward (m : Mode)
  /-- the motor drops its mode: `No_Mode` at shutdown, after init and at halts, `Homing` during init
  (canopen_402/src/motor.cpp:190-243, 471-513 and 514-520) -/
  | drop (homing : Bool)
  /-- `handleWrite` in the given state of the handle layer (canopen_motor_node/src/handle_layer.cpp:146-170) -/
  | write (s : LayerState)
  deriving Repr

/-- Step of a handle layer: new state and the command handle whose value is sent to the motor
(canopen_motor_node/src/handle_layer.cpp:71-91 and 146-170). -/
def hstep (s : HState) : HEv → HState × Option Kind
  | .register => ({ s with h := s.h.registerAll }, none)
  | .begin m =>
    match s.pending with
    | some _ => (s, none)
    | none =>
      if s.h.mode = m then ({ s with h := (s.h.select m).1 }, none)
      else ({ h := { s.h with forward := false, jh := none }, pending := some m }, none)
  | .finish a =>
    match s.pending with
    | none => (s, none)
    | some m =>
      match (if m = 0 then Answer.entered else a) with
      | .entered => ({ h := ({ s.h with mode := m }.select m).1, pending := none }, none)
      | .failed left => ({ h := { s.h with mode := left, state := haltState s.h.state }, pending := none }, none)
  | .forward m => ({ s with h := (s.h.forwardForMode m).1 }, none)
  | .drop homing => ({ s with h := { s.h with mode := if homing then 6 else 0 } }, none)
  | .write st => (s, s.h.sends st)

/-- A whole history of a handle layer (canopen_motor_node/src/handle_layer.cpp:71-91 and 146-170). -/
def hrun (s : HState) : List HEv → HState
  | [] => s
  | e :: es => hrun (hstep s e).1 es

end Verif.Rob
