import Verif.Model.Setup

/-!
# Setting up a chain of motors
canopen_motor_node/src/motor_chain.cpp:10-84, with the constructors of the handle layers (canopen_motor_node/src/handle_layer.cpp:26-57, 172-188), the
joints of the robot layer (canopen_motor_node/src/robot_layer.cpp:26-29) and the control period (canopen_motor_node/src/controller_manager_layer.cpp:13-53)
-/

namespace Verif.MCh
open Verif Verif.Merge Verif.Setup

/-- the result of an allocator: a motor, a null pointer or a `std::exception` (canopen_motor_node/src/motor_chain.cpp:29-41) -/
inductive Alloc where
  | motor | null | throws
  deriving DecidableEq

/-- What is outside: the joints of the robot description (canopen_motor_node/include/canopen_motor_node/robot_layer.h:52), the plugins that make
motors from allocator, name, node and settings (canopen_motor_node/src/motor_chain.cpp:30), whether an expression is accepted by the parser
(canopen_motor_node/include/canopen_motor_node/unit_converter.h:31), and the configuration of filters of a joint
(canopen_motor_node/src/handle_layer.cpp:175; `none`: an exception). -/
structure Outside where
  joints : String → Bool
  alloc : String → String → Byte → OD.Dict → Option XVal → Alloc
  parses : String → Bool
  filters : String → String → XVal → Option Bool

/-- the expressions of a joint: to and from the device (canopen_motor_node/src/handle_layer.cpp:32-33) -/
structure Exprs where
  posTo : String
  posFrom : String
  velTo : String
  velFrom : String
  effTo : String
  effFrom : String
  deriving DecidableEq

/-- a motor with its handle layer (canopen_motor_node/src/motor_chain.cpp:12-56): `id` and `dict` are those of its node -/
structure MotorSetup where
  name : String
  joint : String
  allocator : String
  settings : Option XVal
  exprs : Exprs
  id : Byte
  dict : OD.Dict

/-- the motors (`motors_`), the members of the robot layer, and its joints by name, `handles_` (canopen_motor_node/src/motor_chain.cpp:44, 55,
canopen_motor_node/include/canopen_motor_node/robot_layer.h:35-36) -/
structure Motors where
  motors : List MotorSetup
  group : List MotorSetup
  handles : List (String × MotorSetup)

/-- a string parameter that may be missing; any other value throws, which nobody catches (canopen_motor_node/src/motor_chain.cpp:14, 22,
canopen_motor_node/src/handle_layer.cpp:41-48) -/
def textParam (w : World) (m : Fields) (key dflt : String) : Res String :=
  match m.get? key with
  | none => .ok dflt
  | some (.struct _) => .escapes
  | some (.leaf n) => match w.leaf n with
    | .str s => .ok s
    | _ => .escapes

/-- canopen_motor_node/src/handle_layer.cpp:30-56: the expressions; obsolete parameters and expressions the parser refuses throw -/
def exprs (w : World) (o : Outside) (m : Fields) : Res Exprs :=
  if (m.get? "pos_unit_factor").isSome || (m.get? "vel_unit_factor").isSome || (m.get? "eff_unit_factor").isSome then .escapes
  else
    (textParam w m "pos_to_device" "rint(rad2deg(pos)*1000)").bind fun p2d =>
    (textParam w m "pos_from_device" "deg2rad(obj6064)/1000").bind fun p2r =>
    (textParam w m "vel_to_device" "rint(rad2deg(vel)*1000)").bind fun v2d =>
    (textParam w m "vel_from_device" "deg2rad(obj606C)/1000").bind fun v2r =>
    (textParam w m "eff_to_device" "rint(eff)").bind fun e2d =>
    (textParam w m "eff_from_device" "0").bind fun e2r =>
    if o.parses p2d && o.parses v2d && o.parses e2d && o.parses p2r && o.parses v2r && o.parses e2r then .ok ⟨p2d, p2r, v2d, v2r, e2d, e2r⟩
    else .escapes

/-- canopen_motor_node/src/handle_layer.cpp:172-182 `prepareFilter` -/
def prepareFilter (o : Outside) (m : Fields) (joint filter : String) : Res Unit :=
  match m.get? filter with
  | none => .ok ()
  | some v => match o.filters joint filter v with
    | none => .escapes
    | some false => .refused
    | some true => .ok ()

/-- canopen_motor_node/src/handle_layer.cpp:184-188 `prepareFilters` -/
def prepareFilters (o : Outside) (m : Fields) (joint : String) : Res Unit :=
  (prepareFilter o m joint "position_filters").bind fun _ =>
  (prepareFilter o m joint "velocity_filters").bind fun _ =>
  prepareFilter o m joint "effort_filters"

/-- canopen_motor_node/src/robot_layer.cpp:26-29 `RobotLayer::add`: the handle becomes a member; `insert` keeps an existing joint -/
def Motors.addHandle (c : Motors) (s : MotorSetup) : Motors :=
  { c with group := c.group ++ [s], handles := if (c.handles.find? fun p => p.1 = s.joint).isSome then c.handles else c.handles ++ [(s.joint, s)] }

/-- the handle of a joint (`handles_.find`, canopen_motor_node/src/robot_layer.cpp:140) -/
def Motors.find (c : Motors) (joint : String) : Option MotorSetup := (c.handles.find? fun p => p.1 = joint).map (·.2)

/-- canopen_motor_node/src/motor_chain.cpp:10-59 `nodeAdded` for the node with the parameters `m`.  `joint` is a reference to `name`, so the motor is
named after the joint.  Simplified: what is left behind by a refusal does not matter, the process ends
(canopen_motor_node/src/canopen_motor_chain_node.cpp:16-18). -/
def nodeAdded (w : World) (o : Outside) (m : Fields) (id : Byte) (d : OD.Dict) (c : Motors) : Res Motors :=
  match stringOf w m "name" with
  | none => .escapes
  | some name =>
    (textParam w m "joint" name).bind fun joint =>
    if !o.joints joint then .refused
    else
      (textParam w m "motor_allocator" "canopen::Motor402::Allocator").bind fun a =>
      match o.alloc a (joint ++ "_motor") id d (m.get? "motor_layer") with
      | .throws => .refused
      | .null => .refused
      | .motor =>
        (exprs w o m).bind fun e =>
        (prepareFilters o m joint).bind fun _ =>
        let s : MotorSetup := { name := joint ++ "_motor", joint := joint, allocator := a, settings := m.get? "motor_layer", exprs := e, id := id, dict := d }
        .ok (Motors.addHandle { c with motors := c.motors ++ [s] } s)

/-- canopen_chain_node/src/ros_chain.cpp:472-574 `setup_node`, as in `Verif.Setup.setupNode`, with `nodeAdded` of the motor chain (536) -/
def setupNode (w : World) (o : Outside) (params : XVal) (name : Nat) (defaults : XVal) (c : Motors) : Res (NodeSetup × Motors) :=
  match idOf w params with
  | none => .refused
  | some i =>
    match merge params defaults with
    | none => .escapes
    | some (.leaf _) => .escapes
    | some (.struct m0) =>
      let m := withName m0 (.leaf name)
      (overlay w m).bind fun ov =>
      match stringOf w m "eds_file" with
      | none => .refused
      | some eds =>
        match w.load (inPackage w m eds) ov with
        | .throws => .escapes
        | .null => .refused
        | .dict d =>
          let id := BitVec.ofInt 8 i
          (nodeAdded w o m id d c).bind fun c' =>
          (optional w m "log" (addLog w.mem d id 0)).bind fun l0 =>
          (optional w m "log_warn" (addLog w.mem d id 1)).bind fun l1 =>
          (optional w m "log_error" (addLog w.mem d id 2)).bind fun l2 =>
          match stringOf w m "name" with
          | none => .escapes
          | some nn =>
            (optional w m "publish" (addPub w.mem d id nn)).bind fun ps =>
            .ok ({ name := nn, id := id, dict := d, logs := l0 ++ l1 ++ l2, pubs := ps }, c')

/-- the loops of canopen_chain_node/src/ros_chain.cpp:455-468 -/
def setupAll (w : World) (o : Outside) (defaults : XVal) : List (Res Nat × XVal) → Nodes → Motors → Res (Nodes × Motors)
  | [], n, c => .ok (n, c)
  | (rn, v) :: l, n, c => rn.bind fun k => (setupNode w o v k defaults c).bind fun r => setupAll w o defaults l (n.add r.1) r.2

/-- canopen_chain_node/src/ros_chain.cpp:441-470 `setup_nodes`; both groups are empty before (canopen_motor_node/src/motor_chain.cpp:62-63) -/
def setupNodes (w : World) (o : Outside) (p : NodesParam) (defaults : XVal) : Res (Nodes × Motors) :=
  match p with
  | .absent => .ub
  | .other => .ub
  | .array l => setupAll w o defaults (l.map fun v => (arrayName w v, v)) ⟨[], []⟩ ⟨[], [], []⟩
  | .struct l => setupAll w o defaults (l.map fun p => (.ok p.1, p.2)) ⟨[], []⟩ ⟨[], [], []⟩

/-- the layers of the stack (canopen_chain_node/src/ros_chain.cpp:329, 378, 443, 609, canopen_motor_node/src/motor_chain.cpp:68-69, 78) -/
inductive Member where
  | can | sync | nodes | motors | robot | controllers | emcy
  deriving DecidableEq, Repr

/-- the chain after its set-up; `period` is the fixed control period in milliseconds, 0 for none (canopen_motor_node/src/motor_chain.cpp:61-84) -/
structure MotorChain where
  members : List Member
  updateMs : Int
  sync : Option Sync.Props
  heartbeat : Option (Frame × M402.Dbl)
  nodes : Nodes
  motors : Motors
  period : Int

/-- canopen_motor_node/src/motor_chain.cpp:61-84 `setup_chain`, called by `setup` (canopen_chain_node/src/ros_chain.cpp:606-611), which adds the
emergency handlers at the end.  `realtime` is the parameter "use_realtime_period", `bus` says whether `setup_bus` succeeds. -/
def setup (w : World) (o : Outside) (getSync : Sync.Props → Made) (junk : Vector Byte 8) (bus : Bool) (realtime : Option Bool) (c : Config) :
    Res MotorChain :=
  if !bus then .refused
  else
    (setupSync getSync c.interval c.update c.overflow).bind fun s =>
    (setupHeartbeat junk c.msg c.rate).bind fun h =>
    (setupNodes w o c.nodes c.defaults).bind fun n =>
    .ok { members := [.can] ++ (if s.sync.isSome then [.sync] else []) ++ [.nodes] ++ [.motors, .robot] ++ [.controllers] ++ [.emcy],
          updateMs := s.updateMs, sync := s.sync, heartbeat := h, nodes := n.1, motors := n.2,
          period := if !(realtime.getD false) then s.updateMs else 0 }

/-- the controller manager layer as far as times go: `fixed_period_`, whether there is a controller manager, `last_time_`
(canopen_motor_node/include/canopen_motor_node/controller_manager_layer.h:20-26).  Times and periods in milliseconds. -/
structure Clock where
  fixed : Int
  cm : Bool
  last : Int

/-- canopen_motor_node/src/controller_manager_layer.cpp:36-44, 51-53 and 13-34: init, shutdown, a write cycle in a state above Shutdown -/
inductive CEv where
  | init (now : Int)
  | shutdown
  | write (now : Int)

/-- one event; the output is the period the controllers are updated with (canopen_motor_node/src/controller_manager_layer.cpp:13-44, 51-53) -/
def Clock.step (c : Clock) : CEv → Clock × List Int
  | .init now => if c.cm then (c, []) else ({ c with cm := true, last := now }, [])
  | .shutdown => ({ c with cm := false }, [])
  | .write now => if !c.cm then (c, []) else ({ c with last := now }, [if c.fixed = 0 then now - c.last else c.fixed])

/-- a history (canopen_motor_node/src/controller_manager_layer.cpp:13-53) -/
def Clock.run (c : Clock) : List CEv → Clock × List Int
  | [] => (c, [])
  | e :: es => ((Clock.run (c.step e).1 es).1, (c.step e).2 ++ (Clock.run (c.step e).1 es).2)

end Verif.MCh
