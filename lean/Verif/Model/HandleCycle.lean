import Verif.Model.Robot

/-!
# Commands, measured values and limits of one joint over the control cycles
`canopen_motor_node`: handle layer, controller manager layer and the variables that mirror objects.
-/

namespace Verif.Cyc
open Verif.Lay Verif.Rob
open Verif.M402 (Dbl)

/-- Where the loop thread is in a write cycle (canopen_motor_node/src/controller_manager_layer.cpp:13-34, then
canopen_motor_node/src/handle_layer.cpp:146-170; the layers are written in reverse order,
canopen_master/include/canopen_master/layer.h:234). -/
inductive Pc where
  /-- outside of the two functions -/
  | top
  /-- inside `cm_->update(now, period, reset)` -/
  | upd (reset : Bool)
  /-- the controller manager layer is done -/
  | mid
  /-- `forward_command_` was loaded, `jh_` is next (canopen_motor_node/src/handle_layer.cpp:149) -/
  | seen (fwd : Bool)
  deriving DecidableEq, Repr

/-- One `HandleLayer` (canopen_motor_node/include/canopen_motor_node/handle_layer.h:90-137) and the
`ControllerManagerLayer` (canopen_motor_node/include/canopen_motor_node/controller_manager_layer.h:19-27). -/
structure St where
  /-- mode switching state: `jh_`, `forward_command_`, `commands_`, `enable_limits_` -/
  hs : HState
  /-- layer state of the handle layer -/
  st : LayerState
  /-- `pos_`, `vel_`, `eff_` -/
  meas : Kind → Dbl
  /-- `cmd_pos_`, `cmd_vel_`, `cmd_eff_` -/
  cmd : Kind → Dbl
  /-- layer state of the controller manager layer -/
  cmSt : LayerState
  /-- `cm_` is set -/
  cm : Bool
  /-- `recover_` -/
  recover : Bool
  /-- the loop thread -/
  pc : Pc

/-- What can happen (canopen_motor_node/src/handle_layer.cpp:138-215,
canopen_motor_node/src/controller_manager_layer.cpp:7-53). -/
inductive Ev where
  /-- `handleRead`; `m` are the values of the converters and filters (canopen_motor_node/src/handle_layer.cpp:138-145) -/
  | read (m : Kind → Dbl)
  /-- `handleInit` with filters that can be configured (canopen_motor_node/src/handle_layer.cpp:189-204) -/
  | init (m : Kind → Dbl)
  /-- the layer state of the handle layer changes (canopen_master/include/canopen_master/layer.h:84-124) -/
  | layer (s : LayerState)
  /-- mode switching (canopen_motor_node/src/handle_layer.cpp:71-91) -/
  | ctl (e : HEv)
  /-- `enableLimits` (canopen_motor_node/src/handle_layer.cpp:213-215) -/
  | limits (b : Bool)
  /-- the loop thread enters `ControllerManagerLayer::handleWrite` up to the call of `update`
  (canopen_motor_node/src/controller_manager_layer.cpp:13-30) -/
  | begin
  /-- a controller writes a command (within canopen_motor_node/src/controller_manager_layer.cpp:30) -/
  | set (k : Kind) (v : Dbl)
  /-- `update` returns, `enforceLimits` is run (canopen_motor_node/src/controller_manager_layer.cpp:31,
  canopen_motor_node/src/handle_layer.cpp:206-211); `f` is what the limits handles (joint_limits_interface, not part
  of this code) make of the commands -/
  | enforce (f : Kind → Dbl → Dbl)
  /-- `HandleLayer::handleWrite` up to loading `forward_command_` (canopen_motor_node/src/handle_layer.cpp:146-149) -/
  | look
  /-- the rest of `HandleLayer::handleWrite` (canopen_motor_node/src/handle_layer.cpp:149-170) -/
  | act
  /-- `ControllerManagerLayer::handleInit` (canopen_motor_node/src/controller_manager_layer.cpp:36-44) -/
  | cmInit
  /-- `ControllerManagerLayer::handleRecover` (canopen_motor_node/src/controller_manager_layer.cpp:46-49) -/
  | cmRecover
  /-- `ControllerManagerLayer::handleShutdown` (canopen_motor_node/src/controller_manager_layer.cpp:51-53) -/
  | cmShutdown
  /-- the layer state of the controller manager layer changes (canopen_master/include/canopen_master/layer.h:84-124) -/
  | cmLayer (s : LayerState)

/-- Observable effects (canopen_motor_node/src/handle_layer.cpp:146-170, 206-211,
canopen_motor_node/src/controller_manager_layer.cpp:13-53). -/
inductive Out where
  /-- controllers are updated, with or without being restarted -/
  | update (reset : Bool)
  /-- limits handles are reset, and enforced -/
  | limits (reset enforced : Bool)
  /-- `motor_->setTarget(v)`, `v` the converted command of `k` -/
  | sent (k : Kind) (v : Dbl)
  /-- "controller_manager is not intialized" -/
  | error
  /-- "controller_manager is already intialized" -/
  | warn
  /-- the controller manager is destroyed while it runs (undefined behaviour) -/
  | ub

/-- The tracking of the commands in `handleWrite` (canopen_motor_node/src/handle_layer.cpp:151-168): every command but
the one of the handle in use is set to the measured value. -/
def track (used : Option Kind) (meas cmd : Kind → Dbl) : Kind → Dbl :=
  fun k => if used = some k then cmd k else meas k

/-- One step; `conv k` is the target converter of handle `k` (`conv_target_pos_` …,
canopen_motor_node/src/handle_layer.cpp:38-57). A step the loop thread is not at does nothing. Sources:
canopen_motor_node/src/handle_layer.cpp:138-215, canopen_motor_node/src/controller_manager_layer.cpp:7-53. Simplified:
the commands are written by controllers within `update` only; `update` destroys and creates no controllers of its own;
the warning "unsupported mode active" cannot occur as `jh_` is one of the three handles or null; time is left out. -/
def step (conv : Kind → Dbl → Dbl) (s : St) : Ev → St × List Out
  | .read m => if LayerState.shutdown.toNat < s.st.toNat then ({ s with meas := m }, []) else (s, [])
  | .init m => ({ s with meas := m }, [])
  | .layer l => ({ s with st := l }, [])
  | .ctl e => ({ s with hs := (hstep s.hs e).1 }, [])
  | .limits b => ({ s with hs := { s.hs with h := { s.hs.h with limits := b } } }, [])
  | .begin =>
    if s.pc = .top then
      if LayerState.shutdown.toNat < s.cmSt.toNat then
        if s.cm then ({ s with pc := .upd s.recover, recover := false }, [.update s.recover])
        else ({ s with pc := .mid }, [.error])
      else ({ s with pc := .mid }, [])
    else (s, [])
  | .set k v =>
    match s.pc with
    | .upd _ => ({ s with cmd := fun k' => if k' = k then v else s.cmd k' }, [])
    | _ => (s, [])
  | .enforce f =>
    match s.pc with
    | .upd r =>
      if s.hs.h.limits then ({ s with cmd := fun k => f k (s.cmd k), pc := .mid }, [.limits r true])
      else ({ s with pc := .mid }, [.limits r false])
    | _ => (s, [])
  | .look =>
    if s.pc = .mid then
      if s.st = .ready then ({ s with pc := .seen s.hs.h.forward }, []) else ({ s with pc := .top }, [])
    else (s, [])
  | .act =>
    match s.pc with
    | .seen fwd =>
      match (if fwd then s.hs.h.jh else none) with
      | some k => ({ s with pc := .top, cmd := track (some k) s.meas s.cmd }, [.sent k (conv k (s.cmd k))])
      | none => ({ s with pc := .top, cmd := track none s.meas s.cmd }, [])
    | _ => (s, [])
  | .cmInit => if s.cm then (s, [.warn]) else ({ s with cm := true, recover := true }, [])
  | .cmRecover => if s.cm then ({ s with recover := true }, []) else (s, [.error])
  | .cmShutdown =>
    match s.pc with
    | .upd _ => ({ s with cm := false }, if s.cm then [.ub] else [])
    | _ => ({ s with cm := false }, [])
  | .cmLayer l => ({ s with cmSt := l }, [])

/-- A schedule (canopen_chain_node/src/ros_chain.cpp:74-92 beside the service calls of lines 133-247): final state and
everything observed, in order. -/
def run (conv : Kind → Dbl → Dbl) (s : St) : List Ev → St × List Out
  | [] => (s, [])
  | e :: es => ((run conv (step conv s e).1 es).1, (step conv s e).2 ++ (run conv (step conv s e).1 es).2)

/-! ## Variables that mirror objects -/

/-- `getters_` (canopen_motor_node/include/canopen_motor_node/handle_layer.h:36-53): for each object the value behind
`val_ptr`. The order of the hash map is not fixed; nothing depends on it. `κ` are the keys of objects. -/
abbrev Vars (κ : Type) := List (κ × Dbl)

/-- `getVariable` (canopen_motor_node/include/canopen_motor_node/handle_layer.h:69-82 with `func`, lines 56-59 and
85-88): the object whose value the returned pointer refers to, `none` is the null pointer. `parse` is the constructor of
the key (`none`: it throws), `kind` tells for a key whether the object can be mirrored: `none` if looking it up throws,
`some false` for texts and domains. `junk` is the content of the fresh `double` (line 41). -/
def getVariable {κ : Type} [DecidableEq κ] (parse : List Char → Option κ) (kind : κ → Option Bool) (junk : Dbl)
    (vs : Vars κ) (n : List Char) : Vars κ × Option κ :=
  if ['o', 'b', 'j'] <+: n then
    match parse (n.drop 3) with
    | none => (vs, none)
    | some key =>
      if (vs.lookup key).isSome then (vs, some key)
      else
        match kind key with
        | some true => ((key, junk) :: vs, some key)
        | _ => (vs, none)
  else (vs, none)

/-- `sync` (canopen_motor_node/include/canopen_motor_node/handle_layer.h:61-68 with `readObject`, lines 42-47): every
object is read; a value that cannot be read is kept. `get` is the outcome of reading each object, as a `double`. -/
def sync {κ : Type} (get : κ → Option Dbl) : Vars κ → Vars κ × Bool
  | [] => ([], true)
  | (k, v) :: vs =>
    match get k with
    | some x => ((k, x) :: (sync get vs).1, (sync get vs).2)
    | none => ((k, v) :: (sync get vs).1, false)

/-- Value a converter sees for a variable (`createVariable`,
canopen_motor_node/include/canopen_motor_node/unit_converter.h:44-52): not-a-number if there is no object behind it. -/
def valueOf {κ : Type} [DecidableEq κ] (vs : Vars κ) : Option κ → Dbl
  | some k => (vs.lookup k).getD .nan
  | none => .nan

end Verif.Cyc
