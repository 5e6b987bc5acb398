import Verif.Model.Robot
import Verif.Model.Pdo

/-!
# From the frames of a drive to the state of a joint
canopen_motor_node/include/canopen_motor_node/handle_layer.h, canopen_motor_node/src/handle_layer.cpp, canopen_master/src/pdo.cpp

The objects of a drive that are mapped to an RPDO (`Verif.Pdo`), what the storage holds of them, the variables that mirror them, and the position, velocity
and effort that controllers see.
-/

namespace Verif.Meas
open Verif Verif.Pdo
open Verif.M402 (Dbl)
open Verif.Rob (Kind)

/-- `access<T>()` for an integer type on a little-endian host, two's complement if it is signed (canopen_master/include/canopen_master/objdict.h:301-306):
the value, from the last byte down -/
def valueOf (signed : Bool) (bytes : List Byte) : Int :=
  let n : Nat := bytes.foldr (fun b acc => b.toNat + 256 * acc) 0
  if signed && decide (128 * 256 ^ (bytes.length - 1) ≤ n) then (n : Int) - 256 ^ bytes.length else n

/-- How the drive is connected (canopen_master/src/pdo.cpp:104-150, canopen_motor_node/src/handle_layer.cpp:26-58): the objects mapped to the RPDO, its frame
and transmission type, which objects have signed types, the places of the objects the conversions name, the conversions with their filters as functions of these
variables, and the conversion of integers to `double` (exact up to 53 bits).  Simplified: the objects named are integers mapped to one RPDO; filters that
remember earlier values are left out. -/
structure Wiring where
  objs : List Obj
  frame : Frame
  ty : Byte
  signed : Nat → Bool
  names : List Nat
  dbl : Int → Dbl
  conv : Kind → (Nat → Dbl) → Dbl

/-- the RPDO, the storage's buffers of the mapped objects (canopen_master/include/canopen_master/objdict.h:294-295), the variables
(canopen_motor_node/include/canopen_motor_node/handle_layer.h:36-53), and `pos_`, `vel_`, `eff_` (92) -/
structure Joint where
  rx : Rpdo
  held : Nat → List Byte
  vars : Nat → Dbl
  meas : Kind → Dbl

/-- after the PDOs were set up (canopen_master/src/pdo.cpp:212-231, canopen_master/src/objdict.cpp:343-361) with the objects' values at that time; the
variables and the measured values are uninitialised memory (canopen_motor_node/include/canopen_motor_node/handle_layer.h:41, 92) -/
def Joint.fresh (W : Wiring) (vars : Nat → Dbl) (meas : Kind → Dbl) : Joint :=
  { rx := Rpdo.fresh W.frame W.ty W.objs,
    held := fun i => ((W.objs[i]?).bind Obj.init).getD (List.replicate ((W.objs[i]?).elim 0 Obj.size) 0#8),
    vars := vars, meas := meas }

/-- What can happen: a frame arrives (canopen_master/src/pdo.cpp:298-324), an object is read by anybody else, as the status word by the motor
(canopen_402/src/motor.cpp:380-381), and the steps of `HandleLayer::handleRead` (canopen_motor_node/src/handle_layer.cpp:138-145): one object is copied
to its variable (handle_layer.h:42-47, 61-68), and the conversions are evaluated -/
inductive Ev where
  | frame (f : Frame)
  | get (i : Nat)
  | sync (i : Nat)
  | eval

/-- `Data::get` of a mapped object with the read delegate of the RPDO (canopen_master/include/canopen_master/objdict.h:339-354,
canopen_master/src/pdo.cpp:361-374): the value, `none` for an exception -/
def Joint.read (j : Joint) (i : Nat) : Outcome BErr (Joint × Option (List Byte)) :=
  match j.rx.read i (j.held i) with
  | .ok (r, d) => .ok ({ j with rx := r, held := fun k => if k = i then d else j.held k }, some d)
  | .throws _ => .ok (j, none)
  | .ub => .ub

/-- one step (canopen_motor_node/src/handle_layer.cpp:138-145, canopen_motor_node/include/canopen_motor_node/handle_layer.h:42-47, 61-68,
canopen_master/src/pdo.cpp:298-324); an object that cannot be read leaves its variable as it is -/
def Joint.step (W : Wiring) (j : Joint) : Ev → Outcome BErr Joint
  | .frame f =>
    match j.rx.handleFrame f with
    | .ok r => .ok { j with rx := r }
    | .throws e => .throws e
    | .ub => .ub
  | .get i =>
    match j.read i with
    | .ok (j', _) => .ok j'
    | .throws e => .throws e
    | .ub => .ub
  | .sync i =>
    match j.read i with
    | .ok (j', some d) => .ok { j' with vars := fun k => if k = i then W.dbl (valueOf (W.signed i) d) else j'.vars k }
    | .ok (j', none) => .ok j'
    | .throws e => .throws e
    | .ub => .ub
  | .eval => .ok { j with meas := fun k => W.conv k j.vars }

/-- a history (canopen_chain_node/src/ros_chain.cpp:74-92, beside the receiving thread) -/
def Joint.run (W : Wiring) (j : Joint) : List Ev → Outcome BErr Joint
  | [] => .ok j
  | e :: es =>
    match j.step W e with
    | .ok j' => j'.run W es
    | .throws x => .throws x
    | .ub => .ub

/-- the steps of `HandleLayer::handleRead` in one cycle (canopen_motor_node/src/handle_layer.cpp:138-145, the order of the objects is that of a hash
map, any order is allowed by `names`) -/
def cycle (W : Wiring) : List Ev := W.names.map .sync ++ [.eval]

/-- the steps of `HandleLayer::handleRead` the first time, from `handleInit` (canopen_motor_node/src/handle_layer.cpp:190-204): muParser asks for the variables of an
expression when it first evaluates it (canopen_motor_node/include/canopen_motor_node/unit_converter.h:20, 31, 39, 44-51), so `getters_` is empty when `sync` runs.
(muParser is not part of the repository; this is how version 2 works.) -/
def firstCycle : List Ev := [.eval]

end Verif.Meas
