import Verif.Model.HandleCycle
import Verif.Model.Motor
import Verif.Model.Pdo

/-!
# One axis from the controller to the bus

The joint handle (`Verif.Cyc`), the motor (`Verif.M402`) and the PDOs of the drive (`Verif.Pdo`) put together: a controller's command becomes the
target of the motor, the motor's control word and target are written to objects mapped to a TPDO, which is sent at the end of the write cycle; the
status word and the mode display come from objects mapped to an RPDO.
-/

namespace Verif.Axis
open Verif Verif.Pdo

/-- `*(T*)&buffer.front() = val` for an integer type of `w` bytes on a little-endian host
(canopen_master/include/canopen_master/objdict.h:301-312, 354-380) -/
def toBytes : Nat → Int → List Byte
  | 0, _ => []
  | w + 1, n => BitVec.ofInt 8 n :: toBytes w (n / 256)

/-- `access<T>()` for an unsigned integer type (canopen_master/include/canopen_master/objdict.h:301-306) -/
def ofBytes : List Byte → Nat
  | [] => 0
  | b :: bs => b.toNat + 256 * ofBytes bs

/-- Where the objects of the drive are mapped (canopen_master/src/pdo.cpp:104-150): `tx` and `rx` are the objects of the TPDO and the RPDO, `cw` the
place of object 0x6040 in `tx`, `sw` and `disp` those of 0x6041 and 0x6061 in `rx`, `tgt k` the place in `tx` of the target object of mode `k`
(canopen_402/include/canopen_402/motor.h:183-211; `none`: not mapped) and `width k` the size of its type.  `f0`, `g0` are the frames of the PDOs
and `ty` the transmission type of the RPDO.  Simplified: the control word and the targets are in one TPDO, the status word and the display in one
RPDO. -/
structure Layout where
  tx : List Obj
  rx : List Obj
  f0 : Frame
  g0 : Frame
  ty : Byte
  cw : Nat
  tgt : Nat → Option Nat
  width : Nat → Nat
  sw : Nat
  disp : Nat

/-- The axis: the handle with the controller manager, the motor, the PDOs, and what the storage holds of the control word, the status word and the
mode display (`ObjectStorage::Data::buffer`, `none`: not valid; canopen_master/include/canopen_master/objdict.h:295-299) -/
structure Axis where
  c : Cyc.St
  m : M402.Motor
  tx : TSched
  rx : Rpdo
  cw : Option (List Byte)
  sw : List Byte
  disp : List Byte

/-- what the storage holds at first, and in the PDOs: canopen_master/src/objdict.cpp:343-361, canopen_master/src/pdo.cpp:104-150, 212-253 -/
def Axis.fresh (L : Layout) (c : Cyc.St) (m : M402.Motor) : Axis :=
  { c := c, m := m, tx := TSched.fresh L.f0 L.tx, rx := Rpdo.fresh L.g0 L.ty L.rx,
    cw := (L.tx[L.cw]?).bind Obj.init,
    sw := ((L.rx[L.sw]?).bind Obj.init).getD (List.replicate 2 0#8),
    disp := ((L.rx[L.disp]?).bind Obj.init).getD (List.replicate 1 0#8) }

/-- What can happen: steps of the control loop (canopen_chain_node/src/ros_chain.cpp:74-92) and of other threads. -/
inductive Ev where
  /-- something at the joint handle or the controller manager -/
  | joint (e : Cyc.Ev)
  /-- something else at the motor: mode switching, state switching, homing, initialisation, recovery, halt
  (canopen_402/src/motor.cpp:190-377, 471-547) -/
  | service (e : M402.Ev)
  /-- a frame of the RPDO arrives (canopen_master/src/pdo.cpp:298-324) -/
  | frame (f : Frame)
  /-- `Motor402::handleRead` (canopen_402/src/motor.cpp:409-413) -/
  | read
  /-- `Motor402::handleWrite` (canopen_402/src/motor.cpp:414-437) -/
  | write
  /-- another object mapped to the TPDO is written (e.g. the mode of operation, canopen_402/src/motor.cpp:326, or by the service of
  canopen_chain_node/src/ros_chain.cpp:268-279) -/
  | object (i : Nat) (v : List Byte)
  /-- `PDOMapper::write` (canopen_master/src/pdo.cpp:255-280, 334-339) -/
  | send

/-- events of the motor which are neither caused by the loop nor by the handle (canopen_402/src/motor.cpp:190-377, 471-547) -/
def isService : M402.Ev → Bool
  | .read _ _ => false
  | .write => false
  | .setTarget _ => false
  | _ => true

/-- `motor_->setTarget` for the targets which the handle sends (canopen_motor_node/src/handle_layer.cpp:38-57, 146-170) -/
def targets (m : M402.Motor) : List Cyc.Out → M402.Motor
  | [] => m
  | .sent _ v :: os => targets (m.setTarget v).1 os
  | _ :: os => targets m os

/-- `target_entry_.set(target)` of the selected mode (canopen_402/include/canopen_402/motor.h:191-200, 231-249): the write to the mapped object -/
def targetWrite (L : Layout) (m : M402.Motor) : Option Int → List TOp
  | none => []
  | some n =>
    match m.selected.bind fun k => (L.tgt k).map fun j => (j, L.width k) with
    | none => []
    | some (j, w) => [.write j (toBytes w n)]

/-- `control_word_entry_.set_cached(word)` (canopen_402/src/motor.cpp:430-434, canopen_master/include/canopen_master/objdict.h:366-377): nothing is
written if the storage holds that value -/
def wordWrite (L : Layout) (held : Option (List Byte)) (word : BitVec 16) : List TOp :=
  if held = some (toBytes 2 word.toNat) then [] else [.write L.cw (toBytes 2 word.toNat)]

/-- One step, with the frame sent.  Sources: canopen_402/src/motor.cpp:379-437, canopen_motor_node/src/handle_layer.cpp:146-170,
canopen_master/src/pdo.cpp:255-324, 334-339.  Simplified: the motor layer is on (else `read` and `write` do nothing); `send` is one step (writes
of other threads within it are treated in `Verif.Pdo`); with an initial value for the status word but none for the mode display,
the state would be taken over before the exception for the display, here it is not. -/
def step (L : Layout) (conv : Rob.Kind → M402.Dbl → M402.Dbl) (a : Axis) : Ev → Outcome BErr (Axis × Option Frame)
  | .joint e =>
    let r := Cyc.step conv a.c e
    .ok ({ a with c := r.1, m := targets a.m r.2 }, none)
  | .service e => if isService e then .ok ({ a with m := (a.m.step e).1 }, none) else .ok (a, none)
  | .frame f =>
    match a.rx.handleFrame f with
    | .ok r => .ok ({ a with rx := r }, none)
    | .throws e => .throws e
    | .ub => .ub
  | .read =>
    match a.rx.read L.sw a.sw with
    | .ub => .ub
    | .throws _ => .ok (a, none)
    | .ok (r, sw) =>
      match r.read L.disp a.disp with
      | .ub => .ub
      | .throws _ => .ok ({ a with rx := r, sw := sw }, none)
      | .ok (r', disp) =>
        let m := a.m.readState (BitVec.ofNat 16 (ofBytes sw)) (BitVec.ofNat 8 (ofBytes disp))
        .ok ({ a with rx := r', sw := sw, disp := disp, m := m }, none)
  | .write =>
    let w := a.m.handleWrite
    match a.tx.run (targetWrite L a.m w.2.2 ++ wordWrite L a.cw w.2.1) with
    | .ok (t, _) => .ok ({ a with m := w.1, tx := t, cw := some (toBytes 2 w.2.1.toNat) }, none)
    | .throws e => .throws e
    | .ub => .ub
  | .object i v =>
    match a.tx.step (.write i v) with
    | .ok (t, _) => .ok ({ a with tx := t, cw := if i = L.cw then some v else a.cw }, none)
    | .throws e => .throws e
    | .ub => .ub
  | .send =>
    match a.tx.run (List.replicate L.tx.length .pick) with
    | .ok (t, outs) => .ok ({ a with tx := t }, outs.findSome? id)
    | .throws e => .throws e
    | .ub => .ub

/-- A history, with what was sent in each step (canopen_chain_node/src/ros_chain.cpp:74-92). -/
def run (L : Layout) (conv : Rob.Kind → M402.Dbl → M402.Dbl) (a : Axis) : List Ev → Outcome BErr (Axis × List (Option Frame))
  | [] => .ok (a, [])
  | e :: es =>
    match step L conv a e with
    | .ok (b, o) =>
      match run L conv b es with
      | .ok (c, os) => .ok (c, o :: os)
      | .throws x => .throws x
      | .ub => .ub
    | .throws x => .throws x
    | .ub => .ub

end Verif.Axis
