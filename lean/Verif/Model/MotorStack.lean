import Verif.Model.Motor
import Verif.Model.Layer

/-!
# Motors as layers of a chain
canopen_402/src/motor.cpp:379-437, 518-533, canopen_master/include/canopen_master/layer.h

A motor is a leaf of the tree of layers of a chain (canopen_motor_node/src/motor_chain.cpp:43-44, 61-80); its handlers for reading, writing and halting are
modelled here with what they report.  Its other handlers, which wait for the device, are modelled in `Verif.Model.MotorHandlers`.
-/

namespace Verif.MStk
open Verif Verif.Lay Verif.M402

/-- what the layers of a chain share: the motors, by the number of their layer; what reading the objects 0x6041 and 0x6061 of each gives now (`none`: it
throws); whether writing the control word succeeds; the control words given to object 0x6040 so far, newest first; and the rest of the program
(canopen_402/include/canopen_402/motor.h:359-388) -/
structure World (ρ : Type) where
  motors : Nat → Motor
  status : Nat → Option (BitVec 16)
  display : Nat → Option (BitVec 8)
  accepts : Nat → Bool
  words : Nat → List (BitVec 16)
  rest : ρ

/-- replace one motor (canopen_402/src/motor.cpp:379-437) -/
def World.put {ρ : Type} (w : World ρ) (i : Nat) (m : Motor) : World ρ := { w with motors := fun j => if j = i then m else w.motors j }

/-- canopen_402/src/motor.cpp:387-405 `readState`: what it reports, given the motor before it, the status word and the mode display read and the
state of the layer -/
def readReports (m : Motor) (sw : BitVec 16) (disp : BitVec 8) (st : LayerState) : List Report :=
  let newMode := (disp.signExtend 16).toNat
  (match m.active newMode with
   | some h => if (h.read sw).2 then [] else [.error "Mode handler has error".toList]
   | none => [])
  ++ (if m.selected.isSome ∧ m.selected ≠ some newMode then [.warn "mode does not match".toList] else [])
  ++ (if sw &&& 0x800 ≠ 0 then
        if m.sw &&& 0x800 ≠ 0 ∨ st ≠ .ready then [.warn "Internal limit active".toList] else [.error "Internal limit active".toList]
      else [])

/-- canopen_402/src/motor.cpp:409-413 `handleRead` with 379-408: the status word is read first (380), then the mode display (386) -/
def readMotor {ρ : Type} (i : Nat) (st : LayerState) (w : World ρ) : World ρ × List Report × Option Text :=
  let m := w.motors i
  match w.status i with
  | none => (w, [], some "status word".toList)
  | some sw =>
    match w.display i with
    | none => (w.put i { m with sw := sw, hs := decode sw }, [], some "mode display".toList)
    | some disp => (w.put i (m.readState sw disp), readReports m sw disp st, none)

/-- canopen_402/src/motor.cpp:414-437 `handleWrite`.  Simplification: writing the target, which belongs to the mode, does not fail. -/
def writeMotor {ρ : Type} (i : Nat) (w : World ρ) : World ρ × List Report × Option Text :=
  let r := (w.motors i).handleWrite
  if w.accepts i then ({ w.put i r.1 with words := fun j => if j = i then r.2.1 :: w.words j else w.words j }, [], none)
  else (w.put i r.1, [], some "control word".toList)

/-- canopen_402/src/motor.cpp:518-533 `handleHalt`; there is a transition to quick stop from the only state it is asked for, so nothing is reported -/
def haltMotor {ρ : Type} (i : Nat) (w : World ρ) : World ρ × List Report × Option Text := (w.put i (w.motors i).handleHalt, [], none)

/-- the handlers of the motor with number `i`: canopen_402/src/motor.cpp:409-437, 518-533; `o` are the ones for init, shutdown, recover and
diagnostics -/
def motorHandlers {ρ : Type} (o : Handlers (World ρ)) (i : Nat) : Handlers (World ρ) where
  run m st w s :=
    match m with
    | .read => readMotor i st w
    | .write => writeMotor i w
    | .halt => haltMotor i w
    | _ => o.run m st w s

end Verif.MStk
