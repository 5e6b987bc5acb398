import Verif.Model.MotorHandlers
import Verif.Spec.Motor

/-! Specification of the handlers of a motor: what has been reported in the course of a schedule. -/

namespace Verif.Spec.Hand
open Verif Verif.M402 Verif.Hand

/-- the situations before, between and after the events of a schedule -/
def visited (s : Sys) : List HEv → List Sys
  | [] => [s]
  | e :: es => s :: visited (s.step e) es

/-- at some point the last status read from the drive was that of state `x` -/
def Reported (s : Sys) (es : List HEv) (x : S402) : Prop := ∃ w ∈ visited s es, w.m.hs = x

/-- at some point the last mode display read from the drive was mode `k` -/
def Displayed (s : Sys) (es : List HEv) (k : Nat) : Prop := ∃ w ∈ visited s es, w.m.modeId = k

/-- homing has been executed with success -/
def Homed (s : Sys) (es : List HEv) : Prop := ∃ pre suf, es = pre ++ .homed true :: suf ∧ (s.run pre).pc = .homing

/-- no handler is called -/
def NoCall (es : List HEv) : Prop := ∀ c, HEv.call c ∉ es

/-- the motor is not halted -/
def NoHalt (es : List HEv) : Prop := HEv.haltAct ∉ es

/-- a handler has returned without reporting an error -/
def Fine (s : Sys) : Prop := s.msgs = [] ∧ ∃ ok, s.pc = .finished ok

/-- the thread is not about to give the motor a new goal: it is not in a handler, it executes homing, or it is on its way to a state other than quick
stop -/
def Settled : Pc → Prop
  | .idle | .finished _ | .threw | .homing => True
  | .test _ g _ _ | .cmd _ g _ _ | .wait _ g _ _ => g ≠ .quickStop
  | _ => False

/-- the call of `switchState` the thread is in -/
def job : Pc → Option Job
  | .enter j _ => some j
  | .assign j _ _ _ | .test j _ _ _ | .cmd j _ _ _ | .wait j _ _ _ => some j
  | _ => none

/-- the time limit the thread has for the change of state -/
def limitOf : Pc → Option Int
  | .assign _ _ d _ | .test _ _ d _ | .cmd _ _ d _ | .wait _ _ d _ => some d
  | _ => none

end Verif.Spec.Hand
