import Verif.Model.Motor

/-!
# Homing
canopen_402/src/motor.cpp:163-243 (`DefaultHomingMode`), canopen_402/include/canopen_402/motor.h:252-289

`executeHoming` holds the mutex of the mode except while it waits on the condition variable, so it goes from one wait to the next in one step; read
cycles happen in between.  Write cycles only look at the atomic flag.  Times are in milliseconds.
-/

namespace Verif.Hom
open Verif Verif.M402

/-- the reasons given in the status (canopen_402/src/motor.cpp:192, 203, 206, 213, 216, 223, 226, 231, 234, 242) -/
inductive Why where
  | invalid | notPrepared | errorBefore | didNotStart | errorAtStart | notAttained | errorDuring | didNotStop | errorStop | wrong
  deriving DecidableEq, Repr

/-- where the thread in `executeHoming` is, with the deadline of the wait; canopen_402/src/motor.cpp:190-243 -/
inductive Stage where
  /-- 202 -/
  | prepare (deadline : Int)
  /-- 212 -/
  | starting (deadline : Int)
  /-- 222 -/
  | attaining (deadline : Int)
  /-- 230 -/
  | stopping (deadline : Int)
  | succeeded
  | failed (why : Why)
  /-- reading the homing method threw (195) -/
  | threw
  deriving DecidableEq, Repr

/-- the mode and the thread (canopen_402/include/canopen_402/motor.h:266-289) -/
structure Sys where
  h : Homing
  stage : Stage

/-- `status_ & mask` is not 0 (canopen_402/src/motor.cpp:163-167); reached is bit 10, attained 12, error 13 (canopen_402/include/canopen_402/motor.h:274-278) -/
def Sys.reached (s : Sys) : Bool := s.h.status &&& 0x400 ≠ 0
/-- canopen_402/include/canopen_402/motor.h:276 -/
def Sys.attained (s : Sys) : Bool := s.h.status &&& 0x1000 ≠ 0
/-- canopen_402/include/canopen_402/motor.h:277 -/
def Sys.error (s : Sys) : Bool := s.h.status &&& 0x2000 ≠ 0

/-- canopen_402/include/canopen_402/motor.h:279 `error` -/
def Sys.fail (s : Sys) (w : Why) : Sys := { h := { s.h with execute := false }, stage := .failed w }

/-- canopen_402/src/motor.cpp:237-242 -/
def Sys.finish (s : Sys) : Sys :=
  if s.reached && s.attained then { h := { s.h with execute := false }, stage := .succeeded } else s.fail .wrong

/-- canopen_402/src/motor.cpp:229-235; `expired`: the wait has timed out -/
def Sys.atStop (s : Sys) (deadline : Int) (expired : Bool) : Sys :=
  if s.error || s.reached then (if s.error then s.fail .errorStop else s.finish)
  else if expired then s.fail .didNotStop
  else { s with stage := .stopping deadline }

/-- canopen_402/src/motor.cpp:221-227 -/
def Sys.atAttain (s : Sys) (deadline : Int) (expired : Bool) : Sys :=
  if s.error || s.attained then (if s.error then s.fail .errorDuring else s.atStop deadline false)
  else if expired then s.fail .notAttained
  else { s with stage := .attaining deadline }

/-- canopen_402/src/motor.cpp:211-219 -/
def Sys.atStart (s : Sys) (deadline now : Int) (expired : Bool) : Sys :=
  if s.error || s.attained || !s.reached then (if s.error then s.fail .errorAtStart else s.atAttain (now + 10000) false)
  else if expired then s.fail .didNotStart
  else { s with stage := .starting deadline }

/-- canopen_402/src/motor.cpp:200-209 -/
def Sys.atPrepare (s : Sys) (deadline now : Int) (expired : Bool) : Sys :=
  if s.error || s.reached then
    (if s.error then s.fail .errorBefore else Sys.atStart { s with h := { s.h with execute := true } } deadline now false)
  else if expired then s.fail .notPrepared
  else { s with stage := .prepare deadline }

/-- the thread evaluates the condition it waits for: canopen_402/src/motor.cpp:201-243 -/
def Sys.look (s : Sys) (now : Int) (expired : Bool) : Sys :=
  match s.stage with
  | .prepare d => s.atPrepare d now expired
  | .starting d => s.atStart d now expired
  | .attaining d => s.atAttain d expired
  | .stopping d => s.atStop d expired
  | _ => s

/-- the deadline of the present wait (canopen_402/src/motor.cpp:199, 219) -/
def Stage.deadline : Stage → Option Int
  | .prepare d => some d
  | .starting d => some d
  | .attaining d => some d
  | .stopping d => some d
  | _ => none

/-- object 0x6098: not in the dictionary, not readable, or its value (canopen_402/src/motor.cpp:191-197) -/
inductive Method where
  | absent | unreadable
  | value (v : BitVec 8)

/-- canopen_402/src/motor.cpp:190-210: `executeHoming` is called at time `now` -/
def begin (h : Homing) (m : Method) (now : Int) : Sys :=
  match m with
  | .absent => Sys.fail { h := h, stage := .threw } .invalid
  | .unreadable => { h := h, stage := .threw }
  | .value v =>
    if v = 0 then { h := h, stage := .succeeded }
    else Sys.atPrepare { h := h, stage := .prepare (now + 1000) } (now + 1000) now false

/-- the steps: canopen_402/src/motor.cpp:172-180 (read cycle), 190-243 (the thread is woken up or its wait times out) -/
inductive Ev where
  | read (sw : BitVec 16)
  | wake (now : Int)
  | timeout (now : Int)

/-- one step: canopen_402/src/motor.cpp:172-243; a wait cannot time out before its deadline -/
def Sys.step (s : Sys) : Ev → Sys
  | .read sw => { s with h := s.h.read sw }
  | .wake now => s.look now false
  | .timeout now =>
    match s.stage.deadline with
    | some d => if d ≤ now then s.look now true else s
    | none => s

/-- a schedule: canopen_402/src/motor.cpp:172-243 -/
def Sys.run (s : Sys) (es : List Ev) : Sys := es.foldl Sys.step s

/-- the start bit (bit 4) of the control word a write cycle produces (canopen_402/src/motor.cpp:181-188 with canopen_402/include/canopen_402/motor.h:259) -/
def Sys.startBit (s : Sys) (cw : BitVec 16) : Bool := (s.h.write.1.foldl AccOp.apply cw).getLsbD 4

end Verif.Hom
