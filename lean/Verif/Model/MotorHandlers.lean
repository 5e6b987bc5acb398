import Verif.Model.Motor

/-!
# The handlers of a motor: init, recover, halt, shutdown and changing the mode
canopen_402/src/motor.cpp:291-377 (`switchMode`, `switchState`), 471-547 (the handlers)

One thread at a time executes `handleInit`, `handleRecover`, `handleShutdown` or `enterModeAndWait`; read and write cycles, `setTarget` and `handleHalt`
happen between any two of its steps (read and write cycles belong to the control thread, which also calls `handleHalt` when a cycle fails).  A step is
what lies between two accesses to data shared with the other threads.  Times are in milliseconds.
-/

namespace Verif.Hand
open Verif Verif.M402

/-- what is called: canopen_402/src/motor.cpp:254-261 (`enterModeAndWait`), 471, 514, 535 -/
inductive Call where
  | init (sw : BitVec 16) (disp : BitVec 8)
  | recover
  | shutdown
  | mode (k : Nat)
  deriving DecidableEq, Repr

/-- the errors reported: canopen_402/src/motor.cpp:304, 309, 348 (`switchMode`), 367, 372 (`switchState`), 487, 499, 504, 509 (`handleInit`), 544 -/
inductive Msg where
  | notSupported | modeTimeout | noTransition | transitionTimeout | notEnabled | incorrectHandler | notEntered | homingFailed
  deriving DecidableEq, Repr

/-- where `switchState` returns to: canopen_402/src/motor.cpp:485 (init), 542 (recover), 516 (shutdown), 324 and 353 (`switchMode` to mode `k`, called
by `handleInit` if `homing`) -/
inductive Job where
  | init | recover | shutdown
  | switching (k : Nat) (homing : Bool)
  | enabling (k : Nat) (okay : Bool) (homing : Bool)
  deriving DecidableEq, Repr

/-- where the thread is (canopen_402/src/motor.cpp:291-377, 471-547) -/
inductive Pc where
  | idle
  /-- `switchState` is entered (canopen_402/src/motor.cpp:359) -/
  | enter (j : Job) (goal : S402)
  /-- 362: the time limit and the local `state` are known -/
  | assign (j : Job) (goal : S402) (deadline : Int) (st : S402)
  /-- 363 -/
  | test (j : Job) (goal : S402) (deadline : Int) (st : S402)
  /-- 364-369 -/
  | cmd (j : Job) (goal : S402) (deadline : Int) (st : S402)
  /-- 371 -/
  | wait (j : Job) (goal : S402) (deadline : Int) (st : S402)
  /-- 326-331: the mode is to be written -/
  | setMode (k : Nat) (homing : Bool)
  /-- 332-342 -/
  | waitMode (k : Nat) (homing : Bool) (deadline : Int)
  /-- in `executeHoming` (507) -/
  | homing
  /-- returned; the flag is the result of `enterModeAndWait` -/
  | finished (ok : Bool)
  /-- an exception has left the handler -/
  | threw
  deriving DecidableEq, Repr

/-- the motor (canopen_402/include/canopen_402/motor.h:350-390), the thread in a handler, the state seen by `handleHalt` before it takes the mutex
(canopen_402/src/motor.cpp:519-520), and the errors reported by the handler so far.  `switching` is `switching_state_`, `limit` is
`state_switch_timeout_`. -/
structure Sys where
  m : Motor
  switching : S402
  limit : Int
  pc : Pc
  halting : Option S402
  msgs : List Msg

/-- canopen_402/src/motor.cpp:498-511: `switchMode` returns; for `handleInit` (493-513) homing begins or an error is reported -/
def Sys.modeRet (s : Sys) (homing ok : Bool) : Sys :=
  if homing then
    if ok then { s with pc := .homing } else { s with pc := .finished false, msgs := s.msgs ++ [.notEntered] }
  else { s with pc := .finished ok }

/-- canopen_402/src/motor.cpp:302-324: `switchMode` to a mode that is not 0 -/
def Sys.switchMode (s : Sys) (k : Nat) (homing : Bool) : Sys :=
  match s.m.canAlloc k with
  | none => { s with pc := .threw }
  | some false => Sys.modeRet { s with msgs := s.msgs ++ [.notSupported] } homing false
  | some true =>
    if s.m.modeId = k ∧ s.m.selected = some k then Sys.modeRet { s with m := { s.m with modes := startMode k s.m.modes } } homing true
    else { s with m := { s.m with modes := startMode k s.m.modes, selected := none }, pc := .enter (.switching k homing) s.switching }

/-- canopen_402/src/motor.cpp:490-505: after the motor has been enabled, homing is looked up and its mode entered -/
def Sys.toHoming (s : Sys) : Sys :=
  match s.m.canAlloc 6 with
  | none => { s with pc := .threw }
  | some false => { s with pc := .finished true }
  | some true =>
    match s.m.modes 6 with
    | some (.homing _) => s.switchMode 6 true
    | _ => { s with pc := .finished false, msgs := s.msgs ++ [.incorrectHandler] }

/-- `switchState` returns (canopen_402/src/motor.cpp:324, 353-355, 485-488, 516, 542-545) -/
def Sys.ret (s : Sys) (j : Job) (ok : Bool) : Sys :=
  match j with
  | .init => if ok then s.toHoming else { s with pc := .finished false, msgs := s.msgs ++ [.notEnabled] }
  | .recover => if ok then { s with pc := .finished true } else { s with pc := .finished false, msgs := s.msgs ++ [.notEnabled] }
  | .shutdown => { s with pc := .finished true }
  | .switching k h => if ok then { s with pc := .setMode k h } else s.modeRet h false
  | .enabling _ okay h => s.modeRet h (ok && okay)

/-- canopen_402/src/motor.cpp:364-375: the command towards `target_state_` from the state `st` last seen -/
def Sys.command (s : Sys) (j : Job) (goal : S402) (d : Int) (st : S402) : Sys :=
  let r := setTransition s.m.cw st s.m.target true
  if r.2.1 then
    if st ≠ r.2.2.getD .unknown then { s with m := { s.m with cw := r.1 }, pc := .wait j goal d st }
    else { s with m := { s.m with cw := r.1 }, pc := .test j goal d st }
  else Sys.ret { s with msgs := s.msgs ++ [.noTransition] } j false

/-- one step of the thread at time `now` (canopen_402/src/motor.cpp:324-377); the wait for a new state (71-77) ends if there is one or the time limit
has passed, as does the wait for the mode display (332-351) -/
def Sys.tick (s : Sys) (now : Int) : Sys :=
  match s.pc with
  | .enter j g => { s with pc := .assign j g (now + s.limit) s.m.hs }
  | .assign j g d st => { s with m := { s.m with target := g }, pc := .test j g d st }
  | .test j g d st => if st = s.m.target then s.ret j (decide (st = g)) else { s with pc := .cmd j g d st }
  | .cmd j g d st => s.command j g d st
  | .wait j g d st =>
    if s.m.hs ≠ st then { s with pc := .test j g d s.m.hs }
    else if d ≤ now then Sys.ret { s with msgs := s.msgs ++ [.transitionTimeout] } j false
    else s
  | .setMode k h => { s with pc := .waitMode k h (now + 5000) }
  | .waitMode k h d =>
    if s.m.modeId = k then { s with m := { s.m with selected := some k }, pc := .enter (.enabling k true h) .enabled }
    else if d ≤ now then { s with msgs := s.msgs ++ [.modeTimeout], pc := .enter (.enabling k false h) .enabled }
    else s
  | _ => s

/-- a handler is called: canopen_402/src/motor.cpp:254-256 and 293-322 (mode), 472-485 (init), 515-516 (shutdown), 536-542 (recover; the modes of this
model always restart).  In `handleInit` the allocators throw if object 0x6502 is missing. -/
def Sys.begin (s : Sys) (c : Call) : Sys :=
  match c with
  | .init sw disp =>
    match s.m.register with
    | none => { s with pc := .threw, msgs := [] }
    | some m => { s with m := { m.readState sw disp with cw := 0, sfr := true }, pc := .enter .init .enabled, msgs := [] }
  | .recover => { s with m := s.m.handleRecover, pc := .enter .recover .enabled, msgs := [] }
  | .shutdown => { s with m := { s.m with selected := none }, pc := .enter .shutdown .disabled, msgs := [] }
  | .mode k =>
    if k = 6 then { s with pc := .finished false, msgs := [] }
    else if k = 0 then { s with m := { s.m with selected := none }, pc := .finished true, msgs := [] }
    else Sys.switchMode { s with msgs := [] } k false

/-- whether no handler is being executed (canopen_402/src/motor.cpp:471-547) -/
def Sys.free (s : Sys) : Bool :=
  match s.pc with
  | .idle | .finished _ | .threw => true
  | _ => false

/-- the second part of `handleHalt`, after the state `st` was read (canopen_402/src/motor.cpp:520-532) -/
def Sys.haltAct (s : Sys) (st : S402) : Sys :=
  if st = .faultReaction ∨ st = .fault then s
  else if st ≠ .enabled then { s with m := { s.m with target := st } }
  else { s with m := { s.m with target := .quickStop, cw := (setTransition s.m.cw st .quickStop false).1 } }

/-- what can happen: canopen_402/src/motor.cpp:245-251, 254-261, 409-437, 471-547 -/
inductive HEv where
  | read (sw : BitVec 16) (disp : BitVec 8)
  | write
  | setTarget (v : Dbl)
  | call (c : Call)
  | tick (now : Int)
  /-- `executeHoming` sets or clears its flag (209, 238) -/
  | execute (b : Bool)
  /-- `executeHoming` returns (507) -/
  | homed (ok : Bool)
  /-- an access to the mode objects throws (326, 339, 349), or `executeHoming` does (195) -/
  | exception
  /-- `handleHalt` reads the state (519) -/
  | haltLook
  /-- and acts (520-532) -/
  | haltAct

/-- one event: canopen_402/src/motor.cpp:245-251, 291-437, 471-547 -/
def Sys.step (s : Sys) : HEv → Sys
  | .read sw disp => { s with m := s.m.readState sw disp }
  | .write => { s with m := s.m.handleWrite.1 }
  | .setTarget v => { s with m := (s.m.setTarget v).1 }
  | .call c => if s.free then s.begin c else s
  | .tick now => s.tick now
  | .execute b => if s.pc = .homing then { s with m := { s.m with modes := setExecute b s.m.modes } } else s
  | .homed ok =>
    if s.pc = .homing then
      if ok then { s with m := { s.m with selected := none }, pc := .finished true }
      else { s with pc := .finished false, msgs := s.msgs ++ [.homingFailed] }
    else s
  | .exception =>
    match s.pc with
    | .setMode _ _ | .waitMode _ _ _ | .homing => { s with pc := .threw }
    | _ => s
  | .haltLook => { s with halting := some s.m.hs }
  | .haltAct =>
    match s.halting with
    | some st => { (s.haltAct st) with halting := none }
    | none => s

/-- a schedule: canopen_402/src/motor.cpp:245-251, 291-437, 471-547 -/
def Sys.run (s : Sys) (es : List HEv) : Sys := es.foldl Sys.step s

/-- the word a write cycle sends now (canopen_402/src/motor.cpp:430-435) -/
def Sys.word (s : Sys) : BitVec 16 := s.m.handleWrite.2.1

end Verif.Hand
