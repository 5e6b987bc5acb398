import Verif.Model.Basic
import Verif.Model.Layer

/-!
# The CiA 402 motor
canopen_402/include/canopen_402/motor.h, canopen_402/src/motor.cpp, canopen_402/include/canopen_402/base.h
-/

namespace Verif.M402
open Verif Verif.Lay

/-! ## State machine -/

/-- canopen_402/include/canopen_402/motor.h:37-49 `InternalState` (`Unknown` and `Start` are the same value) -/
inductive S402 where
  | unknown | notReady | disabled | ready | switchedOn | enabled | quickStop | faultReaction | fault
  deriving DecidableEq, Repr

/-- canopen_402/src/motor.cpp:12-64 `State402::read`: the state for a status word -/
def decode (sw : BitVec 16) : S402 :=
  let st := sw &&& 0x6F
  if st = 0x00 ∨ st = 0x20 then .notReady
  else if st = 0x40 ∨ st = 0x60 then .disabled
  else if st = 0x21 then .ready
  else if st = 0x23 then .switchedOn
  else if st = 0x27 then .enabled
  else if st = 0x07 then .quickStop
  else if st = 0x0F ∨ st = 0x2F then .faultReaction
  else if st = 0x08 ∨ st = 0x28 then .fault
  else .unknown

/-- canopen_402/include/canopen_402/motor.h:61-68 `Op` -/
structure Op where
  toSet : BitVec 16
  toReset : BitVec 16

/-- canopen_402/include/canopen_402/motor.h:65-67 -/
def Op.apply (o : Op) (cw : BitVec 16) : BitVec 16 := (cw &&& ~~~ o.toReset) ||| o.toSet

/-- canopen_402/src/motor.cpp:87 -/
def opDisableVoltage : Op := ⟨0, 0x82⟩
/-- canopen_402/src/motor.cpp:93 -/
def opAutomatic : Op := ⟨0, 0⟩
/-- canopen_402/src/motor.cpp:98 -/
def opShutdown : Op := ⟨0x06, 0x81⟩
/-- canopen_402/src/motor.cpp:103 -/
def opSwitchOn : Op := ⟨0x07, 0x88⟩
/-- canopen_402/src/motor.cpp:107 -/
def opEnable : Op := ⟨0x0F, 0x80⟩
/-- canopen_402/src/motor.cpp:111 -/
def opQuickStop : Op := ⟨0x02, 0x84⟩
/-- canopen_402/src/motor.cpp:117 -/
def opFaultReset : Op := ⟨0x80, 0⟩

/-- canopen_402/src/motor.cpp:82-118 the transition table, with `get` of canopen_402/include/canopen_402/motor.h:76-78 (`none`: `at` throws) -/
def transition : S402 → S402 → Option Op
  | .ready, .disabled => some opDisableVoltage
  | .enabled, .disabled => some opDisableVoltage
  | .switchedOn, .disabled => some opDisableVoltage
  | .quickStop, .disabled => some opDisableVoltage
  | .unknown, .notReady => some opAutomatic
  | .notReady, .disabled => some opAutomatic
  | .faultReaction, .fault => some opAutomatic
  | .disabled, .ready => some opShutdown
  | .switchedOn, .ready => some opShutdown
  | .enabled, .ready => some opShutdown
  | .ready, .switchedOn => some opSwitchOn
  | .enabled, .switchedOn => some opSwitchOn
  | .switchedOn, .enabled => some opEnable
  | .quickStop, .enabled => some opEnable
  | .ready, .quickStop => some opQuickStop
  | .switchedOn, .quickStop => some opQuickStop
  | .enabled, .quickStop => some opQuickStop
  | .fault, .disabled => some opFaultReset
  | _, _ => none

/-- canopen_402/src/motor.cpp:119-143 `nextStateForEnabling` (illegal enumeration values, which throw, are not modelled) -/
def nextForEnabling : S402 → S402
  | .unknown => .notReady
  | .fault => .disabled
  | .notReady => .disabled
  | .disabled => .ready
  | .ready => .switchedOn
  | .switchedOn => .enabled
  | .quickStop => .enabled
  | .enabled => .enabled
  | .faultReaction => .fault

/-- canopen_402/src/motor.cpp:145-161 `setTransition`; `next` says whether the pointer is given.  Result: new control word, success, and the state
stored through the pointer if one is stored. -/
def setTransition (cw : BitVec 16) (src dst : S402) (next : Bool) : BitVec 16 × Bool × Option S402 :=
  if src ≠ dst then
    let hop := if next ∧ dst = .enabled then nextForEnabling src else dst
    let out := if next then some hop else none
    match transition src hop with
    | some op => (op.apply cw, true, out)
    | none => (cw, false, out)
  else (cw, true, none)

/-! ## Operation modes -/

/-- canopen_402/include/canopen_402/motor.h:133: bits 4, 5, 6 and 9 -/
def opMask : BitVec 16 := 0x270

/-- canopen_402/include/canopen_402/motor.h:106-127 `WordAccessor`: what a mode can do to the control word.  Simplification: `1 << bit` for a bit
beyond the word is taken to have no bit in the mask (the code has undefined behaviour for a bit beyond 31). -/
inductive AccOp where
  | set (bit : Nat)
  | reset (bit : Nat)
  | assign (v : BitVec 16)

/-- canopen_402/include/canopen_402/motor.h:110-126 -/
def AccOp.apply (word : BitVec 16) : AccOp → BitVec 16
  | .set b => word ||| (opMask &&& (1#16 <<< b))
  | .reset b => word &&& ~~~ (opMask &&& (1#16 <<< b))
  | .assign v => (word &&& ~~~ opMask) ||| (v &&& opMask)

/-- canopen_402/include/canopen_402/motor.h:122-126: `cw = cw.get() | m` and `cw = cw.get() & ~m`, with `get()` of 121 -/
def getMasked (word : BitVec 16) : BitVec 16 := word &&& opMask

/-- a `double`: a finite one is rendered by its exact value (used in canopen_402/include/canopen_402/motor.h:150-179) -/
inductive Dbl where
  | nan | posInf | negInf
  | fin (q : Rat)

/-- truncation towards zero, as the conversion of a `double` to an integer does it (canopen_402/include/canopen_402/motor.h:162) -/
def trunc (q : Rat) : Int := if 0 ≤ q then q.floor else q.ceil

/-- `boost::numeric_cast` from `double` to a signed integer type with range `lo..hi`, as used in
canopen_402/include/canopen_402/motor.h:162 -/
inductive Cast where
  | ok (v : Int) | negOverflow | posOverflow | bad

/-- `boost::numeric_cast<T>(double)` (canopen_402/include/canopen_402/motor.h:162): rounding towards zero, with the range check
`lo - 1 < x < hi + 1` of Boost's trunc policy.  Boost reports not-a-number by no exception of its own; the caller excludes it. -/
def numericCast (lo hi : Int) : Dbl → Cast
  | .nan => .bad
  | .posInf => .posOverflow
  | .negInf => .negOverflow
  | .fin q => if q ≤ (lo - 1 : Int) then .negOverflow else if (hi + 1 : Int) ≤ q then .posOverflow else .ok (trunc q)

/-- canopen_402/include/canopen_402/motor.h:142-149 `ModeTargetHelper<T>` with the range of `T` -/
structure Target where
  lo : Int
  hi : Int
  target : Int
  has : Bool

/-- canopen_402/include/canopen_402/motor.h:150-179 `setTarget` -/
def Target.set (t : Target) (v : Dbl) : Target × Bool :=
  match v with
  | .nan => (t, false)
  | _ =>
    match numericCast t.lo t.hi v with
    | .ok x => ({ t with target := x, has := true }, true)
    | .negOverflow => ({ t with target := t.lo, has := true }, true)
    | .posOverflow => ({ t with target := t.hi, has := true }, true)
    | .bad => (t, false)

/-- canopen_402/include/canopen_402/motor.h:180 `start` -/
def Target.start (t : Target) : Target := { t with has := false }

/-- a target of type `int16_t` (canopen_402/include/canopen_402/motor.h:204, 207, 208) -/
def Target.i16 : Target := { lo := -32768, hi := 32767, target := 0, has := false }
/-- a target of type `int32_t` (canopen_402/include/canopen_402/motor.h:203, 205, 206, 209, 211) -/
def Target.i32 : Target := { lo := -2147483648, hi := 2147483647, target := 0, has := false }

/-- canopen_402/include/canopen_402/motor.h:211-214 `ProfiledPositionMode`: `last = none` is the not-a-number of `start` -/
structure ProfPos where
  t : Target
  last : Option Int
  sw : BitVec 16

/-- canopen_402/include/canopen_402/motor.h:229 -/
def ProfPos.start (p : ProfPos) : ProfPos := { t := p.t.start, last := none, sw := 0 }
/-- canopen_402/include/canopen_402/motor.h:230, 219: result `false` if bit 13 is set -/
def ProfPos.read (p : ProfPos) (sw : BitVec 16) : ProfPos × Bool := ({ p with sw := sw }, sw &&& 0x2000 = 0)
/-- canopen_402/include/canopen_402/motor.h:231-249 `write`: new state, what is done to the control word, result, value written to object 0x607A.
Bits: new set-point 4, change immediately 5, acknowledged 12. -/
def ProfPos.write (p : ProfPos) (cw : BitVec 16) : ProfPos × List AccOp × Bool × Option Int :=
  if p.t.has then
    if p.sw &&& 0x1000 = 0 ∧ p.last ≠ some p.t.target then
      if (cw ||| 0x20) &&& 0x10 ≠ 0 then (p, [.set 5, .reset 4], true, none)
      else ({ p with last := some p.t.target }, [.set 5, .set 4], true, some p.t.target)
    else if p.sw &&& 0x1000 ≠ 0 then (p, [.set 5, .reset 4], true, none)
    else (p, [.set 5], true, none)
  else (p, [.set 5], false, none)

/-- what happens to a profiled position mode and the control word: canopen_402/include/canopen_402/motor.h:150, 229-231 -/
inductive PEv where
  | start
  | target (v : Dbl)
  | read (sw : BitVec 16)
  /-- a write cycle of the mode -/
  | write
  /-- something else changes the control word -/
  | other (cw : BitVec 16)

/-- what is observed of it: `wrote` carries the control word before and after the write cycle and the target position sent
(canopen_402/include/canopen_402/motor.h:229-249) -/
inductive PObs where
  | started
  | given (v : Dbl) (ok : Bool)
  | status (sw : BitVec 16)
  | wrote (before after : BitVec 16) (sent : Option Int)

/-- one event: canopen_402/include/canopen_402/motor.h:150-180, 229-249 -/
def pstep (s : ProfPos × BitVec 16) : PEv → (ProfPos × BitVec 16) × List PObs
  | .start => ((s.1.start, s.2), [.started])
  | .target v => (({ s.1 with t := (s.1.t.set v).1 }, s.2), [.given v (s.1.t.set v).2])
  | .read sw => (((s.1.read sw).1, s.2), [.status sw])
  | .write =>
    let w := s.1.write s.2
    let cw := w.2.1.foldl AccOp.apply s.2
    ((w.1, cw), [.wrote s.2 cw w.2.2.2])
  | .other cw => ((s.1, cw), [])

/-- a history: canopen_402/include/canopen_402/motor.h:150-180, 229-249 -/
def prun (s : ProfPos × BitVec 16) : List PEv → (ProfPos × BitVec 16) × List PObs
  | [] => (s, [])
  | e :: es => ((prun (pstep s e).1 es).1, (pstep s e).2 ++ (prun (pstep s e).1 es).2)

/-- canopen_402/include/canopen_402/motor.h:266-272 `DefaultHomingMode`, the part used in the cycle -/
structure Homing where
  execute : Bool
  status : BitVec 16

/-- canopen_402/src/motor.cpp:172-180; reached is bit 10, attained 12, error 13 -/
def Homing.read (h : Homing) (sw : BitVec 16) : Homing := { h with status := sw &&& 0x3400 }
/-- canopen_402/src/motor.cpp:168-171 -/
def Homing.start (h : Homing) : Homing := Homing.read { h with execute := false } 0
/-- canopen_402/src/motor.cpp:181-188 -/
def Homing.write (h : Homing) : List AccOp × Bool := if h.execute then ([.assign 0, .set 4], true) else ([.assign 0], false)

/-- the mode handlers: canopen_402/include/canopen_402/motor.h:183-289.  `forward` is `ModeForwardHelper` with its object and `CW_MASK`. -/
inductive Mode where
  | forward (obj sub : Nat) (mask : BitVec 16) (t : Target)
  | profPos (p : ProfPos)
  | homing (h : Homing)

/-- `start` of the handlers: canopen_402/include/canopen_402/motor.h:180, 229, canopen_402/src/motor.cpp:168-171 (never fails) -/
def Mode.start : Mode → Mode
  | .forward o s m t => .forward o s m t.start
  | .profPos p => .profPos p.start
  | .homing h => .homing h.start

/-- `read` of the handlers: canopen_402/include/canopen_402/motor.h:190, 230, canopen_402/src/motor.cpp:172-180 -/
def Mode.read (m : Mode) (sw : BitVec 16) : Mode × Bool :=
  match m with
  | .forward o s k t => (.forward o s k t, true)
  | .profPos p => ((.profPos (p.read sw).1), (p.read sw).2)
  | .homing h => (.homing (h.read sw), true)

/-- `write` of the handlers: canopen_402/include/canopen_402/motor.h:191-200, 231-249, canopen_402/src/motor.cpp:181-188.  Simplification: writing
the object (mapped to a PDO) does not fail. -/
def Mode.write (m : Mode) (cw : BitVec 16) : Mode × List AccOp × Bool × Option Int :=
  match m with
  | .forward o s k t =>
    if t.has then (.forward o s k t, [.assign (getMasked cw ||| k)], true, some t.target)
    else (.forward o s k t, [.assign (getMasked cw &&& ~~~ k)], false, none)
  | .profPos p => let r := p.write cw; (.profPos r.1, r.2.1, r.2.2.1, r.2.2.2)
  | .homing h => (.homing h, h.write.1, h.write.2, none)

/-- `setTarget` of the handlers: canopen_402/include/canopen_402/motor.h:137, 150-179 (homing does not implement it) -/
def Mode.setTarget (m : Mode) (v : Dbl) : Mode × Bool :=
  match m with
  | .forward o s k t => (.forward o s k (t.set v).1, (t.set v).2)
  | .profPos p => (.profPos { p with t := (p.t.set v).1 }, (p.t.set v).2)
  | .homing h => (.homing h, false)

/-- canopen_402/include/canopen_402/motor.h:203-211, 324-334 and canopen_402/include/canopen_402/base.h:13-26: the handlers registered by default -/
def defaultMode : Nat → Option Mode
  | 1 => some (.profPos { t := .i32, last := none, sw := 0 })
  | 2 => some (.forward 0x6042 0 0x70 .i16)
  | 3 => some (.forward 0x60FF 0 0 .i32)
  | 4 => some (.forward 0x6071 0 0 .i16)
  | 6 => some (.homing { execute := false, status := 0 })
  | 7 => some (.forward 0x60C1 1 0x10 .i32)
  | 8 => some (.forward 0x607A 0 0 .i32)
  | 9 => some (.forward 0x60FF 0 0 .i32)
  | 10 => some (.forward 0x6071 0 0 .i16)
  | _ => none

/-! ## The motor -/

/-- where the thread in `switchMode` is (canopen_402/src/motor.cpp:291-357) -/
inductive Phase where
  | idle
  /-- line 324: towards the switching state -/
  | toSwitching (m : Nat)
  /-- lines 330-342: waiting for the mode display -/
  | waitMode (m : Nat)
  /-- line 353: towards operation enabled; the flag is `okay` -/
  | toEnabled (m : Nat) (ok : Bool)
  deriving DecidableEq, Repr

/-- canopen_402/include/canopen_402/motor.h:359-378 `Motor402`: `drives` is object 0x6502 (`none`: not in the dictionary), `selected` the key of
`selected_mode_` in `modes_`.  The members the constructor leaves uninitialised (`mode_id_`, `start_fault_reset_`, `target_state_`) have whatever
value is given here. -/
structure Motor where
  cw : BitVec 16
  sfr : Bool
  hs : S402
  sw : BitVec 16
  target : S402
  modes : Nat → Option Mode
  drives : Option (BitVec 32)
  selected : Option Nat
  modeId : Nat
  phase : Phase

/-- canopen_402/src/motor.cpp:268-273 `isModeSupportedByDevice` (`none`: it throws) -/
def Motor.deviceSupports (m : Motor) (mode : Nat) : Option Bool :=
  match m.drives with
  | none => none
  | some d => some (decide (0 < mode ∧ mode ≤ 32) && d.getLsbD (mode - 1))

/-- canopen_402/src/motor.cpp:279-289 `allocMode`: whether there is a handler -/
def Motor.canAlloc (m : Motor) (mode : Nat) : Option Bool :=
  (m.deviceSupports mode).map fun s => s && (m.modes mode).isSome

/-- canopen_402/include/canopen_402/motor.h:317-334 with canopen_402/src/motor.cpp:274-277, 472-474: the handler for mode `k` after the allocators
have run for a device supporting the modes `d`; a handler already there is kept -/
def registered (d : BitVec 32) (old : Nat → Option Mode) (k : Nat) : Option Mode :=
  match old k with
  | some h => some h
  | none => if decide (0 < k ∧ k ≤ 32) && d.getLsbD (k - 1) then defaultMode k else none

/-- canopen_402/src/motor.cpp:472-474: the allocators run by `handleInit` (`none`: they throw) -/
def Motor.register (m : Motor) : Option Motor :=
  match m.drives with
  | none => none
  | some d => some { m with modes := registered d m.modes }

/-- the selected handler, if it is the one for `mode` (canopen_402/src/motor.cpp:387, 422) -/
def Motor.active (m : Motor) (mode : Nat) : Option Mode := if m.selected = some mode then m.modes mode else none

/-- replace the state of the handler for `mode` (an object behind a pointer in canopen_402/include/canopen_402/motor.h:369) -/
def putMode (mode : Nat) (h : Mode) (modes : Nat → Option Mode) (k : Nat) : Option Mode := if k = mode then some h else modes k

/-- canopen_402/src/motor.cpp:419-429: control word, handlers and target written -/
def Motor.writeMode (m : Motor) (cw : BitVec 16) : BitVec 16 × (Nat → Option Mode) × Option Int :=
  match m.active m.modeId with
  | some h =>
    let w := h.write cw
    let cw' := w.2.1.foldl AccOp.apply cw
    (if w.2.2.1 then cw' &&& ~~~ 0x100#16 else cw', putMode m.modeId w.1 m.modes, w.2.2.2)
  | none => (AccOp.apply cw (.assign 0), m.modes, none)

/-- canopen_402/src/motor.cpp:414-437 `handleWrite`: new state, the word written to object 0x6040 and the target written -/
def Motor.handleWrite (m : Motor) : Motor × BitVec 16 × Option Int :=
  let r := if m.hs = .enabled then m.writeMode (m.cw ||| 0x100#16) else (m.cw ||| 0x100#16, m.modes, none)
  ({ m with cw := r.1, modes := r.2.1, sfr := false }, (if m.sfr then r.1 &&& ~~~ 0x80#16 else r.1), r.2.2)

/-- canopen_402/src/motor.cpp:379-408 `readState`, without the messages: `disp` is the mode display (an `int8_t`), converted to `uint16_t` (386) -/
def Motor.readState (m : Motor) (sw : BitVec 16) (disp : BitVec 8) : Motor :=
  let newMode := (disp.signExtend 16).toNat
  { m with
    sw := sw, hs := decode sw, modeId := newMode,
    modes := match m.active newMode with
      | some h => putMode newMode (h.read sw).1 m.modes
      | none => m.modes }

/-- canopen_402/src/motor.cpp:245-251 `setTarget` -/
def Motor.setTarget (m : Motor) (v : Dbl) : Motor × Bool :=
  if m.hs = .enabled then
    match m.selected with
    | none => (m, false)
    | some k =>
      match m.modes k with
      | none => (m, false)
      | some h => ({ m with modes := putMode k (h.setTarget v).1 m.modes }, (h.setTarget v).2)
  else (m, false)

/-- `start` of the handler for `mode` (canopen_402/src/motor.cpp:308, 538) -/
def startMode (mode : Nat) (modes : Nat → Option Mode) (k : Nat) : Option Mode :=
  if k = mode then (modes k).map Mode.start else modes k


/-- what can happen to a motor: canopen_402/src/motor.cpp:190-251, 291-377, 379-437, 471-547.  One thread at a time is in `switchMode` with a mode
to enter; `switchMode` to no mode may be called at any time. -/
inductive Ev where
  /-- a read cycle (409-413): status word and mode display -/
  | read (sw : BitVec 16) (disp : BitVec 8)
  /-- a write cycle -/
  | write
  /-- a target is given -/
  | setTarget (v : Dbl)
  /-- `switchMode` is called -/
  | request (mode : Nat)
  /-- `switchState` returns -/
  | stateDone (ok : Bool)
  /-- the wait for the mode display ends: by the display (`false`) or by the time-out -/
  | modeDone (timeout : Bool)
  /-- an access to the mode objects throws out of `switchMode` (326, 339, 349) -/
  | exception
  /-- one round of the loop of `switchState` (366), the state `src` being the one seen by that thread -/
  | command (src dst : S402)
  /-- homing sets or clears its flag (209, 238, 279 of motor.h) -/
  | execute (b : Bool)
  /-- 480-484 -/
  | init
  /-- 535-541 -/
  | recover
  /-- 518-533 -/
  | halt

/-- what is observed: writes of the control word and the target (canopen_402/src/motor.cpp:415-435), results of `setTarget` and
`enterModeAndWait` (canopen_402/src/motor.cpp:244-270) and the mode written to the device (canopen_402/src/motor.cpp:302-357) -/
inductive Out where
  | wrote (cw : BitVec 16) (target : Option Int)
  | accepted (ok : Bool)
  | switched (mode : Nat) (ok : Bool)
  | threw
  | requested (mode : Nat)
  deriving DecidableEq

/-- canopen_402/src/motor.cpp:302-322 with a mode to enter -/
def Motor.beginSwitch (m : Motor) (mode : Nat) : Motor × List Out :=
  match m.canAlloc mode with
  | none => (m, [.threw])
  | some false => (m, [.switched mode false])
  | some true =>
    if m.modeId = mode ∧ m.selected = some mode then
      ({ m with modes := startMode mode m.modes }, [.switched mode true])
    else ({ m with modes := startMode mode m.modes, selected := none, phase := .toSwitching mode }, [])

/-- canopen_402/src/motor.cpp:518-533 `handleHalt` -/
def Motor.handleHalt (m : Motor) : Motor :=
  if m.hs = .faultReaction ∨ m.hs = .fault then m
  else if m.hs ≠ .enabled then { m with target := m.hs }
  else { m with target := .quickStop, cw := (setTransition m.cw m.hs .quickStop false).1 }

/-- the flag of the homing handler (canopen_402/src/motor.cpp:209, 238, canopen_402/include/canopen_402/motor.h:279) -/
def setExecute (b : Bool) (modes : Nat → Option Mode) (k : Nat) : Option Mode :=
  if k = 6 then
    match modes k with
    | some (.homing h) => some (.homing { h with execute := b })
    | o => o
  else modes k

/-- canopen_402/src/motor.cpp:324-357, one event of the thread in `switchMode`: `switchState` returns -/
def Motor.stateDone (m : Motor) (ok : Bool) : Motor × List Out :=
  match m.phase with
  | .toSwitching mode =>
    if ok then ({ m with phase := .waitMode mode }, [.requested mode]) else ({ m with phase := .idle }, [.switched mode false])
  | .toEnabled mode okay => ({ m with phase := .idle }, [.switched mode (ok && okay)])
  | _ => (m, [])

/-- canopen_402/src/motor.cpp:330-351: the wait for the mode display -/
def Motor.modeDone (m : Motor) (timeout : Bool) : Motor × List Out :=
  match m.phase with
  | .waitMode mode =>
    if m.modeId = mode then ({ m with selected := some mode, phase := .toEnabled mode true }, [])
    else if timeout then ({ m with phase := .toEnabled mode false }, [.requested m.modeId])
    else (m, [])
  | _ => (m, [])

/-- canopen_402/src/motor.cpp:535-541 -/
def Motor.handleRecover (m : Motor) : Motor :=
  match m.selected with
  | some k => { m with sfr := true, modes := startMode k m.modes }
  | none => { m with sfr := true }

/-- one event: canopen_402/src/motor.cpp:190-251, 291-357, 379-437, 471-547 -/
def Motor.step (m : Motor) : Ev → Motor × List Out
  | .read sw disp => (m.readState sw disp, [])
  | .write => ((m.handleWrite).1, [.wrote m.handleWrite.2.1 m.handleWrite.2.2])
  | .setTarget v => ((m.setTarget v).1, [.accepted (m.setTarget v).2])
  | .request mode =>
    if mode = 0 then ({ m with selected := none }, [.requested 0, .switched 0 true])
    else if m.phase = .idle then m.beginSwitch mode
    else (m, [])
  | .stateDone ok => m.stateDone ok
  | .modeDone timeout => m.modeDone timeout
  | .exception => if m.phase = .idle then (m, []) else ({ m with phase := .idle }, [.threw])
  | .command src dst => ({ m with cw := (setTransition m.cw src dst true).1 }, [])
  | .execute b => ({ m with modes := setExecute b m.modes }, [])
  | .init => ({ m with cw := 0, sfr := true }, [])
  | .recover => (m.handleRecover, [])
  | .halt => (m.handleHalt, [])

/-- a history: canopen_402/src/motor.cpp:245-251, 291-357, 379-408, 414-437 -/
def Motor.run (m : Motor) : List Ev → Motor × List Out
  | [] => (m, [])
  | e :: es =>
    let r := m.step e
    let q := r.1.run es
    (q.1, r.2 ++ q.2)

/-! ## Diagnostics -/

/-- canopen_402/src/motor.cpp:442-469, the part of `handleDiag` after the status word and the state were taken: severities reported in order (1 warning,
2 error; the value added for the unknown state is left out) -/
def diagReport (sw : BitVec 16) (state : S402) : List Nat :=
  (match state with
   | .notReady | .disabled | .ready | .switchedOn => [1]
   | .enabled => []
   | .quickStop => [2]
   | .fault | .faultReaction => [2]
   | .unknown => [2])
  ++ (if sw &&& 0x80 ≠ 0 then [1] else [])
  ++ (if sw &&& 0x800 ≠ 0 then [2] else [])

/-- canopen_402/src/motor.cpp:438-470 `handleDiag`: the status word is taken from the motor (439), then the state (440).  The diagnostics run in a thread of
their own (canopen_chain_node/src/ros_chain.cpp:580-596, with a mutex that the control loop, 73-92, does not take), so anything (`between`) can happen in between. -/
def Motor.handleDiag (m : Motor) (between : List Ev) : List Nat := diagReport m.sw (m.run between).1.hs

end Verif.M402
