import Verif.Model.Motor

/-!
# What the CiA 402 standard says, and what is expected of a motor
Independent of how the motor works: only the names of the states, `Dbl`, the events and the outputs are shared with the model.
-/

namespace Verif.Spec.M402
open Verif Verif.M402

/-! ## Status word (CiA 402, table of the state coding) -/

/-- the table: bits 15 to 0, `x` is any value -/
def stateTable : List (S402 × List Char) :=
  [(.notReady, "xxxxxxxxx0xx0000".toList),
   (.disabled, "xxxxxxxxx1xx0000".toList),
   (.ready, "xxxxxxxxx01x0001".toList),
   (.switchedOn, "xxxxxxxxx01x0011".toList),
   (.enabled, "xxxxxxxxx01x0111".toList),
   (.quickStop, "xxxxxxxxx00x0111".toList),
   (.faultReaction, "xxxxxxxxx0xx1111".toList),
   (.fault, "xxxxxxxxx0xx1000".toList)]

/-- a bit fits a letter of the table -/
def fitsBit (c : Char) (b : Bool) : Bool := if c = '0' then !b else if c = '1' then b else true

/-- a status word fits a line of the table -/
def fits (p : List Char) (sw : BitVec 16) : Bool :=
  p.length = 16 && (List.range 16).all fun i => fitsBit (p.getD (15 - i) 'x') (sw.getLsbD i)

/-! ## Control word (CiA 402, commands and transitions) -/

/-- the commands of the standard -/
inductive Command where
  | shutdown | switchOn | enableOperation | disableVoltage | quickStop
  deriving DecidableEq

/-- the command in a control word with bit 7 clear, by its bits 3 to 0 (switch on and disable operation are the same word) -/
def command (cw : BitVec 16) : Command :=
  if cw.getLsbD 1 = false then .disableVoltage
  else if cw.getLsbD 2 = false then .quickStop
  else if cw.getLsbD 0 = false then .shutdown
  else if cw.getLsbD 3 = false then .switchOn
  else .enableOperation

/-- where the command takes a drive (transitions 2 to 12 and 16) -/
def follow : S402 → Command → S402
  | .disabled, .shutdown => .ready                 -- 2
  | .ready, .switchOn => .switchedOn               -- 3
  | .ready, .enableOperation => .switchedOn        -- 3, 4 follows
  | .switchedOn, .enableOperation => .enabled      -- 4
  | .enabled, .switchOn => .switchedOn             -- 5
  | .switchedOn, .shutdown => .ready               -- 6
  | .ready, .disableVoltage => .disabled           -- 7
  | .ready, .quickStop => .disabled                -- 7
  | .enabled, .shutdown => .ready                  -- 8
  | .enabled, .disableVoltage => .disabled         -- 9
  | .switchedOn, .disableVoltage => .disabled      -- 10
  | .switchedOn, .quickStop => .disabled           -- 10
  | .enabled, .quickStop => .quickStop             -- 11
  | .quickStop, .disableVoltage => .disabled       -- 12
  | .quickStop, .enableOperation => .enabled       -- 16
  | s, _ => s

/-- a conforming drive in state `s` that last saw `prev` and now sees `cw`: the transitions 0, 1 and 14 are automatic, 15 (fault reset) needs a
rising edge of bit 7, the other commands need bit 7 clear -/
def drive (s : S402) (prev cw : BitVec 16) : S402 :=
  match s with
  | .unknown => .notReady
  | .notReady => .disabled
  | .faultReaction => .fault
  | .fault => if cw.getLsbD 7 = true ∧ prev.getLsbD 7 = false then .disabled else .fault
  | s => if cw.getLsbD 7 = true then s else follow s (command cw)

/-- the pairs of states between which the motor can be asked to go directly (the list of the transitions of canopen_402) -/
def transitions : List (S402 × S402) :=
  [(.ready, .disabled), (.enabled, .disabled), (.switchedOn, .disabled), (.quickStop, .disabled),
   (.unknown, .notReady), (.notReady, .disabled), (.faultReaction, .fault),
   (.disabled, .ready), (.switchedOn, .ready), (.enabled, .ready),
   (.ready, .switchedOn), (.enabled, .switchedOn),
   (.switchedOn, .enabled), (.quickStop, .enabled),
   (.ready, .quickStop), (.switchedOn, .quickStop), (.enabled, .quickStop),
   (.fault, .disabled)]

/-- the transitions among them that a drive makes by itself -/
def automatic : List (S402 × S402) := [(.unknown, .notReady), (.notReady, .disabled), (.faultReaction, .fault)]

/-- the object with the target of an operation mode, its sub-index and its number of bits, for the modes whose target is just written -/
def targetObject : Nat → Option (Nat × Nat × Nat)
  | 2 => some (0x6042, 0, 16)   -- vl target velocity
  | 3 => some (0x60FF, 0, 32)   -- target velocity
  | 4 => some (0x6071, 0, 16)   -- target torque
  | 7 => some (0x60C1, 1, 32)   -- interpolation data record
  | 8 => some (0x607A, 0, 32)   -- target position
  | 9 => some (0x60FF, 0, 32)   -- target velocity
  | 10 => some (0x6071, 0, 16)  -- target torque
  | _ => none

/-- CiA 402: the bits of the control word that are to be set while such a mode runs: in velocity mode (2) bits 4 to 6 (ramp generator on, following the
ramp, using the reference), in interpolated position mode (7) bit 4 (interpolation on) -/
def runBits : Nat → List Nat
  | 2 => [4, 5, 6]
  | 7 => [4]
  | _ => []

/-- the modes there is a handler for: CiA 402 without the reserved number 5 -/
def knownMode (k : Nat) : Prop := 1 ≤ k ∧ k ≤ 10 ∧ k ≠ 5

/-! ## A motor and a drive -/

/-- what the drive does in one cycle -/
inductive Answer where
  /-- it sees the control word and acts on it -/
  | acts
  /-- the control word is lost -/
  | misses
  /-- it sees the control word, but an automatic transition is not finished yet -/
  | busy
  deriving DecidableEq

/-- a motor with its drive: the state of the drive and the last control word it saw -/
structure Plant where
  m : Motor
  d : S402
  prev : BitVec 16

/-- one cycle: the drive reports its state (in a status word `sw` and with a mode display), the motor commands the next step towards operation enable
and writes, the drive answers -/
def cycle (p : Plant) (sw : BitVec 16) (disp : BitVec 8) (a : Answer) : Plant :=
  let m1 := (p.m.step (.read sw disp)).1
  let m2 := (m1.step (.command m1.hs .enabled)).1
  let w := m2.handleWrite.2.1
  let m3 := (m2.step .write).1
  match a with
  | .acts => { m := m3, d := drive p.d p.prev w, prev := w }
  | .misses => { m := m3, d := p.d, prev := p.prev }
  | .busy => { m := m3, d := if p.d = .unknown ∨ p.d = .notReady ∨ p.d = .faultReaction then p.d else drive p.d p.prev w, prev := w }

/-- with these answers, and whatever truthful status words and mode displays are read, the drive is enabled at some point -/
inductive Reaches : Plant → List Answer → Prop where
  | here {p as} : p.d = .enabled → Reaches p as
  | later {p a as} : (∀ sw disp, decode sw = p.d → Reaches (cycle p sw disp a) as) → Reaches p (a :: as)

/-- `q` can be the situation after cycles with these answers and truthful status words -/
inductive Cycles : Plant → List Answer → Plant → Prop where
  | nil {p} : Cycles p [] p
  | cons {p sw disp a as q} : decode sw = p.d → Cycles (cycle p sw disp a) as q → Cycles p (a :: as) q

/-! ## Targets -/

/-- `n` is the integer part of `q` -/
def IsIntegerPart (q : Rat) (n : Int) : Prop := (0 ≤ q → (n : Rat) ≤ q ∧ q < n + 1) ∧ (q < 0 → (n : Rat) - 1 < q ∧ q ≤ n)

/-- `n` limited to a range -/
def limit (lo hi n : Int) : Int := if n < lo then lo else if hi < n then hi else n

/-- the value stored for a target given as a floating point number -/
def Stored (lo hi : Int) : Dbl → Int → Prop
  | .nan, _ => False
  | .posInf, v => v = hi
  | .negInf, v => v = lo
  | .fin q, v => ∃ n, IsIntegerPart q n ∧ v = limit lo hi n

/-! ## Histories of a motor -/

/-- the event gives mode `k` nothing else to do and does not restart it: it is no accepted target while the mode is selected, no request for the mode
and no recovery while it is selected -/
def LeavesAlone (m : Motor) (k : Nat) : Ev → Prop
  | .setTarget v => m.selected = some k → (m.step (.setTarget v)).2 = [.accepted false]
  | .request j => m.phase = .idle → j ≠ k
  | .recover => m.selected ≠ some k
  | _ => True

/-- all the events of `b`, which follow `a`, leave mode `k` alone -/
def Quiet (m0 : Motor) (a b : List Ev) (k : Nat) : Prop :=
  ∀ b1 e b2, b = b1 ++ e :: b2 → LeavesAlone (m0.run (a ++ b1)).1 k e

/-- in the history `es` the mode `k` was last given the target `v` after it was last entered -/
def Given (m0 : Motor) (es : List Ev) (k : Nat) (v : Dbl) : Prop :=
  ∃ a b, es = a ++ .setTarget v :: b ∧ (m0.run a).1.selected = some k ∧ ((m0.run a).1.step (.setTarget v)).2 = [.accepted true] ∧
    Quiet m0 (a ++ [.setTarget v]) b k

/-- in the history `es` homing was started after the mode `k` was last entered, and has not been stopped -/
def HomingStarted (m0 : Motor) (es : List Ev) (k : Nat) : Prop :=
  ∃ a b, es = a ++ .execute true :: b ∧ Quiet m0 (a ++ [.execute true]) b k ∧ Ev.execute false ∉ b

/-- the last status word read -/
def lastWord (es : List Ev) : Option (BitVec 16) :=
  es.foldl (fun s e => match e with | .read sw _ => some sw | _ => s) none

/-- the mode display last read, as a mode number (negative displays are not modes) -/
def lastDisplay (es : List Ev) : Option Nat :=
  es.foldl (fun s e => match e with | .read _ d => some (d.signExtend 16).toNat | _ => s) none

/-- a motor that has just been constructed, for a device object of whatever range around 0 and with whatever is in the uninitialised members -/
structure Fresh (m : Motor) : Prop where
  hs : m.hs = .unknown
  selected : m.selected = none
  phase : m.phase = .idle
  ranges : ∀ k o s w t, m.modes k = some (.forward o s w t) → t.lo ≤ 0 ∧ 0 ≤ t.hi
  ranges' : ∀ k p, m.modes k = some (.profPos p) → p.t.lo ≤ 0 ∧ 0 ≤ p.t.hi

/-- the device supports the mode: bit `k - 1` of object 0x6502 -/
def Supported (drives : Option (BitVec 32)) (k : Nat) : Prop := ∃ d, drives = some d ∧ 1 ≤ k ∧ k ≤ 32 ∧ d.getLsbD (k - 1) = true

/-! ## Profiled position mode -/

/-- the target in force: the last one accepted since the mode was started -/
def inForce (tr : List PObs) : Option Dbl :=
  tr.foldl (fun g o => match o with | .started => none | .given v true => some v | _ => g) none

/-- the last status word read since the mode was started -/
def statusWord (tr : List PObs) : BitVec 16 :=
  tr.foldl (fun g o => match o with | .started => 0 | .status sw => sw | _ => g) 0

/-- the last target sent to the drive since the mode was started -/
def lastSent (tr : List PObs) : Option Int :=
  tr.foldl (fun g o => match o with | .started => none | .wrote _ _ (some t) => some t | _ => g) none

/-- the bit "new set-point" of a control word -/
def newSetPoint (cw : BitVec 16) : Bool := cw.getLsbD 4

/-- the bit "set-point acknowledged" of a status word -/
def acknowledged (sw : BitVec 16) : Bool := sw.getLsbD 12

end Verif.Spec.M402
