import Verif.Model.Homing

/-! Specification of homing: a CiA 402 drive in homing mode, and the world of motor, bus and drive. -/

namespace Verif.Spec.Homing
open Verif Verif.M402 Verif.Hom

/-- what a drive in homing mode does (CiA 402-2, homing mode): not started, running, home position attained but still moving, done; or an error,
moving or standing; or interrupted because the start bit was taken away.  `left` is a drive that still reports an earlier homing as done. -/
inductive Drive where
  | idle | running | attained | done | failed | failedStopped | interrupted | left
  deriving DecidableEq, Repr

/-- error, attained, reached: bits 13, 12, 10 of the status word -/
def Drive.bits : Drive → BitVec 16
  | .idle => 0x400 | .running => 0 | .attained => 0x1000 | .done => 0x1400
  | .failed => 0x2000 | .failedStopped => 0x2400 | .interrupted => 0x400 | .left => 0x1400

/-- a drive gets a control word: a rising start bit starts homing, a missing one interrupts it -/
def Drive.receive (d : Drive) (last start : Bool) : Drive :=
  if start && !last then .running
  else if !start && (d == .running || d == .attained) then .interrupted
  else d

/-- what a drive may do by itself -/
inductive Drive.Moves : Drive → Drive → Prop
  | attain : Moves .running .attained
  | reach : Moves .attained .done
  | atOnce : Moves .running .done
  | fail : Moves .running .failed
  | failLate : Moves .attained .failed
  | stop : Moves .failed .failedStopped

/-- the motor, the drive, the start bit in the last written and the last received control word, and the status last published -/
structure World where
  sys : Sys
  drive : Drive
  out : Bool
  last : Bool
  inb : BitVec 16

/-- one thing happens: a read cycle (the bits of no interest are arbitrary), a write cycle, delivery in either direction, a move of the drive, the
thread is woken up, or its wait times out -/
inductive World.Step : World → World → Prop
  | read (w : World) (sw : BitVec 16) (h : sw &&& 0x3400 = w.inb) : Step w { w with sys := w.sys.step (.read sw) }
  | write (w : World) (cw : BitVec 16) : Step w { w with out := w.sys.startBit cw }
  | deliver (w : World) : Step w { w with drive := w.drive.receive w.last w.out, last := w.out }
  | publish (w : World) : Step w { w with inb := w.drive.bits }
  | move (w : World) (d : Drive) (h : w.drive.Moves d) : Step w { w with drive := d }
  | wake (w : World) (now : Int) : Step w { w with sys := w.sys.step (.wake now) }
  | timeout (w : World) (now : Int) : Step w { w with sys := w.sys.step (.timeout now) }

/-- reachable in any number of steps -/
inductive World.Reach : World → World → Prop
  | refl (w : World) : Reach w w
  | step (a b c : World) : Reach a b → World.Step b c → Reach a c

/-- homing begins: the mode has been entered (its flag and its status are cleared), no start bit has been written, and the drive has not been homed -/
def World.initial (v : BitVec 8) (now : Int) (inb : BitVec 16) : World :=
  { sys := begin { execute := false, status := 0 } (.value v) now, drive := .idle, out := false, last := false, inb := inb }

/-- the reasons that are time-outs -/
def isTimeout : Why → Bool
  | .notPrepared => true | .didNotStart => true | .notAttained => true | .didNotStop => true
  | _ => false

end Verif.Spec.Homing
