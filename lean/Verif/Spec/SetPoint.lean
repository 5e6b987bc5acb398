import Verif.Spec.Motor

/-!
# A drive in profiled position mode: notions used to state C115

The drive follows the handshake of CiA 402: it adopts the target position when the bit "new set-point" rises while it does not acknowledge one, acknowledges it,
and takes the acknowledge back when the bit is low.  Control word and target position travel to it in one process data object, its status word travels back in
another; both in order and with any delay.
-/

namespace Verif.Spec.SetPoint
open Verif Verif.M402 Verif.Spec.M402

/-- the drive: whether it acknowledges a set-point, the bit in the control word it looked at last, and the targets it adopted, the first one first -/
structure Drive where
  ack : Bool
  was : Bool
  adopted : List Int

/-- the drive looks at a control word and a target position -/
def Drive.take (d : Drive) (x : BitVec 16 × Int) : Drive :=
  if newSetPoint x.1 then
    if d.was || d.ack then { d with was := true } else { ack := true, was := true, adopted := d.adopted ++ [x.2] }
  else { d with ack := false, was := false }

/-- a status word of a drive -/
def statusOf (bits : BitVec 16) (ack : Bool) : BitVec 16 := if ack then bits ||| 0x1000 else bits &&& 0xEFFF

/-- the mode with its control word and the object 0x607A, the drive, what is on its way in either direction, and what could be observed of the mode -/
structure Sys where
  p : ProfPos
  cw : BitVec 16
  obj : Int
  out : List (BitVec 16 × Int)
  back : List (BitVec 16)
  drive : Drive
  tr : List PObs

/-- what can happen -/
inductive Ev where
  /-- a command -/
  | target (v : Dbl)
  /-- a write cycle; control word and target position are sent -/
  | write
  /-- the bits of the control word that do not belong to the handshake change -/
  | other (cw : BitVec 16)
  /-- the drive looks at the next frame -/
  | take
  /-- the drive has looked at all frames that are there -/
  | takeAll
  /-- the drive sends its status word -/
  | report (bits : BitVec 16)
  /-- a read cycle -/
  | read
  /-- read cycles until there is nothing new -/
  | readAll
  /-- the next frame is overwritten by the one after it before the drive looks at it -/
  | skip

/-- a step of the mode -/
def Sys.mode (s : Sys) (e : PEv) : Sys :=
  { s with p := (pstep (s.p, s.cw) e).1.1, cw := (pstep (s.p, s.cw) e).1.2, tr := s.tr ++ (pstep (s.p, s.cw) e).2 }

/-- one frame -/
def Sys.take (s : Sys) : Sys :=
  match s.out with
  | [] => s
  | x :: q => { s with drive := s.drive.take x, out := q }

/-- one status word -/
def Sys.read (s : Sys) : Sys :=
  match s.back with
  | [] => s
  | w :: q => Sys.mode { s with back := q } (.read w)

/-- `n` times -/
def times (f : Sys → Sys) : Nat → Sys → Sys
  | 0, s => s
  | n + 1, s => times f n (f s)

/-- the target position a write cycle sends: the one written now or the one the object had -/
def nowSent (s : Sys) : Int := ((s.p.write s.cw).2.2.2).getD s.obj

/-- one step -/
def Sys.step (s : Sys) : Ev → Sys
  | .target v => s.mode (.target v)
  | .write =>
    let t := s.mode .write
    { t with obj := nowSent s, out := s.out ++ [(t.cw, nowSent s)] }
  | .other w => if newSetPoint w = newSetPoint s.cw then { s with cw := w } else s
  | .take => s.take
  | .takeAll => times Sys.take s.out.length s
  | .report bits => { s with back := s.back ++ [statusOf bits s.drive.ack] }
  | .read => s.read
  | .readAll => times Sys.read s.back.length s
  | .skip =>
    match s.out with
    | _ :: y :: q => { s with out := y :: q }
    | _ => s

/-- a history -/
def Sys.run (s : Sys) : List Ev → Sys
  | [] => s
  | e :: es => (s.step e).run es

/-- the mode has just been started; the drive has looked at the control word, whatever it is, and acknowledges it or not -/
def begins (p : ProfPos) (cw : BitVec 16) (obj : Int) (ack : Bool) : Sys :=
  { p := (pstep (p, cw) .start).1.1, cw := cw, obj := obj, out := [], back := [],
    drive := { ack := ack && newSetPoint cw, was := newSetPoint cw, adopted := [] }, tr := [.started] }

/-- the targets sent, the first one first -/
def sentTargets (tr : List PObs) : List Int := tr.filterMap fun o => match o with
  | .wrote _ _ t => t
  | _ => none

/-- nothing is there twice in a row -/
def NoRepeat (l : List Int) : Prop := ∀ a x b, l ≠ a ++ x :: x :: b

/-- no frame is overwritten before the drive looks at it -/
def Seen : Ev → Prop
  | .skip => False
  | _ => True

/-- no new command -/
def Calm : Ev → Prop
  | .target _ => False
  | _ => True

/-- everybody does something, in whatever order -/
structure Round (es : List Ev) : Prop where
  write : Ev.write ∈ es
  take : Ev.takeAll ∈ es
  report : ∃ b, Ev.report b ∈ es
  read : Ev.readAll ∈ es

end Verif.Spec.SetPoint
