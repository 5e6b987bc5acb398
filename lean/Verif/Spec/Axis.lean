import Verif.Model.Axis
import Verif.Spec.Pdo
import Verif.Spec.Motor

/-!
# What is expected of an axis

Frames are looked at through the slices of the mapped objects (`Verif.Spec.Pdo.slice`), read as little-endian numbers; what the drive reports is taken
from the frames received.  Histories of these functions are lists of events, latest first.
-/

namespace Verif.Spec.Axis
open Verif Verif.Pdo Verif.Spec.Pdo Verif.Axis

/-- little-endian number without sign -/
def unsigned (bs : List Byte) : Nat := bs.foldr (fun b n => b.toNat + 256 * n) 0

/-- little-endian number with sign, in two's complement -/
def signed (bs : List Byte) : Int :=
  if 2 * unsigned bs < 256 ^ bs.length then unsigned bs else (unsigned bs : Int) - (256 ^ bs.length : Nat)

/-- the control word in a frame -/
def controlWord (L : Layout) (f : Frame) : BitVec 16 := BitVec.ofNat 16 (unsigned (slice (sizesOf L.tx) L.cw f))

/-- the target of the object at place `j` in a frame -/
def targetAt (L : Layout) (j : Nat) (f : Frame) : Int := signed (slice (sizesOf L.tx) j f)

/-- the bytes of object `i` in the last frame received -/
def heard (sizes : List Nat) (i : Nat) : List Ev → Option (List Byte)
  | [] => none
  | .frame f :: _ => some (slice sizes i f)
  | _ :: h => heard sizes i h

/-- the bytes of object `i` when the motor last looked: those of the last frame then received, or the initial ones -/
def seen (sizes : List Nat) (init : Nat → Option (List Byte)) (i : Nat) : List Ev → Option (List Byte)
  | [] => none
  | .read :: h => (heard sizes i h).or (init i)
  | _ :: h => seen sizes init i h

/-- when the motor last looked, the drive reported to be enabled -/
def Enabled (L : Layout) (h : List Ev) : Prop :=
  ∃ bs, seen (sizesOf L.rx) (initOf L.rx) L.sw h = some bs ∧
    Spec.M402.fits "xxxxxxxxx01x0111".toList (BitVec.ofNat 16 (unsigned bs)) = true

/-- when the motor last looked, the drive reported to be in mode `k` -/
def Displays (L : Layout) (h : List Ev) (k : Nat) : Prop :=
  ∃ bs, seen (sizesOf L.rx) (initOf L.rx) L.disp h = some bs ∧ signed bs = k

/-- the objects are mapped with the sizes of their types and the types of the targets have the ranges of the modes; the status word and the mode
display both have initial values or neither has -/
structure Ok (L : Layout) (m0 : M402.Motor) : Prop where
  tx : Fits L.tx
  rx : Fits L.rx
  dlc : L.f0.dlc.toNat = (sizesOf L.tx).sum
  cw : L.cw < L.tx.length ∧ (sizesOf L.tx).getD L.cw 0 = 2
  tgt : ∀ k j, L.tgt k = some j → j < L.tx.length ∧ j ≠ L.cw ∧ (sizesOf L.tx).getD j 0 = L.width k
  sw : L.sw < L.rx.length ∧ (sizesOf L.rx).getD L.sw 0 = 2
  disp : L.disp < L.rx.length ∧ (sizesOf L.rx).getD L.disp 0 = 1
  init : (initOf L.rx L.sw).isSome = (initOf L.rx L.disp).isSome
  range : ∀ k j o s w t, L.tgt k = some j → m0.modes k = some (.forward o s w t) →
    -(256 ^ L.width k : Int) ≤ 2 * t.lo ∧ 2 * t.hi < 256 ^ L.width k

/-- frames of the drive are long enough, and whoever writes the control word writes a value of its type -/
def Sized (L : Layout) (es : List Ev) : Prop :=
  (∀ f, Ev.frame f ∈ es → (sizesOf L.rx).sum ≤ f.dlc.toNat) ∧ (∀ v, Ev.object L.cw v ∈ es → v.length = 2)

/-- frames of the drive are long enough, and nobody but the motor writes the control word and the targets -/
def Proper (L : Layout) (es : List Ev) : Prop :=
  (∀ f, Ev.frame f ∈ es → (sizesOf L.rx).sum ≤ f.dlc.toNat) ∧
  (∀ i v, Ev.object i v ∈ es → i ≠ L.cw ∧ ∀ k, L.tgt k ≠ some i)

/-- the last frame sent -/
def lastFrame : List (Option Frame) → Option Frame
  | [] => none
  | o :: os => (lastFrame os).or o

/-- In the history `es` the handle `kind` sent the target `v` and mode `k` took it; since then that mode took no other one. -/
def LastTarget (L : Layout) (conv : Rob.Kind → M402.Dbl → M402.Dbl) (a0 : Axis) (es : List Ev) (k : Nat) (kind : Rob.Kind) (v : M402.Dbl) : Prop :=
  ∃ p e q a os, es = p ++ .joint e :: q ∧ run L conv a0 p = .ok (a, os) ∧ .sent kind v ∈ (Cyc.step conv a.c e).2 ∧
    a.m.selected = some k ∧ (a.m.setTarget v).2 = true ∧
    ∀ q1 e' q2 b os' kind' v', q = q1 ++ .joint e' :: q2 → run L conv a0 (p ++ .joint e :: q1) = .ok (b, os') →
      .sent kind' v' ∈ (Cyc.step conv b.c e').2 → b.m.selected = some k → (b.m.setTarget v').2 = false

end Verif.Spec.Axis
