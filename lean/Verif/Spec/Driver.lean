import Verif.Model.Driver

/-!
# Specification vocabulary for the driver
-/

namespace Verif.Spec
open Verif Verif.Drv

/-- the bit number linux assigns to an error class -/
def errBitNo : ErrClass → Nat
  | .txTimeout => 0 | .lostarb => 1 | .crtl => 2 | .prot => 3 | .trx => 4 | .ack => 5 | .busoff => 6 | .buserror => 7
  | .restarted => 8

/-- the texts for error classes, by bit number, in the order they are listed -/
def errTexts : List (Nat × String) :=
  [(0, "TX timeout (by netdevice driver);"), (1, "lost arbitration;"), (2, "controller problems;"), (3, "protocol violations;"),
   (4, "transceiver status;"), (6, "bus off;"), (8, "controller restarted;")]

/-- classes fatal without settings -/
def fatalByDefault : ErrClass → Bool
  | .txTimeout | .busoff | .buserror | .restarted => true
  | _ => false

/-- a recorded state sequence without immediate repetitions, starting after `s` -/
def changes (s : State) : List State → List State
  | [] => []
  | t :: ts => if t = s then changes s ts else t :: changes t ts

/-- the primitive state updates -/
inductive Update where
  | errorCode (e : Int)
  | internalError (e : BitVec 32)
  | driver (x : DriverState)

/-- what an update means for the recorded state -/
def applyUpdate (s : State) : Update → State
  | .errorCode e => { s with errorCode := e }
  | .internalError e => { s with internalError := e }
  | .driver x => { s with driver := x }

/-- recorded states after each update -/
def states (s : State) : List Update → List State
  | [] => []
  | u :: us => applyUpdate s u :: states (applyUpdate s u) us

/-- what the application is given for a frame `k` of the kernel: identifier, flags, length and payload (for an error frame the
extended and remote flags are left open) -/
def Received (k : KFrame) (f : Frame) : Prop :=
  f.isError = k.canId.getLsbD 29 ∧ f.dlc = k.dlc ∧
  (∀ i : Nat, (h : i < 8) → i < k.dlc.toNat → f.data[i] = k.data[i]) ∧
  (∀ i : Nat, f.id.getLsbD i = (k.canId.getLsbD i &&
    decide (i < if k.canId.getLsbD 29 || k.canId.getLsbD 31 then 29 else 11))) ∧
  (k.canId.getLsbD 29 = false → f.isExtended = k.canId.getLsbD 31 ∧ f.isRtr = k.canId.getLsbD 30)

/-- the frames read from the socket in a history -/
def kernelReads : List Op → List KFrame
  | [] => []
  | .readOk k :: os => k :: kernelReads os
  | _ :: os => kernelReads os

/-- `a` and `b` have the same length and are related element by element -/
def Pointwise {α β : Type} (R : α → β → Prop) : List α → List β → Prop
  | [], [] => True
  | a :: as, b :: bs => R a b ∧ Pointwise R as bs
  | _, _ => False

/-- the texts accepted as a boolean setting, and their value: any number of zeros around, a `+` before, a `-` only before zero -/
def BoolText (s : Text) (b : Bool) : Prop :=
  ∃ (sign : Text) (z : Nat), s = sign ++ List.replicate z '0' ++ [if b then '1' else '0'] ∧
    (sign = [] ∨ sign = ['+'] ∨ (sign = ['-'] ∧ b = false))

end Verif.Spec
