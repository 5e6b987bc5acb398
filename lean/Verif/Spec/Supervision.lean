import Verif.Model.Supervision
import Verif.Spec.MotorStack
import Verif.Spec.Driver

/-!
# What is watched in a chain
-/

namespace Verif.Spec.Sup
open Verif Verif.Lay Verif.Drv Verif.Sup Verif.Spec Verif.MStk

/-- what can go wrong: the bus fails, a node reports an emergency, reports that it is not operational, or is not heard for too long -/
inductive Fault where
  | bus
  | emergency (i : Nat)
  | down (i : Nat)
  | silent (i : Nat)

/-- the interval of the heartbeat of a node, if it is known without asking the device -/
def Interval (n : Nmt.Node) (v : Nat) : Prop := (n.hb.present = true ∧ n.hb.valid = true ∧ n.hb.buf.toNat = v) ∨ (n.hb.present = false ∧ v = 0)

/-- the fault is there, as far as the program knows -/
def Has (b : Bus) : Fault → Prop
  | .bus => b.driver.state.driver ≠ .ready
  | .emergency i => (b.emcys i).hasError = true
  | .down i => (b.nodes i).state ≠ 5#8
  | .silent i => ∃ v, Interval (b.nodes i) v ∧ v ≠ 0 ∧ (b.nodes i).hbTimeout < b.now

/-- header of the error control messages of a node (CiA 301: 0x700 plus its number) -/
def errorControl (id : Byte) : Header := { id := BitVec.ofNat 29 (0x700 + id.toNat), isError := false, isRtr := false, isExtended := false }

/-- header of emergency messages for an entry 0x1014 (CiA 301: identifier in bits 0 to 28, bit 29 for extended ones) -/
def emergencyHeader (cob : BitVec 32) : Header := { id := cob.setWidth 29, isError := false, isRtr := false, isExtended := cob.getLsbD 29 }

/-- the frame has this header -/
def Carries (k : KFrame) (h : Header) : Prop := (fromKernel default k).toHeader = h

/-- this brings the fault about -/
def RaisedBy (b : Bus) : Fault → In → Prop
  | .bus, .read k => k.canId.getLsbD 29 = true ∧ ∃ c, k.canId.getLsbD (errBitNo c) = true ∧ b.driver.fatalMask.getLsbD (errBitNo c) = true
  | .bus, .readError _ => True
  | .bus, .send f ec => f.dlc.toNat ≤ 8 ∧ ec ≠ 0
  | .emergency i, .read k => Carries k (emergencyHeader (b.cobs i)) ∧ 2 < k.dlc.toNat ∧ ∃ j, j ≠ 5 ∧ k.data[2].getLsbD j = true
  | .down i, .read k => (b.nodes i).listening = true ∧ (∃ v, Interval (b.nodes i) v) ∧ Carries k (errorControl (b.nodes i).id) ∧ 0 < k.dlc.toNat ∧ k.data[0] ≠ 5#8
  | _, _ => False

/-- only this can end the fault (besides a new initialisation or recovery): another message of the same kind from this node; nothing for the bus -/
def MayEnd (b : Bus) : Fault → In → Prop
  | .emergency i, .read k => Carries k (emergencyHeader (b.cobs i))
  | .down i, .read k => Carries k (errorControl (b.nodes i).id)
  | .silent i, .read k => Carries k (errorControl (b.nodes i).id)
  | _, _ => False

/-- the time that passes -/
def elapsed : List In → Nat
  | [] => 0
  | .time d :: es => d + elapsed es
  | _ :: es => elapsed es

mutual
/-- some layer of the tree is such -/
def SomeLeaf {σ : Type} (P : Handlers σ → Prop) : Tree σ → Prop
  | .leaf _ _ h _ => P h
  | .group _ _ ms => SomeOf P ms
def SomeOf {σ : Type} (P : Handlers σ → Prop) : List (Tree σ) → Prop
  | [] => False
  | t :: ts => SomeLeaf P t ∨ SomeOf P ts
end

mutual
/-- all layers of the tree are such -/
def EveryLeaf {σ : Type} (P : Handlers σ → Prop) : Tree σ → Prop
  | .leaf _ _ h _ => P h
  | .group _ _ ms => EveryOf P ms
def EveryOf {σ : Type} (P : Handlers σ → Prop) : List (Tree σ) → Prop
  | [] => True
  | t :: ts => EveryLeaf P t ∧ EveryOf P ts
end

/-- the layer that is there for the fault: CAN layer, emergency handler, node -/
def Watches : Fault → Handlers (World Bus) → Prop
  | .bus, h => ∃ pre o, h = canHandlers pre o
  | .emergency i, h => ∃ pre o, h = emcyHandlers pre o i
  | .down i, h => ∃ pre sdo pdo out o, h = nodeHandlers pre sdo pdo out o i
  | .silent i, h => ∃ pre sdo pdo out o, h = nodeHandlers pre sdo pdo out o i

/-- what a layer does in a cycle, and what happens meanwhile, does not end the fault -/
def Keeps (f : Fault) (h : Handlers (World Bus)) : Prop :=
  ∀ m st w s, m = .read ∨ m = .write ∨ m = .halt → Has w.rest f → Has (h.run m st w s).1.rest f

end Verif.Spec.Sup
