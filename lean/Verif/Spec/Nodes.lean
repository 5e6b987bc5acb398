import Verif.Model.Nodes

/-!
# Vocabulary for the nodes of a bus
-/

namespace Verif.Spec.Many
open Verif Verif.Many

/-- what has to do with node `i` if it listens for the identifiers `keys`: frames with one of them and what is done with this node -/
def concerns (i : Nat) (keys : List (BitVec 32)) : Ev → Bool
  | .frame f _ => decide (f.key ∈ keys)
  | .listen l _ => decide (l.1 = i)
  | .drop l _ => decide (l.1 = i)
  | .own j _ => decide (j = i)

/-- CiA 301, pre-defined connection set: the identifiers a device with number `n` sends by default: EMCY, four TPDOs, SDO, error control -/
def predefined (n : Nat) : List Nat := [0x80 + n, 0x180 + n, 0x280 + n, 0x380 + n, 0x480 + n, 0x580 + n, 0x700 + n]

/-- a node that can handle frames: the heartbeat interval is known if there is one, and its PDO buffers have their sizes -/
def Fit (s : Station) : Prop :=
  (s.node.hb.present = true → s.node.hb.valid = true) ∧ ∀ k r, s.rpdos k = some r → ∀ b ∈ r.bufs, b.buffer.length = b.size

end Verif.Spec.Many
