import Verif.Model.SyncNode
import Verif.Spec.Master

/-!
# SYNC programs: notions used to state C97
-/

namespace Verif.Spec.SyncN
open Verif Verif.Lay Verif.SyncN

/-- SYNC is wanted for node `k`: it is not ignored, and monitored unless no node is -/
def Cares (c : Config) (k : Nat) : Prop := (k : Int) ∉ c.ignored ∧ (c.monitored = [] ∨ (k : Int) ∈ c.monitored)

/-- the bus is up whenever the node looks at it -/
def Healthy (a : Nat → Answer) : Prop := ∀ k, (a k).ready = true

/-- the frames on the bus during a history in which the bus is up, in their order; a report looks at the bus layer and the SYNC layer twice -/
def heard : List Ev → List (Frame × Bool)
  | [] => []
  | .frame f ok :: es => (f, ok) :: heard es
  | .report a :: es => (a 0).frames ++ ((a 1).frames ++ ((a 2).frames ++ ((a 3).frames ++ heard es)))

/-- all layers of the node, and their stack, are in state `s` -/
def AllIn (s : LayerState) (n : Node) : Prop := ∃ x y, n.stack = .group true s [x, y] ∧ x.state = s ∧ y.state = s

/-- the SYNC job for the header, period (ms) and overflow given -/
structure IsJob (h : Header) (ms overflow : Nat) (j : Bcm.Job) : Prop where
  id : j.canId.toNat % 2 ^ 31 = h.id.toNat ∧ (j.canId.toNat / 2 ^ 31 = 1 ↔ h.isExtended = true)
  period : j.sec * 1000000 + j.usec = ms * 1000 ∧ j.usec < 1000000
  frames : if overflow = 0 then j.frames = [(0, [])]
    else j.frames.length = overflow ∧ ∀ i (hi : i < j.frames.length), ∃ b : Byte, j.frames[i] = (1, [b]) ∧ b.toNat = i + 1

/-- command line argument for a monitored (`true`) or ignored node -/
def idArg (q : Bool × Nat) : Text := (if q.1 then '+' else '-') :: (toString q.2).toList

end Verif.Spec.SyncN
