import Verif.Model.NodeLayer
import Verif.Spec.Node

/-! Specification of initialising, recovering and shutting down a node. -/

namespace Verif.Spec.NodeLayer
open Verif Verif.Nmt

/-- the NMT command frame with this specifier for this node -/
def command (spec node : Byte) : Frame :=
  { id := 0, isError := false, isRtr := false, isExtended := false, data := #v[spec, node, 0, 0, 0, 0, 0, 0], dlc := 2 }

/-- what the master does, apart from what it is told or assumes -/
def work : List Item → List Item
  | [] => []
  | .told _ :: l => work l
  | .assumed _ :: l => work l
  | x :: l => x :: work l

/-- the whole initialisation in order: reset communication (130), PDOs, configured values, start (1) -/
def plan (node : Byte) : List Item := [.sent (command 130 node), .isReset, .pdos, .configured, .sent (command 1 node)]

/-- `s` is the latest news of the state of the device: it was reported or, where allowed, assumed, and nothing else came later -/
def Latest (l : List Item) (s : Byte) : Prop :=
  ∃ l1 x l2, l = l1 ++ x :: l2 ∧ (x = .told s ∨ x = .assumed s) ∧
    ∀ y ∈ l2, (∀ s', y = .told s' → s' = s) ∧ (∀ s', y = .assumed s' → s' = s) ∧ y ≠ .isReset

/-- the steps that belong to the calling thread -/
def isCaller : IEv → Bool
  | .frame _ _ => false
  | _ => true

/-- no report of the operational state is handled -/
def NoOperational (es : List SEv) : Prop := ∀ f t, SEv.frame f t ∈ es → f.data[0] ≠ 5

end Verif.Spec.NodeLayer
