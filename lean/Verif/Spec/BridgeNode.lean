import Verif.Spec.Can
import Verif.Spec.Filter
import Verif.Spec.Driver
import Verif.Model.BridgeNode

/-!
# What the parameter `can_ids` means
-/

namespace Verif.Spec.Brn
open Verif Verif.Brn

/-- the frames an element of the list selects: a number selects the data frames with that identifier (a number with flags: see C07), a text is a filter (C07) -/
def Selects : Item → Frame → Prop
  | .int n, f => (filterWord f.toHeader : Int) % 2 ^ 31 = n % 2 ^ 31
  | .str s, f => (Flt.tofilter s).pass f = true
  | .other, _ => False

/-- the frames to be published: all, or those selected by some element -/
def Wanted : Option Ids → Frame → Prop
  | none, _ => True
  | some (.list l), f => ∃ i ∈ l, Selects i f
  | some _, _ => False

/-- the values that can be used: lists of numbers and texts, and empty values -/
def Usable : Option Ids → Prop
  | none => True
  | some (.list l) => ∀ i ∈ l, i ≠ .other
  | some (.sized n) => n = 0
  | some .unsized => False

/-- what is written to the bus for a frame that is no error frame (C13): length, payload, identifier and flags -/
def OnWire (f : Frame) (k : Drv.KFrame) : Prop :=
  k.dlc = f.dlc ∧ (∀ i : Nat, (h : i < 8) → i < f.dlc.toNat → k.data[i] = f.data[i]) ∧
  ∀ i : Nat, k.canId.getLsbD i = (f.id.getLsbD i || (f.isExtended && decide (i = 31)) || (f.isRtr && decide (i = 30)))

/-- the messages of a history -/
def msgs : List NEv → List Bridge.Msg
  | [] => []
  | .msg m _ :: es => m :: msgs es
  | _ :: es => msgs es

end Verif.Spec.Brn
