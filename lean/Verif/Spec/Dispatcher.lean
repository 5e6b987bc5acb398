import Verif.Model.Dispatcher

/-!
# Abstract view of dispatching: who is alive, who is interested
Only the type of operations is taken from the model.
-/

namespace Verif.Spec
open Verif.Disp

variable {K ι : Type} [DecidableEq K] [DecidableEq ι]

/-- how one operation changes the set of live listeners (oldest first, each with the key it was created for,
`none` = all messages) -/
def liveStep (live : List (ι × Option K)) : Op K ι → List (ι × Option K)
  | .create g l => live ++ [(l, g)]
  | .destroy _ l => live.filter (fun x => x.1 ≠ l)
  | .dispatch _ => live

/-- The listeners alive after a history. -/
def liveAfter (h : List (Op K ι)) : List (ι × Option K) := h.foldl liveStep []

omit [DecidableEq K] [DecidableEq ι] in
/-- An operation respects object life times: a new listener has an address not in use, and only a live listener is
destroyed, with the guard it was created with. -/
def OpOk (live : List (ι × Option K)) : Op K ι → Prop
  | .create _ l => ∀ g, (l, g) ∉ live
  | .destroy g l => (l, g) ∈ live
  | .dispatch _ => True

/-- every operation of the history respects object life times -/
def WellFormed (h : List (Op K ι)) : Prop :=
  ∀ pre op post, h = pre ++ op :: post → OpOk (liveAfter pre) op

end Verif.Spec
