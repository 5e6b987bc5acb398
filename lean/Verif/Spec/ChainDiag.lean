import Verif.Spec.Layer
import Verif.Model.Motor
import Verif.Model.NodeLayer
import Verif.Model.CanLayer

/-!
# Specification of what the diagnostics of a chain tell about its layers (C129)
-/

namespace Verif.Spec.CDiag
open Verif Verif.Lay Verif.M402

variable {σ : Type}

mutual
/-- the layers of a tree, without the groups and stacks that hold them -/
def layers : Tree σ → List (Handlers σ)
  | .leaf _ _ h _ => [h]
  | .group _ _ ms => layersAll ms
def layersAll : List (Tree σ) → List (Handlers σ)
  | [] => []
  | t :: ts => layers t ++ layersAll ts
end

/-- how bad a report is: 1 warning, 2 error, 3 stale -/
def weight : Report → Nat
  | .warn _ => 1
  | .error _ => 2
  | .stale _ => 3

/-- the layers are asked one after the other; each with the program and the status as the one before left them -/
def interviews (st : LayerState) : List (Handlers σ) → σ → Status → List (Handlers σ × σ × Status)
  | [], _, _ => []
  | h :: hs, w, s =>
    let r := h.run .diag st w s
    let told := r.2.1.foldl Status.report s
    (h, w, s) :: interviews st hs r.1 (match r.2.2 with | none => told | some t => told.set .error t)

/-- what a layer said when it was asked; an exception counts as an error -/
def said (st : LayerState) (q : Handlers σ × σ × Status) : List Nat :=
  (q.1.run .diag st q.2.1 q.2.2).2.1.map weight ++ (if (q.1.run .diag st q.2.1 q.2.2).2.2.isSome then [2] else [])

/-- what happens to the motor, in other threads; `quiet`: its status word is not read -/
def Allowed (quiet : Bool) (es : List Ev) : Prop := quiet = true → ∀ w d, Ev.read w d ∉ es

/-- the layer is the motor `get`: it throws nothing and reports what the diagnostics of the motor give (with some texts), while the motor may go on -/
def IsMotor (quiet : Bool) (get : σ → Motor) (h : Handlers σ) : Prop :=
  ∀ st w s, ∃ (between : List Ev) (text : Nat → Text), Allowed quiet between ∧ get (h.run .diag st w s).1 = ((get w).run between).1 ∧
    (h.run .diag st w s).2.1 = ((get w).handleDiag between).map fun v => if v = 1 then .warn (text v) else .error (text v)

/-- while a layer makes its report, the motor `get` may go on -/
def GoesOn (quiet : Bool) (get : σ → Motor) (h : Handlers σ) : Prop :=
  ∀ st w s, ∃ es, Allowed quiet es ∧ get (h.run .diag st w s).1 = ((get w).run es).1

/-- the layer is the node `get`, with the time `clock`: what its diagnostics find is an error, as is an exception -/
def IsNode (get : σ → Nmt.Node) (clock : σ → Int) (h : Handlers σ) : Prop :=
  ∀ st w s, ∃ (sdo : Option (BitVec 16)) (text : Text), (h.run .diag st w s).2 =
    match (get w).handleDiag (clock w) sdo with
    | .nothing => ([], none)
    | .notOperational _ => ([.error text], none)
    | .heartbeatTimeout => ([.error text], none)
    | .exception => ([], some text)

/-- the layer is the CAN layer with the recorded state of the driver and the last error frame `get` -/
def IsBus (get : σ → Drv.State × Frame) (h : Handlers σ) : Prop :=
  ∀ st w s, ∃ rs vs, CanL.diag (get w).1 (get w).2 = .ok (rs, vs) ∧ (h.run .diag st w s).2 = (rs, none)

/-- what can happen to the program while the layers are asked: `R` relates the program before to the program after -/
structure Course (R : σ → σ → Prop) (hs : List (Handlers σ)) : Prop where
  refl : ∀ w, R w w
  trans : ∀ a b c, R a b → R b c → R a c
  layer : ∀ h ∈ hs, ∀ st w s, R w (h.run .diag st w s).1

end Verif.Spec.CDiag
