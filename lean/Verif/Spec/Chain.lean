import Verif.Model.Chain
import Verif.Spec.Layer

/-!
# Specification vocabulary for the chain node
-/

namespace Verif.Spec
open Verif Verif.Lay Verif.Chain

variable {σ : Type}

/-- the control thread created by an `init` request begins before this request is answered -/
def Timely : Ev → Prop
  | .init b => b = true
  | _ => True

/-- all error resets are done in order and none throws -/
inductive AllReset : List (Resetter σ) → Env σ → Env σ → Prop
  | nil (e) : AllReset [] e e
  | cons (f fs e w rs e') : f e.world e.status = (w, rs, none) →
      AllReset fs { e with world := w, status := rs.foldl Status.report e.status } e' → AllReset (f :: fs) e e'

/-- a chain that was set up with layers that are off and has a history behind it -/
def ReachedChain (c : Chain σ) : Prop :=
  ∃ ms rf em pubs sync e evs, (∀ t ∈ ms, Uniform .off t) ∧ c = ((Chain.fresh ms rf em pubs sync).run e evs).1

/-- the lines a node's report contains: one per entry whose level is reached, in order; the value read or `<ERROR>` -/
inductive Lines (level : Nat) : List (LogEntry σ) → σ → List (Text × Text) → Prop
  | nil (w) : Lines level [] w []
  | skip (en es w ls) : level < en.level.toNat → Lines level es w ls → Lines level (en :: es) w ls
  | value (en es w w' v ls) : en.level.toNat ≤ level → en.get w = (w', some v) → Lines level es w' ls →
      Lines level (en :: es) w ((en.name, v) :: ls)
  | failed (en es w w' ls) : en.level.toNat ≤ level → en.get w = (w', none) → Lines level es w' ls →
      Lines level (en :: es) w ((en.name, "<ERROR>".toList) :: ls)

/-- the publishers are called in order up to the first that throws; its text, if any -/
inductive Published : List (Publisher σ) → σ → σ → Option Text → Prop
  | nil (w) : Published [] w w none
  | fails (f fs w w' t) : f w = (w', some t) → Published (f :: fs) w w' (some t)
  | cons (f fs w w' w'' o) : f w = (w', none) → Published fs w' w'' o → Published (f :: fs) w w'' o

end Verif.Spec
