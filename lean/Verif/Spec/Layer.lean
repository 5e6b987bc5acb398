import Verif.Model.Layer

/-!
# Specification vocabulary for layers
-/

namespace Verif.Spec
open Verif Verif.Lay

/-- severities reported -/
def reportSev : Report → Nat
  | .warn _ => 1 | .error _ => 2 | .stale _ => 3
def reportText : Report → Text
  | .warn r => r | .error r => r | .stale r => r

mutual
/-- every node of the tree is in state `s` -/
def Uniform {σ : Type} (s : LayerState) : Tree σ → Prop
  | .leaf _ st _ _ => st = s
  | .group _ st ms => st = s ∧ UniformAll s ms
def UniformAll {σ : Type} (s : LayerState) : List (Tree σ) → Prop
  | [] => True
  | t :: ts => Uniform s t ∧ UniformAll s ts
end

/-- phases of a layer as its implementer sees them -/
inductive Phase where
  | off | running | halted
  deriving DecidableEq, Repr

/-- which handler may run in which phase, and where it leads; `none` = must not happen -/
def lifeCycle : Phase → Method → Option Phase
  | .off, .init => some .running
  | .off, _ => none
  | .running, .shutdown => some .off
  | .halted, .shutdown => some .off
  | .running, .halt => some .halted
  | .halted, .recover => some .running
  | p, .read => some p
  | p, .write => some p
  | p, .diag => some p
  | _, _ => none

/-- phase after a sequence of handler invocations, `none` if a forbidden one occurred -/
def lifeAfter : List Method → Option Phase := fun l => l.foldl (fun p m => p.bind (lifeCycle · m)) (some .off)

def phaseOf : LayerState → Option Phase
  | .off => some .off
  | .error => some .halted
  | .ready => some .running
  | _ => none

mutual
/-- all leaves have seen only allowed handler invocations, and their layer state matches the phase -/
def LifeOk {σ : Type} : Tree σ → Prop
  | .leaf _ st _ tr => ∃ p, lifeAfter tr = some p ∧ phaseOf st = some p
  | .group _ _ ms => LifeOkAll ms
def LifeOkAll {σ : Type} : List (Tree σ) → Prop
  | [] => True
  | t :: ts => LifeOk t ∧ LifeOkAll ts
end

/-- status at most a warning -/
def AtMostWarn (s : Status) : Prop := s.sev = .ok ∨ s.sev = .warn

/-- `f` applied to the members one after the other, each exactly once, in list order -/
inductive InOrder {σ : Type} (f : Tree σ → Env σ → Tree σ × Env σ) : List (Tree σ) → Env σ → List (Tree σ) → Env σ → Prop
  | nil (e) : InOrder f [] e [] e
  | cons (t ts e t' e' ts' e'') : f t e = (t', e') → InOrder f ts e' ts' e'' → InOrder f (t :: ts) e (t' :: ts') e''

end Verif.Spec

namespace Verif.Spec
open Verif Verif.Lay

mutual
/-- a newly built tree: everything off, no handler has run yet -/
def Fresh {σ : Type} : Tree σ → Prop
  | .leaf _ st _ tr => st = .off ∧ tr = []
  | .group _ st ms => st = .off ∧ FreshAll ms
def FreshAll {σ : Type} : List (Tree σ) → Prop
  | [] => True
  | t :: ts => Fresh t ∧ FreshAll ts
end

/-- life cycle of a single layer: state after a call that ended with a status of at most a warning (`okay`) or worse -/
def nextLeaf (s : LayerState) (m : Method) (okay : Bool) : LayerState :=
  match m, s with
  | .init, .off => if okay then .ready else .off
  | .recover, .error => if okay then .ready else .error
  | .shutdown, _ => .off
  | .halt, .ready => .error
  | _, s => s

/-- life cycle of a group: additionally, a failing read or write takes it down -/
def nextGroup (s : LayerState) (m : Method) (okay : Bool) : LayerState :=
  match m, s with
  | .read, .ready => if okay then .ready else .error
  | .write, .ready => if okay then .ready else .error
  | m, s => nextLeaf s m okay

/-- a state a layer can be in between calls -/
def Settled (s : LayerState) : Prop := s = .off ∨ s = .error ∨ s = .ready

def IsGroup {σ : Type} : Tree σ → Prop
  | .leaf .. => False
  | .group .. => True

end Verif.Spec
