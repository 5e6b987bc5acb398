import Verif.Model.ChainLog
import Verif.Spec.Chain

/-!
# Specification vocabulary for the console of a chain node
-/

namespace Verif.Spec
open Verif Verif.Lay Verif.Chain Verif.ChainLog

/-- the name under which a request appears on the console -/
def RequestName : Ev → Text → Prop
  | .init _, t => t = "Initializing".toList
  | .recover, t => t = "Recovering".toList
  | .halt, t => t = "Halting down".toList
  | .shutdown, t => t = "Shutting down".toList
  | _, _ => False

/-- a line that tells how a request ended -/
inductive Tells (name : Text) : Resp → Line → Prop
  | failed (m) : m ≠ [] → Tells name ⟨false, m⟩ ⟨.error, name ++ " failed: ".toList ++ m⟩
  | failedPlain : Tells name ⟨false, []⟩ ⟨.error, name ++ " failed".toList⟩
  | done (m) : m ≠ [] → Tells name ⟨true, m⟩ ⟨.info, name ++ " successful: ".toList ++ m⟩
  | donePlain : Tells name ⟨true, []⟩ ⟨.info, name ++ " successful".toList⟩
  | warned (m) : Tells name ⟨true, m⟩ ⟨.warn, name ++ " successful with warning(s): ".toList ++ m⟩

/-- a cycle ended with an error or worse, resp. with warnings only -/
def Bad (s : Status) : Prop := ¬ AtMostWarn s

/-- times do not go back -/
def Forward (cs : List (Nat × Status)) : Prop := cs.Pairwise fun a b => a.1 ≤ b.1

end Verif.Spec
