import Verif.Model.ChainBus

/-!
# Specification vocabulary for the bus part of a chain
-/

namespace Verif.Spec
open Verif Verif.Cfg

/-- the parameter at a path of the parameter server is the value `v` -/
def ParamIs (root : Tree) (path : List Text) (v : Tree) : Prop := root.at path = some v

/-- the text a text parameter has; the default if there is none or if it is something else -/
def TextParam (root : Tree) (path : List Text) (dflt t : Text) : Prop :=
  ParamIs root path (.str t) ∨ ((∀ t', ¬ ParamIs root path (.str t')) ∧ t = dflt)

/-- the path of a bus parameter of a node -/
def busPath (priv : List Text) (n : String) : List Text := priv ++ ["bus".toList, n.toList]

end Verif.Spec
