import Verif.Model.Registration

/-!
# Registration of joints: notions used to state C96
-/

namespace Verif.Spec.Reg
open Verif.Rob Verif.Reg

/-- the modes of operation of CiA 402 that are commanded by position, velocity and effort -/
def modesOf : Kind → List Nat
  | .pos => [1, 7, 8]
  | .vel => [2, 3, 9]
  | .eff => [4, 10]

/-- the motor can be commanded that way -/
def Can (h : Handle) (k : Kind) : Prop := ∃ m ∈ modesOf k, h.supports m = true

/-- `name` has the limits `l` for commands of kind `k`, in the robot description, completed by the parameters -/
def HasLimits (o : Outside) (name : String) (k : Kind) (l : Limits) : Prop :=
  ∃ jt, o.joint name = some jt ∧
    (match o.params name, jt.limits with
     | some f, some l0 => l = f l0
     | some f, none => l = f ⟨false, false, false, 0⟩
     | none, some l0 => l = l0
     | none, none => False) ∧
    (match k with
     | .pos => l.hasPos = true
     | .vel => l.hasVel = true
     | .eff => l.hasEff = true)

/-- soft limits of a joint -/
def HasSoft (o : Outside) (name : String) (s : Nat) : Prop := ∃ jt, o.joint name = some jt ∧ jt.soft = some s

end Verif.Spec.Reg
