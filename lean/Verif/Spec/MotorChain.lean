import Verif.Model.MotorChain
import Verif.Spec.Setup

/-! Specification of the set-up of a chain of motors. -/

namespace Verif.Spec.MotorChain
open Verif Verif.Merge Verif.Setup Verif.MCh Verif.Spec.Setup

/-- a string parameter that is missing, which means `dflt`, or has the value `s` -/
def TextIs (w : World) (m : Fields) (key dflt s : String) : Prop :=
  (m.get? key = none ∧ s = dflt) ∨ ∃ x, m.get? key = some (.leaf x) ∧ w.leaf x = .str s

/-- filters that are missing or can be configured for the joint -/
def FilterOk (o : Outside) (m : Fields) (joint filter : String) : Prop := ∀ v, m.get? filter = some v → o.filters joint filter v = some true

/-- The motor follows the parameters `m` of its node `n`: its joint is the parameter "joint", or else named like the node, and exists in the robot
description; the allocator makes a motor from the given settings and the objects of the node; there are no obsolete factors; expressions not given
have the documented defaults (radian and radian per second to thousandths of a degree) and all of them are accepted; its filters can be configured. -/
def MotorOf (w : World) (o : Outside) (m : Fields) (n : NodeSetup) (s : MotorSetup) : Prop :=
  TextIs w m "joint" n.name s.joint ∧ o.joints s.joint = true ∧ s.name = s.joint ++ "_motor" ∧
  TextIs w m "motor_allocator" "canopen::Motor402::Allocator" s.allocator ∧ s.settings = m.get? "motor_layer" ∧ s.id = n.id ∧ s.dict = n.dict ∧
  o.alloc s.allocator s.name n.id n.dict s.settings = .motor ∧
  m.get? "pos_unit_factor" = none ∧ m.get? "vel_unit_factor" = none ∧ m.get? "eff_unit_factor" = none ∧
  (TextIs w m "pos_to_device" "rint(rad2deg(pos)*1000)" s.exprs.posTo ∧ TextIs w m "pos_from_device" "deg2rad(obj6064)/1000" s.exprs.posFrom ∧
    TextIs w m "vel_to_device" "rint(rad2deg(vel)*1000)" s.exprs.velTo ∧ TextIs w m "vel_from_device" "deg2rad(obj606C)/1000" s.exprs.velFrom ∧
    TextIs w m "eff_to_device" "rint(eff)" s.exprs.effTo ∧ TextIs w m "eff_from_device" "0" s.exprs.effFrom) ∧
  (∀ e ∈ [s.exprs.posTo, s.exprs.posFrom, s.exprs.velTo, s.exprs.velFrom, s.exprs.effTo, s.exprs.effFrom], o.parses e = true) ∧
  ∀ f ∈ ["position_filters", "velocity_filters", "effort_filters"], FilterOk o m s.joint f

/-- node and motor follow what is given for the node -/
def Both (w : World) (o : Outside) (defaults : XVal) (given : Nat × XVal) (r : NodeSetup × MotorSetup) : Prop :=
  Follows w defaults given r.1 ∧ ∃ m, Merged given.2 defaults m ∧ MotorOf w o m r.1 r.2

/-- the periods of the updates made at the given times, the first one counted from `last` -/
def elapsed (last : Int) : List Int → List Int
  | [] => []
  | t :: ts => (t - last) :: elapsed t ts

end Verif.Spec.MotorChain
