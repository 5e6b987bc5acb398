import Verif.Model.Robot

/-! Specification of controller switching, independent of the code's loops. -/

namespace Verif.Spec.Rob
open Verif Verif.Rob Verif.Lay

/-- The kind of command each drive mode of CiA 402 takes: position modes 1, 7, 8, velocity modes 2, 3, 9, torque modes
4 and 10. -/
def takes : Mode → Option Kind
  | 1 => some .pos | 7 => some .pos | 8 => some .pos
  | 2 => some .vel | 3 => some .vel | 9 => some .vel
  | 4 => some .eff | 10 => some .eff
  | _ => none

/-- The mode the parameters of a controller require for a joint: the entry of the joint, else the common mode. -/
inductive Requires (p : Params) (j : String) : Mode → Prop
  | listed {m l} : p.modes = some l → l.lookup j = some m → Requires p j m
  | common {m} : (∀ l, p.modes = some l → l.lookup j = none) → p.defaultMode = some m → Requires p j m

/-- Controller `c` claims joint `j` through interface `i`. -/
def Claims (c : Controller) (i j : String) : Prop := ∃ js, (i, js) ∈ c.claims ∧ j ∈ js

/-- Joint `j` can be driven through interface `i` in mode `m` right now. -/
structure CanServe (r : Robot) (i j : String) (m : Mode) : Prop where
  /-- the joint exists, supports the mode, and is in the mode or ready to switch -/
  joint : ∃ h, r.handles j = some h ∧ h.supports m = true ∧ (h.commands.lookup m).isSome ∧ (h.mode = m ∨ h.state = .ready)
  /-- the mode takes commands of the claimed interface -/
  iface : ∀ k, takes m = some k → i = k.iface

/-- A controller may be started. -/
structure Admissible (r : Robot) (p : Params) (c : Controller) : Prop where
  /-- every claimed joint can serve -/
  serve : ∀ i j, Claims c i j → ∃ m, Requires p j m ∧ CanServe r i j m
  /-- controllers with several interfaces list the modes joint by joint -/
  mixed : ∀ i j i' j', Claims c i j → Claims c i' j' → i ≠ i' → p.modes.isSome

/-- The joint is in no mode and no command is sent to its motor. -/
def Stopped (r : Robot) (j : String) : Prop :=
  ∃ h, r.handles j = some h ∧ h.mode = 0 ∧ ∀ s, h.sends s = none

/-- The joint is in mode `m`, and connected to the command this mode takes. -/
def InMode (r : Robot) (j : String) (m : Mode) : Prop :=
  ∃ h, r.handles j = some h ∧ h.mode = m ∧ h.commands.lookup m = some h.jh

/-- The records of two controllers have no joint in common. -/
def Apart (a b : List SwitchData) : Prop := ∀ d ∈ a, ∀ e ∈ b, d.joint ≠ e.joint

/-- Handles as they are built by the code: only the modes of the table lead to a command. -/
def Regular (h : Handle) : Prop := ∀ m k, h.commands.lookup m = some k → takes m = k ∧ (k = none → m = 0)

/-- Every joint is regular, and no motor offers "no mode" as a drive mode. -/
def Sane (r : Robot) : Prop := ∀ j h, r.handles j = some h → Regular h ∧ h.commands.lookup 0 = some none ∧ h.supports 0 = false

/-- All recorded joints exist. -/
def Known (r : Robot) : Prop := ∀ n sw, r.switchMap n = some sw → ∀ d ∈ sw, (r.handles d.joint).isSome

end Verif.Spec.Rob

namespace Verif.Spec.Rob
open Verif Verif.Rob Verif.Lay

/-- All robots that can arise: joints are added, controllers are switched, motors change by themselves. Motors never
offer "no mode" as a drive mode (canopen_402/src/motor.cpp 268-273). -/
inductive Built : Robot → Prop
  | empty : Built ⟨fun _ => none, fun _ => none, 0⟩
  | add {r n m s f} : Built r → f 0 = false → Built (r.add n (Handle.construct m s f).registerAll)
  | prepare {r params ans order start stop} : Built r → Built (r.prepareSwitch params ans order start stop).1
  | switch {r ans start} : Built r → Built (r.doSwitch ans [] start).1
  | motor {r j h m s} : Built r → r.handles j = some h → Built (r.setHandle j { h with mode := m, state := s })

/-- requests that follow: both phases of switching, with any parameters and any answers of the motors -/
inductive Later (r : Robot) : Robot → Prop
  | refl : Later r r
  | prepare {r' params ans order start stop} : Later r r' → Later r (r'.prepareSwitch params ans order start stop).1
  | switch {r' ans failed start} : Later r r' → Later r (r'.doSwitch ans failed start).1

end Verif.Spec.Rob
