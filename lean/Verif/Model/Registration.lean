import Verif.Model.Robot

/-!
# Registration of joints and their limits
canopen_motor_node/src/robot_layer.cpp:31-80, canopen_motor_node/src/handle_layer.cpp:94-136, 206-211,
canopen_motor_node/include/canopen_motor_node/handle_layer.h:111-142

The limits handles, the robot description and the parameter server are outside of this code: their answers are parameters.
-/

namespace Verif.Reg
open Verif.Rob

/-- `joint_limits_interface::JointLimits` as used in canopen_motor_node/src/robot_layer.cpp:42-56: which limits there are; `bounds` stands for
their values -/
structure Limits where
  hasPos : Bool
  hasVel : Bool
  hasEff : Bool
  bounds : Nat
  deriving DecidableEq, Repr

/-- the flags tested at canopen_motor_node/src/handle_layer.cpp:103, 116, 129 -/
def Limits.has (l : Limits) : Kind → Bool
  | .pos => l.hasPos
  | .vel => l.hasVel
  | .eff => l.hasEff

/-- an element of `limits_` (canopen_motor_node/src/handle_layer.cpp:104-132): a saturation or soft limits handle of an interface -/
structure LimitsHandle where
  kind : Kind
  limits : Limits
  soft : Option Nat
  deriving DecidableEq, Repr

/-- a joint of the robot description: `getJointLimits` and `getSoftJointLimits` (canopen_motor_node/src/robot_layer.cpp:52, 56) -/
structure Joint where
  limits : Option Limits
  soft : Option Nat

/-- What is outside at the time of an initialisation: the robot description, the limits on the parameter server, which replace or complete others
(canopen_motor_node/src/robot_layer.cpp:54), and whether the constructor of a limits handle throws -/
structure Outside where
  joint : String → Option Joint
  params : String → Option (Limits → Limits)
  refuses : LimitsHandle → Bool

/-- `JointLimits()` (canopen_motor_node/src/robot_layer.cpp:42): no limits -/
def noLimits : Limits := { hasPos := false, hasVel := false, hasEff := false, bounds := 0 }

/-- canopen_motor_node/src/robot_layer.cpp:52-56: the limits, and the soft limits if there are any limits -/
def limitsOf (o : Outside) (name : String) (j : Joint) : Limits × Option Nat :=
  let l := j.limits.getD noLimits
  let l := match o.params name with
    | some f => f l
    | none => l
  (l, if j.limits.isSome || (o.params name).isSome then j.soft else none)

/-- a handle layer with its limits handles `limits_` (canopen_motor_node/include/canopen_motor_node/handle_layer.h:109-132) -/
structure JointH where
  h : Handle
  limits : List LimitsHandle

/-- `RobotLayer` as far as registration goes (canopen_motor_node/include/canopen_motor_node/robot_layer.h:20-44): the names registered at the four
interfaces, the handles, `first_init_` -/
structure Robot where
  states : List String
  ifaces : Kind → List String
  handles : List (String × JointH)
  first : Bool

/-- the constructor (canopen_motor_node/src/robot_layer.cpp:31-39) with the handles added afterwards (26-29), not registered yet.  `handles_` is an
unordered map: its order is any. -/
def Robot.fresh (hs : List (String × Handle)) : Robot :=
  { states := [], ifaces := fun _ => [], handles := hs.map fun p => (p.1, ⟨p.2, []⟩), first := true }

/-- registration at an interface: a name that is there already is replaced (`ResourceManager::registerHandle`, called at
canopen_motor_node/include/canopen_motor_node/handle_layer.h:122, 141) -/
def register (l : List String) (n : String) : List String := if n ∈ l then l else l ++ [n]

/-- canopen_motor_node/src/handle_layer.cpp:99-136 `registerHandle` with `addHandle`
(canopen_motor_node/include/canopen_motor_node/handle_layer.h:111-128): the handle afterwards, whether it was registered at the interface, and
whether a constructor threw -/
def JointH.register (o : Outside) (j : JointH) (k : Kind) (l : Limits) (soft : Option Nat) : JointH × Bool × Bool :=
  if !(interfaceModes k).any j.h.supports then (j, false, false)
  else
    let j := { j with h := j.h.addHandle k }
    if !l.has k then (j, true, false)
    else if o.refuses ⟨k, l, none⟩ then (j, true, true)
    else
      let j := { j with limits := j.limits ++ [⟨k, l, none⟩] }
      match soft with
      | none => (j, true, false)
      | some s => if o.refuses ⟨k, l, some s⟩ then (j, true, true) else ({ j with limits := j.limits ++ [⟨k, l, some s⟩] }, true, false)

/-- the three registrations of one joint (canopen_motor_node/src/robot_layer.cpp:68-70); an exception ends them -/
def registerAll (o : Outside) (name : String) (l : Limits) (soft : Option Nat) :
    List Kind → JointH × (Kind → List String) → (JointH × (Kind → List String)) × Bool
  | [], s => (s, true)
  | k :: ks, (j, ifs) =>
    let r := j.register o k l soft
    let ifs := if r.2.1 then fun k' => if k' = k then Reg.register (ifs k) name else ifs k' else ifs
    if r.2.2 then ((r.1, ifs), false) else registerAll o name l soft ks (r.1, ifs)

/-- how the registration ended (canopen_motor_node/src/robot_layer.cpp:41-76): done, with a joint that is not in the robot description, with an
exception -/
inductive End where
  | done | missing (name : String) | exception
  deriving DecidableEq, Repr

/-- the loop canopen_motor_node/src/robot_layer.cpp:42-71: `before` has been done already -/
def loop (o : Outside) : List (String × JointH) → Robot → List (String × JointH) → Robot × End
  | before, r, [] => ({ r with handles := before, first := false }, .done)
  | before, r, (n, j) :: rest =>
    match o.joint n with
    | none => ({ r with handles := before ++ (n, j) :: rest }, .missing n)
    | some jt =>
      let ls := limitsOf o n jt
      let s := registerAll o n ls.1 ls.2 [.pos, .vel, .eff] (j, r.ifaces)
      let r' := { r with states := Reg.register r.states n, ifaces := s.1.2 }
      if s.2 then loop o (before ++ [(n, s.1.1)]) r' rest else ({ r' with handles := before ++ (n, s.1.1) :: rest }, .exception)

/-- canopen_motor_node/src/robot_layer.cpp:41-74 `handleInit` up to the initialisation of the handles -/
def Robot.init (o : Outside) (r : Robot) : Robot × End := if r.first then loop o [] r r.handles else (r, .done)

/-- any number of initialisations (canopen_motor_node/src/robot_layer.cpp:41-76) -/
def Robot.inits (r : Robot) : List Outside → Robot × List End
  | [] => (r, [])
  | o :: os => (((r.init o).1.inits os).1, (r.init o).2 :: ((r.init o).1.inits os).2)

/-- canopen_motor_node/src/handle_layer.cpp:206-211 `enforceLimits`: every limits handle is reset if asked for and changes the command of its
interface if limits are enabled.  `lib h first v` is what handle `h` makes of the command `v`, `first` if it was just reset; `reset` of handles other than
position saturation and position soft limits is empty (canopen_motor_node/src/handle_layer.cpp:8-17). -/
def JointH.enforce {V : Type} (lib : LimitsHandle → Bool → V → V) (reset : Bool) (j : JointH) (cmd : Kind → V) : Kind → V :=
  j.limits.foldl (fun cmd h => if j.h.limits then fun k => if k = h.kind then lib h (reset && decide (h.kind = .pos)) (cmd k) else cmd k else cmd) cmd

end Verif.Reg
