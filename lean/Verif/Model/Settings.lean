import Verif.Model.Driver

/-!
# Settings of drivers and motors
socketcan_interface/include/socketcan_interface/settings.h, socketcan_interface/include/socketcan_interface/xmlrpc_settings.h,
canopen_402/include/canopen_402/motor.h:295-299
-/

namespace Verif.Cfg
open Verif Verif.Drv

/-- `XmlRpc::XmlRpcValue` (used in socketcan_interface/include/socketcan_interface/xmlrpc_settings.h:10-41): booleans, integers,
texts, structs; everything else (doubles, arrays, …) is represented by what it prints.  The names of a struct are a `std::map`. -/
inductive Tree where
  | bool (b : Bool)
  | int (i : Int)
  | str (t : Text)
  | other (t : Text)
  | struct (fs : List (Text × Tree))

/-- `getType() == TypeStruct` (socketcan_interface/include/socketcan_interface/xmlrpc_settings.h:26) -/
def Tree.isStruct : Tree → Bool
  | .struct _ => true
  | _ => false

/-- `hasMember` and `operator[]` (socketcan_interface/include/socketcan_interface/xmlrpc_settings.h:28-29, 32-34); a value that is no
struct has no members -/
def Tree.member : Tree → Text → Option Tree
  | .struct fs, n => fs.lookup n
  | _, _ => none

/-- `sstr << value` (socketcan_interface/include/socketcan_interface/xmlrpc_settings.h:33-35).  Library behaviour: a boolean prints as
`0` or `1`, an integer in decimal, a text as itself; what a struct prints is the parameter `ps`. -/
def Tree.print (ps : List (Text × Tree) → Text) : Tree → Text
  | .bool b => if b then ['1'] else ['0']
  | .int i => (toString i).toList
  | .str t => t
  | .other t => t
  | .struct fs => ps fs

/-- the loop and the final lookup of `getRepr` (socketcan_interface/include/socketcan_interface/xmlrpc_settings.h:21-32); the first
argument bounds the number of iterations: each of them shortens the name -/
def walk : Nat → Tree → Text → Option Tree
  | 0, _, _ => none
  | f + 1, v, n =>
    if v.isStruct ∧ '/' ∈ n then
      match v.member (n.takeWhile (· ≠ '/')) with
      | none => none
      | some w => walk f w ((n.dropWhile (· ≠ '/')).drop 1)
    else v.member n

/-- `XmlRpcSettings::getRepr` (socketcan_interface/include/socketcan_interface/xmlrpc_settings.h:21-39) -/
def xmlRepr (ps : List (Text × Tree) → Text) (v : Tree) : Settings := fun n => (walk (n.length + 1) v n).map (Tree.print ps)

/-- `NoSettings::getRepr` (socketcan_interface/include/socketcan_interface/settings.h:38) -/
def noSettings : Settings := fun _ => none

/-- a parameter name, relative to a node handle or absolute (`ns` of
socketcan_interface/include/socketcan_interface/xmlrpc_settings.h:15), as a path; `"/"` is the absolute empty path -/
inductive Name where
  | absolute (p : List Text)
  | relative (p : List Text)

/-- the path a node handle in namespace `ns` asks for (`ros::NodeHandle::resolveName`, library, used by `getParam` in
socketcan_interface/include/socketcan_interface/xmlrpc_settings.h:17): the namespace is put in front of relative names only -/
def Name.resolve (ns : List Text) : Name → List Text
  | .absolute p => p
  | .relative p => ns ++ p

/-- the parameter at a path of the parameter server (library, used by `getParam` in
socketcan_interface/include/socketcan_interface/xmlrpc_settings.h:17) -/
def Tree.at (root : Tree) : List Text → Option Tree
  | [] => some root
  | s :: p =>
    match root.member s with
    | some w => w.at p
    | none => none

/-- `XmlRpcSettings::create(nh, ns)` (socketcan_interface/include/socketcan_interface/xmlrpc_settings.h:15-19): a parameter that does
not exist leaves an invalid value, which has no members -/
def create (root : Tree) (nh : List Text) (n : Name) : Tree := (root.at (n.resolve nh)).getD (.other [])

/-- the default of `ns` (socketcan_interface/include/socketcan_interface/xmlrpc_settings.h:15) -/
def defaultName : Name := .absolute []

/-- values set in a `SettingsMap` (socketcan_interface/include/socketcan_interface/settings.h:51-53): the types used with it -/
inductive Val where
  | bool (b : Bool)
  | unsigned (n : Nat)
  | str (t : Text)
  deriving DecidableEq, Repr

/-- `boost::lexical_cast<std::string>(val)` (socketcan_interface/include/socketcan_interface/settings.h:52) -/
def Val.print : Val → Text
  | .bool b => if b then ['1'] else ['0']
  | .unsigned n => (toString n).toList
  | .str t => t

/-- `SettingsMap::settings_` (socketcan_interface/include/socketcan_interface/settings.h:42) -/
abbrev SMap := List (Text × Text)

/-- `SettingsMap::set` (socketcan_interface/include/socketcan_interface/settings.h:51-53): `operator[]` of the map and an assignment -/
def SMap.set (m : SMap) (n : Text) (v : Val) : SMap := (n, v.print) :: m.filter (fun e => e.1 ≠ n)

/-- `SettingsMap::getRepr` (socketcan_interface/include/socketcan_interface/settings.h:43-48) -/
def SMap.repr (m : SMap) : Settings := fun n => m.lookup n

/-- decimal digits of a 32 bit number in `boost::lexical_cast<unsigned int>` (library, called in
socketcan_interface/include/socketcan_interface/settings.h:19, 24); `none` if it is empty, has other characters or is too large -/
def digits32 (s : Text) : Option Nat :=
  if s = [] then none
  else if s.all Char.isDigit then
    let n := s.foldl (fun a c => 10 * a + (c.toNat - 48)) 0
    if n < 2 ^ 32 then some n else none
  else none

/-- `boost::lexical_cast<unsigned int>` (library, called in socketcan_interface/include/socketcan_interface/settings.h:19, 24):
decimal digits with an optional sign; a minus negates modulo 2^32.  `none` is `bad_lexical_cast`. -/
def lexicalUnsigned : Text → Option Nat
  | '+' :: r => digits32 r
  | '-' :: r => (digits32 r).map (fun n => (2 ^ 32 - n) % 2 ^ 32)
  | r => digits32 r

/-- `Settings::get_optional<T>` (socketcan_interface/include/socketcan_interface/settings.h:14-20); `cast` is the `lexical_cast` -/
def getOptional {α : Type} (cast : Text → Option α) (st : Settings) (n : Text) (dflt : α) : Outcome Exc α :=
  match st n with
  | none => .ok dflt
  | some r =>
    match cast r with
    | some v => .ok v
    | none => .throws .badLexicalCast

/-- `Settings::get<T>` (socketcan_interface/include/socketcan_interface/settings.h:21-26): `val` before and after, and the result -/
def getInto {α : Type} (cast : Text → Option α) (st : Settings) (n : Text) (val : α) : Outcome Exc (α × Bool) :=
  match st n with
  | none => .ok (val, false)
  | some r =>
    match cast r with
    | some v => .ok (v, true)
    | none => .throws .badLexicalCast

/-- the three settings of a motor (canopen_402/include/canopen_402/motor.h:377-379) -/
structure MotorSettings where
  /-- number of the state in which modes are switched -/
  switchingState : Nat
  /-- `monitor_mode_` -/
  monitorMode : Bool
  /-- seconds -/
  timeout : Nat
  deriving DecidableEq, Repr

/-- the initialisers of `Motor402` (canopen_402/include/canopen_402/motor.h:295-299); `Operation_Enable` is 5 (line 45) -/
def motorSettings (st : Settings) : Outcome Exc MotorSettings :=
  match getOptional lexicalUnsigned st "switching_state".toList 5 with
  | .ok a =>
    match getOptional lexicalBool st "monitor_mode".toList true with
    | .ok b =>
      match getOptional lexicalUnsigned st "state_switch_timeout".toList 5 with
      | .ok c => .ok ⟨a, b, c⟩
      | .throws x => .throws x
      | .ub => .ub
    | .throws x => .throws x
    | .ub => .ub
  | .throws x => .throws x
  | .ub => .ub

end Verif.Cfg
