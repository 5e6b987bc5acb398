import Verif.Model.Robot

/-!
# The conversions of a joint and their variables
canopen_motor_node/include/canopen_motor_node/unit_converter.h, canopen_motor_node/include/canopen_motor_node/handle_layer.h, canopen_motor_node/src/handle_layer.cpp
-/

namespace Verif.Cnv
open Verif.Rob (Kind)
open Verif.M402 (Dbl)

/-- The expressions of muParser (not part of this code) that conversions are written in (canopen_motor_node/include/canopen_motor_node/unit_converter.h:17-32): numbers and
constants, variables, and operators and functions of any number of arguments. -/
inductive Expr where
  | num (v : Dbl)
  | var (n : Text)
  | app (k : Nat) (f : (Fin k → Dbl) → Dbl) (args : Fin k → Expr)

/-- one of the expressions separated by commas, with the variable its value is assigned to (canopen_motor_node/include/canopen_motor_node/unit_converter.h:31, 39).
Simplified: values are assigned at the top of an expression only. -/
structure Item where
  target : Option Text
  body : Expr

/-- the text of a conversion after parsing (canopen_motor_node/include/canopen_motor_node/unit_converter.h:31); texts that cannot be parsed are left out (see C94) -/
structure Program where
  first : Item
  rest : List Item

/-- the six converters (canopen_motor_node/src/handle_layer.cpp:51-57): `conv_target_pos_` … and `conv_pos_` … -/
inductive Conv where
  | toDevice (k : Kind)
  | fromDevice (k : Kind)
  deriving DecidableEq

/-- Where the value of a variable is: a command (canopen_motor_node/include/canopen_motor_node/handle_layer.h:94), the copy of an object (38) or a variable of the
converter itself (canopen_motor_node/include/canopen_motor_node/unit_converter.h:47-49) -/
inductive Place (κ : Type) where
  | cmd (k : Kind)
  | obj (key : κ)
  | own (c : Conv) (n : Text)
  deriving DecidableEq

/-- the name of the variable for the command (canopen_motor_node/src/handle_layer.cpp:51-53) -/
def cmdName : Kind → Text
  | .pos => "pos".toList
  | .vel => "vel".toList
  | .eff => "eff".toList

/-- `getVariable` (canopen_motor_node/include/canopen_motor_node/handle_layer.h:69-82; see `Verif.Cyc.getVariable`): the object a name stands for; `parse` is the constructor
of the key, `number` tells whether there is such an object and it holds a number -/
def objectOf {κ : Type} (parse : Text → Option κ) (number : κ → Bool) (n : Text) : Option κ :=
  if "obj".toList <+: n then (parse (n.drop 3)).filter number else none

/-- What is fixed: how names of objects are understood (canopen_motor_node/include/canopen_motor_node/handle_layer.h:69-82), the contents of fresh memory (41), and
the texts of the conversions (canopen_motor_node/src/handle_layer.cpp:32-49) -/
structure Setup (κ : Type) where
  parse : Text → Option κ
  number : κ → Bool
  junk : κ → Dbl
  prog : Conv → Program

/-- `createVariable` (canopen_motor_node/include/canopen_motor_node/unit_converter.h:44-52) with the functions the converters were given
(canopen_motor_node/src/handle_layer.cpp:51-57, canopen_motor_node/include/canopen_motor_node/handle_layer.h:136) -/
def place {κ : Type} (S : Setup κ) (c : Conv) (n : Text) : Place κ :=
  match c with
  | .toDevice k => if n = cmdName k then .cmd k else .own c n
  | .fromDevice _ =>
    match objectOf S.parse S.number n with
    | some key => .obj key
    | none => .own c n

/-- `cmd_pos_` …, `getters_` and `var_list_` of each converter (canopen_motor_node/include/canopen_motor_node/handle_layer.h:38, 94,
canopen_motor_node/include/canopen_motor_node/unit_converter.h:53); `none`: the object is not copied yet -/
structure St (κ : Type) where
  cmd : Kind → Dbl
  obj : κ → Option Dbl
  own : Conv → Text → Dbl

/-- after construction (canopen_motor_node/src/handle_layer.cpp:26-58); variables of the converters are created as not-a-number
(canopen_motor_node/include/canopen_motor_node/unit_converter.h:48) -/
def St.fresh {κ : Type} (cmd : Kind → Dbl) : St κ := { cmd := cmd, obj := fun _ => none, own := fun _ _ => .nan }

/-- the value behind the pointer (canopen_motor_node/include/canopen_motor_node/unit_converter.h:44-52); `junk` for an object that was not copied yet
(canopen_motor_node/include/canopen_motor_node/handle_layer.h:41) -/
def St.look {κ : Type} (S : Setup κ) (s : St κ) : Place κ → Dbl
  | .cmd k => s.cmd k
  | .obj key => (s.obj key).getD (S.junk key)
  | .own c n => s.own c n

/-- an assignment through the pointer (canopen_motor_node/include/canopen_motor_node/unit_converter.h:39) -/
def St.store {κ : Type} [DecidableEq κ] (s : St κ) (p : Place κ) (v : Dbl) : St κ :=
  match p with
  | .cmd k => { s with cmd := fun k' => if k' = k then v else s.cmd k' }
  | .obj key => { s with obj := fun k' => if k' = key then some v else s.obj k' }
  | .own c n => { s with own := fun c' n' => if c' = c ∧ n' = n then v else s.own c' n' }

/-- the value of an expression (canopen_motor_node/include/canopen_motor_node/unit_converter.h:39, muParser) -/
def Expr.eval (env : Text → Dbl) : Expr → Dbl
  | .num v => v
  | .var n => env n
  | .app _ f args => f (fun i => (args i).eval env)

/-- the names in an expression (canopen_motor_node/include/canopen_motor_node/unit_converter.h:20, muParser asks for each of them) -/
def Expr.names : Expr → List Text
  | .num _ => []
  | .var n => [n]
  | .app _ _ args => (List.ofFn fun i => (args i).names).flatten

/-- the names in one of the expressions separated by commas (canopen_motor_node/include/canopen_motor_node/unit_converter.h:20) -/
def Item.names (i : Item) : List Text := i.target.toList ++ i.body.names

/-- the names in a conversion (canopen_motor_node/include/canopen_motor_node/unit_converter.h:20) -/
def Program.names (p : Program) : List Text := p.first.names ++ p.rest.flatMap Item.names

/-- the first evaluation parses the text and creates the variables: objects get an entry (canopen_motor_node/include/canopen_motor_node/handle_layer.h:56-59, 74-76,
canopen_motor_node/include/canopen_motor_node/unit_converter.h:44-52) -/
def St.create {κ : Type} [DecidableEq κ] (S : Setup κ) (s : St κ) (p : Place κ) : St κ :=
  match p with
  | .obj key => { s with obj := fun k' => if k' = key then some ((s.obj key).getD (S.junk key)) else s.obj k' }
  | _ => s

/-- one expression with its assignment (canopen_motor_node/include/canopen_motor_node/unit_converter.h:39, muParser) -/
def St.item {κ : Type} [DecidableEq κ] (S : Setup κ) (c : Conv) (s : St κ) (i : Item) : St κ × Dbl :=
  let v := i.body.eval (fun n => s.look S (place S c n))
  (match i.target with | some n => s.store (place S c n) v | none => s, v)

/-- `evaluate` (canopen_motor_node/include/canopen_motor_node/unit_converter.h:39): all expressions from left to right, the value of the first one -/
def St.evaluate {κ : Type} [DecidableEq κ] (S : Setup κ) (s : St κ) (c : Conv) : St κ × Dbl :=
  let s1 := (S.prog c).names.foldl (fun s n => s.create S (place S c n)) s
  let r := s1.item S c (S.prog c).first
  ((S.prog c).rest.foldl (fun s i => (s.item S c i).1) r.1, r.2)

/-- `reset` (canopen_motor_node/include/canopen_motor_node/unit_converter.h:34-38) -/
def St.reset {κ : Type} (s : St κ) (c : Conv) : St κ := { s with own := fun c' n => if c' = c then .nan else s.own c' n }

/-- What happens to a joint: objects are copied (canopen_motor_node/src/handle_layer.cpp:140; `none` for an object that cannot be read), a conversion is evaluated (141-143,
152-161) or reset (191-196), a command is written by a controller, the limits or the tracking (153-166, 206-211) -/
inductive Ev (κ : Type) where
  | sync (get : κ → Option Dbl)
  | eval (c : Conv)
  | reset (c : Conv)
  | command (k : Kind) (v : Dbl)

/-- one step, with the value of the conversion that was evaluated (canopen_motor_node/src/handle_layer.cpp:138-204,
canopen_motor_node/include/canopen_motor_node/handle_layer.h:42-47, 61-68: an object that cannot be read keeps its copy) -/
def St.step {κ : Type} [DecidableEq κ] (S : Setup κ) (s : St κ) : Ev κ → St κ × List (Conv × Dbl)
  | .sync get => ({ s with obj := fun key => (s.obj key).map fun old => (get key).getD old }, [])
  | .eval c => ((s.evaluate S c).1, [(c, (s.evaluate S c).2)])
  | .reset c => (s.reset c, [])
  | .command k v => ({ s with cmd := fun k' => if k' = k then v else s.cmd k' }, [])

/-- a history and the values of all conversions evaluated (canopen_motor_node/src/handle_layer.cpp:138-211) -/
def St.run {κ : Type} [DecidableEq κ] (S : Setup κ) : St κ → List (Ev κ) → St κ × List (Conv × Dbl)
  | s, [] => (s, [])
  | s, e :: es => ((St.run S (s.step S e).1 es).1, (s.step S e).2 ++ (St.run S (s.step S e).1 es).2)

end Verif.Cnv
