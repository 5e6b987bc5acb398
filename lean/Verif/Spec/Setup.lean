import Verif.Model.Setup
import Verif.Spec.Merge
import Verif.Spec.Driver

/-! Specification of the set-up of a chain from its parameters. -/

namespace Verif.Spec.Setup
open Verif Verif.Merge Verif.Setup

/-- the written name without the mark for forced reading -/
def bare (s : String) : Text := s.toList.takeWhile (· ≠ '!')

/-- the name is marked for forced reading -/
def Marked (s : String) : Prop := '!' ∈ s.toList

/-- a list parameter that is missing or lists the given names -/
def Listed (w : World) (m : Fields) (param : String) (l : List String) : Prop :=
  (m.get? param = none ∧ l = []) ∨
  (∃ x, m.get? param = some (.leaf x) ∧ w.leaf x = .list (l.map some)) ∨
  (l = [] ∧ (m.get? param = some (.struct .nil) ∨ ∃ x, m.get? param = some (.leaf x) ∧ w.leaf x = .str ""))

/-- all entries of a struct are the given strings -/
def Strings (w : World) : Fields → List (String × String) → Prop
  | .nil, [] => True
  | .cons k (.leaf x) rest, (k', s) :: l => k' = k ∧ w.leaf x = .str s ∧ Strings w rest l
  | _, _ => False

/-- the changes to the description file that are asked for -/
def Overlays (w : World) (m : Fields) (ov : List (String × String)) : Prop :=
  (m.get? "dcf_overlay" = none ∧ ov = []) ∨ ∃ fs, m.get? "dcf_overlay" = some (.struct fs) ∧ Strings w fs ov

/-- a string parameter; a missing one counts as empty -/
def StringIs (w : World) (m : Fields) (param s : String) : Prop :=
  (m.get? param = none ∧ s = "") ∨ ∃ x, m.get? param = some (.leaf x) ∧ w.leaf x = .str s

/-- the directory the description file is looked up in -/
def Directory (w : World) (m : Fields) (dir : String) : Prop :=
  ∃ x pkg, m.get? "eds_pkg" = some (.leaf x) ∧ w.leaf x = .str pkg ∧ w.pkgPath pkg = some dir

/-- the path of the description file -/
def Path (w : World) (m : Fields) (path : String) : Prop :=
  ∃ file, StringIs w m "eds_file" file ∧
    ((∃ dir, Directory w m dir ∧ path = w.join dir file) ∨ ((¬ ∃ dir, Directory w m dir) ∧ path = file))

/-- the object exists in the description, has a type that can be handled and a fitting default -/
def Usable (w : World) (d : OD.Dict) (id : Byte) (k : OD.Key) (e : OD.Entry) (ty : OD.Ty) : Prop :=
  d.get k = some e ∧ OD.typeOf e.dataType = some ty ∧ ∃ h, ((OD.Storage.fresh d id).entry w.mem k ty).2 = .ok h

/-- the diagnostics entry for a listed object -/
def LogOf (w : World) (n : NodeSetup) (want : Nat × String) (l : LogEntry) : Prop :=
  l.level = want.1 ∧ l.key = OD.Key.fromText (bare want.2) ∧ (l.cached = false ↔ Marked want.2) ∧
  ∃ e ty, Usable w n.dict n.id l.key e ty ∧ l.name = if e.desc = [] then bare want.2 else e.desc

/-- the publisher for a listed object -/
def PubOf (w : World) (n : NodeSetup) (want : String) (p : Pub) : Prop :=
  p.topic = n.name.toList ++ ['_'] ++ bare want ∧ p.key = OD.Key.fromText (bare want) ∧ (p.cached = false ↔ Marked want) ∧
  ∃ e, Usable w n.dict n.id p.key e p.ty

/-- the parameters of the node over the defaults -/
def Merged (params defaults : XVal) (m : Fields) : Prop := merge params defaults = some (.struct m)

/-- the name of the node: a parameter, or else the key `name` it is listed under -/
def NameIs (w : World) (m : Fields) (name : Nat) (s : String) : Prop :=
  (m.get? "name" = none ∧ w.leaf name = .str s) ∨ ∃ x, m.get? "name" = some (.leaf x) ∧ w.leaf x = .str s

/-- The node follows its parameters: its number is that of the parameter "id" (as a byte), its objects are those of the description file, its
diagnostics and publishers those that are listed. -/
def Follows (w : World) (defaults : XVal) (given : Nat × XVal) (n : NodeSetup) : Prop :=
  ∃ m, Merged given.2 defaults m ∧
    (∃ x i, Spec.Merge.at? given.2 ["id"] = some (.leaf x) ∧ w.leaf x = .int i ∧ n.id = BitVec.ofInt 8 i) ∧
    NameIs w m given.1 n.name ∧
    (∃ ov path, Overlays w m ov ∧ Path w m path ∧ w.load path ov = .dict n.dict) ∧
    (∃ l0 l1 l2, Listed w m "log" l0 ∧ Listed w m "log_warn" l1 ∧ Listed w m "log_error" l2 ∧
      Pointwise (LogOf w n) (l0.map (0, ·) ++ l1.map (1, ·) ++ l2.map (2, ·)) n.logs) ∧
    ∃ ps, Listed w m "publish" ps ∧ Pointwise (PubOf w n) ps n.pubs

/-- the nodes that are asked for, with their names -/
def Asked (w : World) : NodesParam → List (Nat × XVal) → Prop
  | .array l, as => Pointwise (fun v a => a.2 = v ∧ Spec.Merge.at? v ["name"] = some (.leaf a.1) ∧ ∃ s, w.leaf a.1 = .str s) l as
  | .struct l, as => as = l
  | _, _ => False

end Verif.Spec.Setup
