import Verif.Model.Storage
import Verif.Spec.Storage

/-!
# How the storage is used in the statements
Vocabulary that connects the model of the storage with the specification of one object.
-/

namespace Verif.OD
open Verif Verif.Spec

/-- every access to the device in the record respects the rights of an object of the dictionary -/
def Lawful (dict : Dict) (log : List Acc) : Prop :=
  (∀ i s, Acc.read .dev i s ∈ log → ∃ p ∈ dict, p.2.index = i ∧ p.2.subIndex = s ∧ p.2.readable = true) ∧
  (∀ i s v, Acc.write .dev i s v ∈ log → ∃ p ∈ dict, p.2.index = i ∧ p.2.subIndex = s ∧ p.2.writable = true)

/-- all keys of the dictionary differ (it is a hash map, objdict.h:214) -/
def Dict.NodupKeys (d : Dict) : Prop := (d.map (·.1)).Nodup

/-- the storage's data belong to entries of the dictionary -/
def Consistent (s : Storage) : Prop := ∀ k d, s.data k = some d → s.dict.get k = some d.entry

/-- a device that answers every access (its state is the value of the object) -/
def goodBus : Bus (List Byte) where
  read := fun _ _ _ w => (w, w, none)
  write := fun _ _ v _ => (v, none)

/-- the value has the size of the type (texts have any size) -/
def SizedFor (ty : Ty) (v : List Byte) : Prop := ty ≠ .string → v.length = ty.size

/-- the model call for a user event -/
def opOf : ObjEvent → Option HOp
  | .get => some .get
  | .getCached => some .getCached
  | .set v => some (.set v)
  | .setCached v => some (.setCached v)
  | .deviceChanges _ => none

/-- the value in an event has the right size -/
def EventSized (ty : Ty) : ObjEvent → Prop
  | .set v => SizedFor ty v
  | .setCached v => SizedFor ty v
  | .deviceChanges v => SizedFor ty v
  | _ => True

/-- one event on the real object -/
def evStep (d : Data) (c : Ctx (List Byte)) (e : ObjEvent) : Data × Ctx (List Byte) × Option HRes :=
  match e with
  | .deviceChanges v => (d, { c with w := v }, none)
  | .get => let r := d.call goodBus c .get; (r.1, r.2.1, some r.2.2)
  | .getCached => let r := d.call goodBus c .getCached; (r.1, r.2.1, some r.2.2)
  | .set v => let r := d.call goodBus c (.set v); (r.1, r.2.1, some r.2.2)
  | .setCached v => let r := d.call goodBus c (.setCached v); (r.1, r.2.1, some r.2.2)

/-- a history of events on the real object -/
def evRun : Data → Ctx (List Byte) → List ObjEvent → Data × Ctx (List Byte) × List (Option HRes)
  | d, c, [] => (d, c, [])
  | d, c, e :: es =>
    let x := evStep d c e
    let y := evRun x.1 x.2.1 es
    (y.1, y.2.1, x.2.2 :: y.2.2)

/-- how the answers of the specification look in the C++ interface -/
def shown : ObjEvent → ObjAnswer → Option HRes
  | .deviceChanges _, _ => none
  | .get, .value v => some (.value (.ok v))
  | .getCached, .value v => some (.value (.ok v))
  | .get, _ => some (.value (.throws .access))
  | .getCached, _ => some (.value (.throws .access))
  | .set _, .done => some (.unit (.ok ()))
  | .set _, .notCached => some (.unit (.throws .lengthError))
  | .set _, _ => some (.unit (.throws .access))
  | .setCached _, .done => some (.flag (.ok true))
  | .setCached _, _ => some (.flag (.ok false))

/-- traffic of the specification as entries of the record -/
def accOf (e : Entry) : ObjTraffic → Acc
  | .read => .read .dev e.index e.subIndex
  | .write v => .write .dev e.index e.subIndex v

/-- rights of an entry -/
def rightsOf (e : Entry) : ObjRights := ⟨e.readable, e.writable, e.constant⟩

/-- the cache the user knows of -/
def Data.cache (d : Data) : Option (List Byte) := if d.valid then some d.buffer else none

/-- the value known of an object of the storage -/
def Storage.cacheOf (s : Storage) (k : Key) : Option (List Byte) := (s.data k).bind Data.cache

/-- where writes to the object go -/
def Storage.writeDlg (s : Storage) (k : Key) : Dlg := match s.data k with
  | some d => d.wr
  | none => .dev

/-- the default value given in the file -/
def defaultOf (mem : Mem) (e : Entry) : Option (List Byte) := match e.defVal with
  | .val p => some (p.bytes mem)
  | _ => none

/-- what init has to write for one object -/
def initWrites (mem : Mem) (s : Storage) (p : Key × Entry) : List Acc :=
  match p.2.initVal with
  | .val iv => if MustInit p.2.writable (iv.bytes mem) (defaultOf mem p.2) (s.cacheOf p.1) then
      [.write (s.writeDlg p.1) p.2.index p.2.subIndex (iv.bytes mem)] else []
  | _ => []

end Verif.OD
