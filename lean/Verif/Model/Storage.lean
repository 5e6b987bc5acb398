import Verif.Model.Eds

/-!
# Object storage
canopen_master/include/canopen_master/objdict.h:278-536, canopen_master/src/objdict.cpp:19-75, 335-426
-/

namespace Verif.OD
open Verif

/-- Which function a read or write delegate is (canopen_master/include/canopen_master/objdict.h:280-284, 465-466): the storage-wide one given to the constructor
(the SDO client, canopen_master/src/node.cpp:28-32) or the buffer of a PDO (canopen_master/src/pdo.cpp). -/
inductive Dlg where
  | dev
  | pdo (n : Nat)
  deriving DecidableEq, Repr

/-- Behaviour of the delegates, arbitrary: a read may change the buffer and may throw (with some code), a write may throw
(canopen_master/include/canopen_master/objdict.h:280-284). -/
structure Bus (W : Type) where
  read : Dlg → Entry → List Byte → W → W × List Byte × Option Nat
  write : Dlg → Entry → List Byte → W → W × Option Nat

/-- one delegate call, with the addressed object (ghost record for the theorems; calls at canopen_master/include/canopen_master/objdict.h:351, 364, 374, canopen_master/src/objdict.cpp:54, 61, 64) -/
inductive Acc where
  | read (d : Dlg) (index : BitVec 16) (sub : BitVec 8)
  | write (d : Dlg) (index : BitVec 16) (sub : BitVec 8) (v : List Byte)
  deriving DecidableEq, Repr

/-- the outside world behind the delegates (canopen_master/include/canopen_master/objdict.h:280-284) and the record of delegate calls so far -/
structure Ctx (W : Type) where
  w : W
  log : List Acc

/-- canopen_master/include/canopen_master/objdict.h:289-382 `ObjectStorage::Data`; `valid` and `buffer` at 294-295. -/
structure Data where
  entry : Entry
  ty : Ty
  buffer : List Byte
  valid : Bool
  rd : Dlg
  wr : Dlg

/-- canopen_master/include/canopen_master/objdict.h:326-333 constructor with a type guard -/
def Data.new (e : Entry) (ty : Ty) : Data :=
  { entry := e, ty := ty, buffer := List.replicate ty.size 0#8, valid := false, rd := .dev, wr := .dev }

/-- canopen_master/include/canopen_master/objdict.h:319-325 constructor with a value (`bytes` is its object representation, for a `String` its contents) -/
def Data.ofVal (e : Entry) (ty : Ty) (bytes : List Byte) : Data :=
  { entry := e, ty := ty, buffer := bytes, valid := true, rd := .dev, wr := .dev }

/-- canopen_master/include/canopen_master/objdict.h:300-305 `access<T>` with `T` the type of the guard (checked at 495), canopen_master/src/objdict.cpp:19-24 for `String`.  Reading beyond the
buffer is undefined. -/
def Data.access (d : Data) : Outcome Err (List Byte) :=
  if !d.valid then .throws .lengthError
  else if d.ty = .string then .ok d.buffer
  else if d.buffer.length < d.ty.size then .ub
  else .ok (d.buffer.take d.ty.size)

/-- canopen_master/include/canopen_master/objdict.h:306-312 `allocate<T>` without its final `access`, canopen_master/src/objdict.cpp:25-29 for `String` -/
def Data.allocate (d : Data) : Data :=
  if d.ty = .string then { d with buffer := [], valid := true }
  else if !d.valid then { d with buffer := Txt.resize d.ty.size d.buffer, valid := true }
  else d

/-- `allocate<T>() = val` (canopen_master/include/canopen_master/objdict.h:363, 373); `none`: writes beyond the buffer -/
def Data.store (d : Data) (v : List Byte) : Option Data :=
  let a := d.allocate
  if a.ty = .string then some { a with buffer := v }
  else if a.buffer.length < a.ty.size then none
  else some { a with buffer := v ++ a.buffer.drop a.ty.size }

section
variable {W : Type} (bus : Bus W)

/-- call of the read delegate (canopen_master/include/canopen_master/objdict.h:351, canopen_master/src/objdict.cpp:61) -/
def Data.callRead (d : Data) (c : Ctx W) : Data × Ctx W × Option Nat :=
  let r := bus.read d.rd d.entry d.buffer c.w
  ({ d with buffer := r.2.1 }, { w := r.1, log := c.log ++ [.read d.rd d.entry.index d.entry.subIndex] }, r.2.2)

/-- call of the write delegate (canopen_master/include/canopen_master/objdict.h:364, 374, canopen_master/src/objdict.cpp:54, 64) -/
def Data.callWrite (d : Data) (c : Ctx W) : Ctx W × Option Nat :=
  let r := bus.write d.wr d.entry d.buffer c.w
  ({ w := r.1, log := c.log ++ [.write d.wr d.entry.index d.entry.subIndex d.buffer] }, r.2)

/-- canopen_master/include/canopen_master/objdict.h:339-354 `get<T>(cached)` -/
def Data.get (cached : Bool) (d : Data) (c : Ctx W) : Data × Ctx W × Outcome Err (List Byte) :=
  if !d.entry.readable then (d, c, .throws .access)
  else if !d.valid || !(cached || d.entry.constant) then
    let r := d.allocate.callRead bus c
    match r.2.2 with
    | some e => (r.1, r.2.1, .throws (.device e))
    | none => (r.1, r.2.1, r.1.access)
  else (d, c, d.access)

/-- canopen_master/include/canopen_master/objdict.h:363-364, 373-374: store and write through -/
def Data.storeWrite (d : Data) (c : Ctx W) (v : List Byte) : Data × Ctx W × Outcome Err Unit :=
  match d.store v with
  | none => (d, c, .ub)
  | some d' =>
    let r := d'.callWrite bus c
    match r.2 with
    | some e => (d', r.1, .throws (.device e))
    | none => (d', r.1, .ok ())

/-- canopen_master/include/canopen_master/objdict.h:355-366 `set<T>` (values are compared as bytes: for `float`/`double` this differs from C++ for zeros and NaN) -/
def Data.set (v : List Byte) (d : Data) (c : Ctx W) : Data × Ctx W × Outcome Err Unit :=
  if !d.entry.writable then
    match d.access with
    | .ok cur => if cur ≠ v then (d, c, .throws .access) else (d, c, .ok ())
    | .throws e => (d, c, .throws e)
    | .ub => (d, c, .ub)
  else d.storeWrite bus c v

/-- the test `!valid || val != access<T>()` (canopen_master/include/canopen_master/objdict.h:369); `none` is undefined behaviour -/
def Data.differs (d : Data) (v : List Byte) : Option Bool :=
  if !d.valid then some true
  else match d.access with
    | .ok cur => some (cur ≠ v)
    | _ => none

/-- canopen_master/include/canopen_master/objdict.h:367-377 `set_cached<T>` -/
def Data.setCached (v : List Byte) (d : Data) (c : Ctx W) : Data × Ctx W × Outcome Err Unit :=
  match d.differs v with
  | none => (d, c, .ub)
  | some false => (d, c, .ok ())
  | some true => if !d.entry.writable then (d, c, .throws .access) else d.storeWrite bus c v

/-- the condition at canopen_master/src/objdict.cpp:48: the buffer was changed from the default -/
def Data.changed (mem : Mem) (d : Data) : Bool :=
  d.valid && (match d.entry.defVal with | .val p => d.buffer ≠ p.bytes mem | _ => false)

/-- the condition at canopen_master/src/objdict.cpp:53 without `writable` -/
def Entry.initDiffers (mem : Mem) (e : Entry) (init : Payload) : Bool :=
  match e.defVal with
  | .val p => init.bytes mem ≠ p.bytes mem
  | _ => true

/-- canopen_master/src/objdict.cpp:43-56 `Data::init` -/
def Data.init (mem : Mem) (d : Data) (c : Ctx W) : Data × Ctx W × Outcome Err Unit :=
  match d.entry.initVal with
  | .val p =>
    if d.changed mem then (d, c, .ok ())
    else if !d.valid || d.buffer ≠ p.bytes mem then
      let d' := { d with buffer := p.bytes mem, valid := true }
      if d.entry.writable && d.entry.initDiffers mem p then
        let r := d'.callWrite bus c
        match r.2 with
        | some e => (d', r.1, .throws (.device e))
        | none => (d', r.1, .ok ())
      else (d', c, .ok ())
    else (d, c, .ok ())
  | _ => (d, c, .ok ())

/-- canopen_master/src/objdict.cpp:57-65 `Data::force_write` -/
def Data.forceWrite (d : Data) (c : Ctx W) : Data × Ctx W × Outcome Err Unit :=
  let r : Data × Ctx W × Option Nat :=
    if !d.valid && d.entry.readable then
      let r := d.callRead bus c
      match r.2.2 with
      | some e => (r.1, r.2.1, some e)
      | none => ({ r.1 with valid := true }, r.2.1, none)
    else (d, c, none)
  match r.2.2 with
  | some e => (r.1, r.2.1, .throws (.device e))
  | none =>
    if r.1.valid then
      let q := r.1.callWrite bus r.2.1
      match q.2 with
      | some e => (r.1, q.1, .throws (.device e))
      | none => (r.1, q.1, .ok ())
    else (r.1, r.2.1, .ok ())

/-- canopen_master/src/objdict.cpp:67-75 `Data::reset` -/
def Data.reset (mem : Mem) (d : Data) : Data :=
  match d.entry.defVal with
  | .val p => if p.ty = d.ty then { d with buffer := p.bytes mem, valid := true } else { d with valid := false }
  | _ => { d with valid := false }

/-- canopen_master/include/canopen_master/objdict.h:334-338 `set_delegates` -/
def Data.setDelegates (d : Data) (r w : Dlg) : Data := { d with rd := r, wr := w }

/-- `NodeIdOffset<T>::apply(def_val, node_id)` for any `T` (canopen_master/include/canopen_master/objdict.h:251-263, 481): object representation of the value, for a `String`
its contents -/
def applyAny (mem : Mem) (ty : Ty) (h : HoldAny) (u : BitVec 8) : Outcome Err (List Byte) :=
  match ty with
  | .int t => match applyOffset t h u with
    | .ok v => .ok (leBytes t.size v)
    | .throws e => .throws e
    | .ub => .ub
  | .string => match h with
    | .val (.string _) => .ok (h.getString mem)
    | _ => .throws .badCast
  | ty => match h with
    | .val p => if p.ty = ty then .ok (p.bytes mem) else .throws .badCast
    | _ => .throws .badCast

/-- canopen_master/include/canopen_master/objdict.h:278-536 `ObjectStorage`.  The map `storage_` (459-460) is a partial function. -/
structure Storage where
  dict : Dict
  nodeId : BitVec 8
  data : Key → Option Data

/-- canopen_master/src/objdict.cpp:385-390 the constructor -/
def Storage.fresh (dict : Dict) (node : BitVec 8) : Storage := ⟨dict, node, fun _ => none⟩

/-- `storage_.insert`/element update (canopen_master/include/canopen_master/objdict.h:491) -/
def Storage.put (s : Storage) (k : Key) (d : Data) : Storage :=
  { s with data := fun k' => if k' = k then some d else s.data k' }

/-- canopen_master/include/canopen_master/objdict.h:474-493: the `Data` made for an entry that was not used before -/
def Storage.make (mem : Mem) (s : Storage) (e : Entry) (ty : Ty) : Outcome Err Data :=
  if !e.defVal.isEmpty then
    match applyAny mem ty e.defVal s.nodeId with
    | .ok v => .ok (Data.ofVal e ty v)
    | .throws x => .throws x
    | .ub => .ub
  else if e.defVal.type = none ∨ e.defVal.type = some ty then .ok (Data.new e ty)
  else .throws .badCast

/-- canopen_master/include/canopen_master/objdict.h:469-499 `entry<T>(key)`; the result is the handle's `Data` -/
def Storage.entry (mem : Mem) (s : Storage) (k : Key) (ty : Ty) : Storage × Outcome Err Data :=
  match s.data k with
  | some d => if d.ty = ty then (s, .ok d) else (s, .throws .badCast)
  | none =>
    match s.dict.get k with
    | none => (s, .throws .outOfRange)
    | some e =>
      match s.make mem e ty with
      | .ok d => (s.put k d, .ok d)
      | .throws x => (s, .throws x)
      | .ub => (s, .ub)

/-- canopen_master/src/objdict.cpp:392-407 `init_nolock` -/
def Storage.initNolock (mem : Mem) (s : Storage) (k : Key) (e : Entry) (c : Ctx W) : Storage × Ctx W × Outcome Err Unit :=
  match e.initVal with
  | .val p =>
    let d := (s.data k).getD (Data.new e p.ty)
    let r := d.init bus mem c
    (s.put k r.1, r.2.1, r.2.2)
  | _ => (s, c, .ok ())

/-- canopen_master/src/objdict.cpp:412-419 `init_all`: over all entries (in the order of the hash table; here the order of the list) -/
def Storage.initAllFrom (mem : Mem) : Dict → Storage → Ctx W → Storage × Ctx W × Outcome Err Unit
  | [], s, c => (s, c, .ok ())
  | (k, e) :: r, s, c =>
    let x := s.initNolock bus mem k e c
    match x.2.2 with
    | .ok _ => initAllFrom mem r x.1 x.2.1
    | o => (x.1, x.2.1, o)

/-- canopen_master/src/objdict.cpp:412-419 `init_all` -/
def Storage.initAll (mem : Mem) (s : Storage) (c : Ctx W) : Storage × Ctx W × Outcome Err Unit :=
  Storage.initAllFrom bus mem s.dict s c

/-- canopen_master/src/objdict.cpp:408-411 `init(key)` -/
def Storage.init (mem : Mem) (s : Storage) (k : Key) (c : Ctx W) : Storage × Ctx W × Outcome Err Unit :=
  match s.dict.get k with
  | none => (s, c, .throws .outOfRange)
  | some e => s.initNolock bus mem k e c

/-- canopen_master/src/objdict.cpp:421-426 `reset` -/
def Storage.reset (mem : Mem) (s : Storage) : Storage := { s with data := fun k => (s.data k).map (·.reset mem) }

/-- canopen_master/src/objdict.cpp:335-366 `map(entry, key, read_delegate, write_delegate)`: size of the buffer -/
def Storage.mapKey (mem : Mem) (s : Storage) (k : Key) (e : Entry) (r w : Option Nat) (c : Ctx W) : Storage × Ctx W × Outcome Err Nat :=
  let od : Outcome Err Data := match s.data k with
    | some d => .ok d
    | none => match e.defVal.type with
      | none => .throws .badCast
      | some ty => .ok ((Data.new e ty).reset mem)
  match od with
  | .throws x => (s, c, .throws x)
  | .ub => (s, c, .ub)
  | .ok d =>
    match r, w with
    | some r, some w =>
      let x := (d.setDelegates .dev (.pdo w)).forceWrite bus c
      match x.2.2 with
      | .ok _ => (s.put k (x.1.setDelegates (.pdo r) .dev), x.2.1, .ok x.1.buffer.length)
      | .throws y => (s.put k x.1, x.2.1, .throws y)
      | .ub => (s.put k x.1, x.2.1, .ub)
    | none, some w =>
      let x := (d.setDelegates .dev (.pdo w)).forceWrite bus c
      match x.2.2 with
      | .ok _ => (s.put k x.1, x.2.1, .ok x.1.buffer.length)
      | .throws y => (s.put k x.1, x.2.1, .throws y)
      | .ub => (s.put k x.1, x.2.1, .ub)
    | some r, none => (s.put k (d.setDelegates (.pdo r) .dev), c, .ok d.buffer.length)
    | none, none => (s.put k d, c, .ok d.buffer.length)

/-- canopen_master/src/objdict.cpp:368-383 `map(index, sub_index, ...)` -/
def Storage.map (mem : Mem) (s : Storage) (i : BitVec 16) (sub : BitVec 8) (r w : Option Nat) (c : Ctx W) : Storage × Ctx W × Outcome Err Nat :=
  match s.dict.get (Key.ofSub i sub) with
  | some e => s.mapKey bus mem (Key.ofSub i sub) e r w c
  | none =>
    if sub ≠ 0 then (s, c, .throws .outOfRange)
    else match s.dict.get (Key.ofIndex i) with
      | some e => s.mapKey bus mem (Key.ofIndex i) e r w c
      | none => (s, c, .throws .outOfRange)

/-- One operation of a user of the storage.  `get`/`set` go through a handle obtained for the object (canopen_master/include/canopen_master/objdict.h:389-454). -/
inductive SOp where
  | open (k : Key) (ty : Ty)
  | get (k : Key) (cached : Bool)
  | set (k : Key) (v : List Byte)
  | setCached (k : Key) (v : List Byte)
  | init (k : Key)
  | initAll
  | reset
  | map (i : BitVec 16) (sub : BitVec 8) (r w : Option Nat)

/-- What an operation returned (canopen_master/include/canopen_master/objdict.h:394-432; canopen_master/src/objdict.cpp:335-426) -/
inductive SRes where
  | unit (o : Outcome Err Unit)
  | value (o : Outcome Err (List Byte))
  | size (o : Outcome Err Nat)

/-- one operation (canopen_master/include/canopen_master/objdict.h:389-454, 469-499, canopen_master/src/objdict.cpp:335-426) -/
def Storage.step (mem : Mem) (s : Storage) (c : Ctx W) : SOp → Storage × Ctx W × SRes
  | .open k ty =>
    let r := s.entry mem k ty
    (r.1, c, .unit (match r.2 with | .ok _ => .ok () | .throws e => .throws e | .ub => .ub))
  | .get k cached => match s.data k with
    | none => (s, c, .value (.throws .pointerInvalid))
    | some d => let r := d.get bus cached c; (s.put k r.1, r.2.1, .value r.2.2)
  | .set k v => match s.data k with
    | none => (s, c, .unit (.throws .pointerInvalid))
    | some d => let r := d.set bus v c; (s.put k r.1, r.2.1, .unit r.2.2)
  | .setCached k v => match s.data k with
    | none => (s, c, .unit (.throws .pointerInvalid))
    | some d => let r := d.setCached bus v c; (s.put k r.1, r.2.1, .unit r.2.2)
  | .init k => let r := s.init bus mem k c; (r.1, r.2.1, .unit r.2.2)
  | .initAll => let r := s.initAll bus mem c; (r.1, r.2.1, .unit r.2.2)
  | .reset => (s.reset mem, c, .unit (.ok ()))
  | .map i sub r w => let x := s.map bus mem i sub r w c; (x.1, x.2.1, .size x.2.2)

/-- a history of operations (canopen_master/include/canopen_master/objdict.h:389-454, 469-499, canopen_master/src/objdict.cpp:335-426) -/
def Storage.run (mem : Mem) : Storage → Ctx W → List SOp → Storage × Ctx W × List SRes
  | s, c, [] => (s, c, [])
  | s, c, o :: os =>
    let r := s.step bus mem c o
    let q := Storage.run mem r.1 r.2.1 os
    (q.1, q.2.1, r.2.2 :: q.2.2)

/-- A call through a handle of one object (canopen_master/include/canopen_master/objdict.h:394-432). -/
inductive HOp where
  | get
  | getCached
  | set (v : List Byte)
  | setCached (v : List Byte)

/-- Result of such a call: a value or exception, nothing or an exception, or the Boolean of `set_cached`
(canopen_master/include/canopen_master/objdict.h:394-432). -/
inductive HRes where
  | value (o : Outcome Err (List Byte))
  | unit (o : Outcome Err Unit)
  | flag (o : Outcome Err Bool)
  deriving DecidableEq

/-- canopen_master/include/canopen_master/objdict.h:394-432 `Entry<T>::get`, `get_cached`, `set`, `set_cached` (the last one turns exceptions into `false`) -/
def Data.call (d : Data) (c : Ctx W) : HOp → Data × Ctx W × HRes
  | .get => let r := d.get bus false c; (r.1, r.2.1, .value r.2.2)
  | .getCached => let r := d.get bus true c; (r.1, r.2.1, .value r.2.2)
  | .set v => let r := d.set bus v c; (r.1, r.2.1, .unit r.2.2)
  | .setCached v => let r := d.setCached bus v c; (r.1, r.2.1, .flag (match r.2.2 with | .ok _ => .ok true | .throws _ => .ok false | .ub => .ub))

end

end Verif.OD
