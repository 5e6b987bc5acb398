import Verif.Spec.SdoChannel
import Verif.Spec.StorageUse

/-!
# The object storage at one end of the bus, a conforming device at the other: notions used to state C109

Below, `wired` puts the storage on top of the SDO client, its reader and the frames on the bus.  `direct` is what a user imagines: the storage reads
and writes the memory of the device.
-/

namespace Verif.Spec.Wire
open Verif Verif.OD Verif.Sdo Verif.Chan Verif.Spec Verif.Spec.Sdo Verif.Spec.Chan

/-- the object an entry describes -/
def objOf (e : Entry) : Obj := ⟨e.index, e.subIndex⟩

/-- what happens while an access runs, apart from its begin and its end: the server answers, the call reads, frames of others pass.  Calls of other
threads wait for the lock of the client. -/
def during : LEv → Bool
  | .serve => true
  | .take => true
  | .foreign _ => true
  | _ => false

/-- The client's channel, the server, what will happen during each of the next accesses, whether an access did not come to its end with that, and
whatever else there is for objects that are mapped to PDOs. -/
structure Wire (P : Type) where
  ch : State
  server : Server
  plan : List (List LEv)
  hung : Bool
  other : P

variable {P : Type}

/-- one access over the bus: the call, what was planned to happen during it, the return -/
def Wire.access (cfg : Config) (sid : Header) (w : Wire P) (o : Obj) (data : List Byte) (up : Bool) : Wire P × Option (Outcome Exc (List Byte)) :=
  let l := (⟨w.ch, w.server, w.ch.client.sent.length, [], []⟩ : Link).run cfg sid (.call o data up :: (w.plan.headD []).filter during ++ [.leave])
  match l.results with
  | [r] => ({ w with ch := l.ch, server := l.server, plan := w.plan.tail }, some r.out)
  | _ => ({ w with ch := l.ch, server := l.server, plan := w.plan.tail, hung := true }, none)

/-- The delegates of a node's storage are `read` and `write` of its SDO client (canopen_master/include/canopen_master/canopen.h:60-66); a read that
throws leaves the buffer alone (canopen_master/src/sdo.cpp:428-434).  Objects mapped to PDOs have delegates of their own, `other`. -/
def wired (cfg : Config) (sid : Header) (other : Bus P) : Bus (Wire P) where
  read := fun d e buf w => match d with
    | .dev =>
      let r := w.access cfg sid (objOf e) buf true
      match r.2 with
      | some (.ok v) => (r.1, v, none)
      | _ => (r.1, buf, some 0)
    | .pdo n => let r := other.read (.pdo n) e buf w.other; ({ w with other := r.1 }, r.2.1, r.2.2)
  write := fun d e v w => match d with
    | .dev =>
      let r := w.access cfg sid (objOf e) v false
      match r.2 with
      | some (.ok _) => (r.1, none)
      | _ => (r.1, some 0)
    | .pdo n => let r := other.write (.pdo n) e v w.other; ({ w with other := r.1 }, r.2)

/-- The device as a memory: a value for each object.  `fair` tells whether all accesses so far were ones that the client supports. -/
structure Memory (P : Type) where
  store : Obj → List Byte
  fair : Bool
  other : P

/-- accesses that the client supports (C32, C33): writes of 1 to 255 bytes, reads of objects of 1 to 255 bytes with the right size or, if the server tells
sizes, no size requested -/
def supported (cfg : Config) (store : Obj → List Byte) (o : Obj) (data : List Byte) (up : Bool) : Bool :=
  if up then decide (1 ≤ (store o).length ∧ (store o).length < 256 ∧ (data = [] ∧ cfg.indicate = true ∨ data.length = (store o).length))
  else decide (1 ≤ data.length ∧ data.length < 256)

/-- the storage directly on the memory of the device: every read gives the value, every write changes it -/
def direct (cfg : Config) (other : Bus P) : Bus (Memory P) where
  read := fun d e buf w => match d with
    | .dev => ({ w with fair := w.fair && supported cfg w.store (objOf e) buf true }, w.store (objOf e), none)
    | .pdo n => let r := other.read (.pdo n) e buf w.other; ({ w with other := r.1 }, r.2.1, r.2.2)
  write := fun d e v w => match d with
    | .dev => ({ w with store := fun o => if o = objOf e then v else w.store o, fair := w.fair && supported cfg w.store (objOf e) v false }, none)
    | .pdo n => let r := other.write (.pdo n) e v w.other; ({ w with other := r.1 }, r.2)

/-- the channel is ready for an access and the device holds `store` -/
structure Ready (sid : Header) (w : Wire P) (store : Obj → List Byte) : Prop where
  listens : w.ch.listens = some sid.key
  idle : w.ch.running = none
  empty : w.ch.reader.buffer = []
  disabled : w.ch.reader.enabled = false
  one : w.ch.reader.maxLen = 1
  holds : w.server.store = store

/-! ## what a user of the node does, and what the device does by itself -/

inductive Act where
  | use (o : SOp)
  | deviceChanges (o : Obj) (v : List Byte)

/-- one action over the bus -/
def stepWired (cfg : Config) (sid : Header) (other : Bus P) (mem : Mem) (s : Storage) (c : Ctx (Wire P)) :
    Act → Storage × Ctx (Wire P) × Option SRes
  | .use o => let r := s.step (wired cfg sid other) mem c o; (r.1, r.2.1, some r.2.2)
  | .deviceChanges o v =>
    (s, { c with w := { c.w with server := { c.w.server with store := fun o' => if o' = o then v else c.w.server.store o' } } }, none)

/-- one action on the memory -/
def stepDirect (cfg : Config) (other : Bus P) (mem : Mem) (s : Storage) (c : Ctx (Memory P)) : Act → Storage × Ctx (Memory P) × Option SRes
  | .use o => let r := s.step (direct cfg other) mem c o; (r.1, r.2.1, some r.2.2)
  | .deviceChanges o v => (s, { c with w := { c.w with store := fun o' => if o' = o then v else c.w.store o' } }, none)

/-- a history over the bus -/
def runWired (cfg : Config) (sid : Header) (other : Bus P) (mem : Mem) : Storage → Ctx (Wire P) → List Act → Storage × Ctx (Wire P) × List (Option SRes)
  | s, c, [] => (s, c, [])
  | s, c, a :: as =>
    let r := stepWired cfg sid other mem s c a
    let q := runWired cfg sid other mem r.1 r.2.1 as
    (q.1, q.2.1, r.2.2 :: q.2.2)

/-- a history on the memory -/
def runDirect (cfg : Config) (other : Bus P) (mem : Mem) : Storage → Ctx (Memory P) → List Act → Storage × Ctx (Memory P) × List (Option SRes)
  | s, c, [] => (s, c, [])
  | s, c, a :: as =>
    let r := stepDirect cfg other mem s c a
    let q := runDirect cfg other mem r.1 r.2.1 as
    (q.1, q.2.1, r.2.2 :: q.2.2)

/-! ## one handle -/

/-- a value the client can transfer for an object of this type: it has the size of the type; a text has 1 to 255 bytes, and the server tells its size -/
def Transferable (cfg : Config) (ty : Ty) (v : List Byte) : Prop :=
  SizedFor ty v ∧ 1 ≤ v.length ∧ v.length < 256 ∧ (ty = .string → cfg.indicate = true)

/-- the value in an event is one -/
def EventTransferable (cfg : Config) (ty : Ty) : ObjEvent → Prop
  | .set v => Transferable cfg ty v
  | .setCached v => Transferable cfg ty v
  | .deviceChanges v => Transferable cfg ty v
  | _ => True

/-- one event of a handle's life over the bus -/
def evWired (cfg : Config) (sid : Header) (d : Data) (c : Ctx (Wire Unit)) (e : ObjEvent) : Data × Ctx (Wire Unit) × Option HRes :=
  let bus := wired cfg sid { read := fun _ _ b w => (w, b, none), write := fun _ _ _ w => (w, none) }
  match e with
  | .deviceChanges v =>
    (d, { c with w := { c.w with server := { c.w.server with store := fun o => if o = objOf d.entry then v else c.w.server.store o } } }, none)
  | .get => let r := d.call bus c .get; (r.1, r.2.1, some r.2.2)
  | .getCached => let r := d.call bus c .getCached; (r.1, r.2.1, some r.2.2)
  | .set v => let r := d.call bus c (.set v); (r.1, r.2.1, some r.2.2)
  | .setCached v => let r := d.call bus c (.setCached v); (r.1, r.2.1, some r.2.2)

/-- a history of a handle over the bus -/
def evRunWired (cfg : Config) (sid : Header) : Data → Ctx (Wire Unit) → List ObjEvent → Data × Ctx (Wire Unit) × List (Option HRes)
  | d, c, [] => (d, c, [])
  | d, c, e :: es =>
    let x := evWired cfg sid d c e
    let y := evRunWired cfg sid x.1 x.2.1 es
    (y.1, y.2.1, x.2.2 :: y.2.2)

end Verif.Spec.Wire
