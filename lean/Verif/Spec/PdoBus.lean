import Verif.Spec.PdoAgree
import Verif.Spec.StorageBus

/-!
# The set-up of PDOs at one end of the bus, the device at the other: notions used to state C127

`overBus` is the device behind the SDO client, its reader and the frames on the bus.  `inMemory` is what a user imagines: the set-up reads and
writes the memory of the device.
-/

namespace Verif.Spec.PBus
open Verif Verif.OD Verif.PdoInit Verif.Spec Verif.Spec.Wire Verif.Spec.Sdo Verif.Spec.Chan

/-- there is nothing else: the buffers of the PDOs are in the world of the set-up -/
def nothing : Bus Unit := { read := fun _ _ b w => (w, b, none), write := fun _ _ _ w => (w, none) }

/-- the device at the other end of the bus -/
def overBus (cfg : Config) (sid : Header) : Dev (Wire Unit) where
  read := (wired cfg sid nothing).read .dev
  write := (wired cfg sid nothing).write .dev

/-- the memory of the device -/
def inMemory (cfg : Config) : Dev (Memory Unit) where
  read := (direct cfg nothing).read .dev
  write := (direct cfg nothing).write .dev

/-- the same situation with another device -/
def _root_.Verif.PdoInit.Env.on {D E : Type} (e : Env D) (d : E) : Env E :=
  ⟨e.s, ⟨⟨d, e.c.w.heap, e.c.w.next, e.c.w.bad⟩, e.c.log⟩, e.rpdos, e.tpdos⟩

/-- the memory of the device at the other end of the bus -/
def memoryOf (w : Wire Unit) : Memory Unit := ⟨w.server.store, true, ()⟩

/-- its contents in the terms of `Contents` -/
def contents (store : Sdo.Obj → List Byte) : Contents := fun i s => store ⟨i, s⟩

/-! ## what happens at a node, and on the side of the device -/

inductive Ev where
  | use (o : SOp)
  | setUp
  | deviceChanges (o : Sdo.Obj) (v : List Byte)

inductive Res where
  | used (r : SRes)
  | setUp (o : Outcome Err Bool)
  | none

/-- a device that changes by itself, at the other end of the bus -/
def changeWire (o : Sdo.Obj) (v : List Byte) (w : Wire Unit) : Wire Unit :=
  { w with server := { w.server with store := fun o' => if o' = o then v else w.server.store o' } }

/-- and as a memory -/
def changeMemory (o : Sdo.Obj) (v : List Byte) (w : Memory Unit) : Memory Unit := { w with store := fun o' => if o' = o then v else w.store o' }

/-- what a use of the storage, a set-up of all PDOs or a change on the device's side does -/
def happens {D : Type} (dv : Dev D) (change : Sdo.Obj → List Byte → D → D) (mem : Mem) (junk : Vector Byte 8) (nrTx nrRx : Nat) (e : Env D) : Ev → Env D × Res
  | .use o => let r := e.s.step (pdoBus dv) mem e.c o; ({ e with s := r.1, c := r.2.1 }, .used r.2.2)
  | .setUp => let r := mapperInit dv mem junk nrTx nrRx e; (r.1, .setUp r.2)
  | .deviceChanges o v => ({ e with c := { e.c with w := { e.c.w with dev := change o v e.c.w.dev } } }, .none)

/-- a history -/
def history {D : Type} (dv : Dev D) (change : Sdo.Obj → List Byte → D → D) (mem : Mem) (junk : Vector Byte 8) (nrTx nrRx : Nat) :
    Env D → List Ev → Env D × List Res
  | e, [] => (e, [])
  | e, a :: as =>
    let r := happens dv change mem junk nrTx nrRx e a
    let q := history dv change mem junk nrTx nrRx r.1 as
    (q.1, r.2 :: q.2)

/-- the same device, with the accesses being counted -/
def counting {D : Type} (dv : Dev D) : Dev (D × Nat) where
  read := fun e b w => let r := dv.read e b w.1; ((r.1, w.2 + 1), r.2)
  write := fun e v w => let r := dv.write e v w.1; ((r.1, w.2 + 1), r.2)

/-- the change of a device does not count as an access -/
def changeCounted {D : Type} (change : Sdo.Obj → List Byte → D → D) (o : Sdo.Obj) (v : List Byte) (w : D × Nat) : D × Nat := (change o v w.1, w.2)

/-- 256 times the server answers and then the client reads, with anything in between, before and after -/
def ample (x : List LEv) : Prop := ∃ rounds : List (List LEv), 256 ≤ rounds.length ∧ (∀ r ∈ rounds, [LEv.serve, LEv.take].Sublist r) ∧ x = rounds.flatten

/-- a device that follows the rules of CiA 301 on its PDO parameters and refuses nothing else -/
def heedful : Dev Strict := strictDev (fun _ _ _ => none) (fun _ _ _ => none)

/-- only reads that ask for exactly the size of the object count as supported -/
def exact (cfg : Config) : Config := { cfg with indicate := false }

end Verif.Spec.PBus
