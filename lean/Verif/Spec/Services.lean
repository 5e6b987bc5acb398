import Verif.Spec.ObjectText
import Verif.Spec.StorageBus

/-!
# The object services on top of several devices: notions used to state C120

A chain has nodes with names.  Each node has a storage and, at the other end of the bus, a device that it reaches with an SDO client of its own
(canopen_master/src/node.cpp:30-38, canopen_chain_node/src/ros_chain.cpp:532, 567).  The services `get_object` and `set_object`
(canopen_chain_node/src/ros_chain.cpp:249-279) name a node, an object and a value as texts.
-/

namespace Verif.Spec.Serv
open Verif Verif.OD Verif.Sdo Verif.Chan Verif.Spec Verif.Spec.Sdo Verif.Spec.Chan Verif.Spec.Wire

variable {P : Type}

/-- the delegates of one node work on what belongs to that node -/
def of {W : Type} (name : Text) (bus : Bus W) : Bus (Text → W) where
  read := fun d e b f => let r := bus.read d e b (f name); (fun n => if n = name then r.1 else f n, r.2.1, r.2.2)
  write := fun d e v f => let r := bus.write d e v (f name); (fun n => if n = name then r.1 else f n, r.2)

/-- the SDO channels to all devices; each server has its way to answer and each channel its identifier; `other` serves the objects mapped to PDOs -/
def wiredAll (cfg : Text → Config) (sid : Text → Header) (other : Text → Bus P) (name : Text) : Bus (Text → Wire P) :=
  of name (wired (cfg name) (sid name) (other name))

/-- what a user imagines: the memories of all devices -/
def directAll (cfg : Text → Config) (other : Text → Bus P) (name : Text) : Bus (Text → Memory P) := of name (direct (cfg name) (other name))

/-- what users ask for, and what the devices do by themselves -/
inductive Request where
  | get (node object : Text) (cached : Bool)
  | set (node object value : Text) (cached : Bool)
  | deviceChanges (node : Text) (o : Obj) (v : List Byte)

/-- the texts of numbers and of exceptions -/
structure Texts where
  print : RealPrinter
  parse : RealParser
  info : Err → Text

/-- one request; `changes` is the device's own change of an object -/
def serve {W : Type} (bus : Text → Bus W) (changes : Text → Obj → List Byte → W → W) (t : Texts) (mem : Mem) (ns : Nodes) (c : Ctx W) :
    Request → Nodes × Ctx W × Option (Option Answer)
  | .get node object cached => let r := getObject bus t.print t.info mem ns c node object cached; (r.1, r.2.1, some r.2.2)
  | .set node object value cached => let r := setObject bus t.parse t.info mem ns c node object value cached; (r.1, r.2.1, some r.2.2)
  | .deviceChanges node o v => (ns, { c with w := changes node o v c.w }, none)

/-- a history of requests with the answers -/
def serveAll {W : Type} (bus : Text → Bus W) (changes : Text → Obj → List Byte → W → W) (t : Texts) (mem : Mem) :
    Nodes → Ctx W → List Request → Nodes × Ctx W × List (Option (Option Answer))
  | ns, c, [] => (ns, c, [])
  | ns, c, q :: qs =>
    let r := serve bus changes t mem ns c q
    let s := serveAll bus changes t mem r.1 r.2.1 qs
    (s.1, s.2.1, r.2.2 :: s.2.2)

/-- a device changes an object by itself: at the end of the bus -/
def changeWired (node : Text) (o : Obj) (v : List Byte) (f : Text → Wire P) : Text → Wire P := fun n =>
  if n = node then { f n with server := { (f n).server with store := fun o' => if o' = o then v else (f n).server.store o' } } else f n

/-- a device changes an object by itself: in its memory -/
def changeDirect (node : Text) (o : Obj) (v : List Byte) (f : Text → Memory P) : Text → Memory P := fun n =>
  if n = node then { f n with store := fun o' => if o' = o then v else (f n).store o' } else f n

/-- all requests over the bus -/
def overBus (cfg : Text → Config) (sid : Text → Header) (other : Text → Bus P) (t : Texts) (mem : Mem) (ns : Nodes) (c : Ctx (Text → Wire P)) (qs : List Request) :=
  serveAll (wiredAll cfg sid other) changeWired t mem ns c qs

/-- all requests on the memories -/
def onMemory (cfg : Text → Config) (other : Text → Bus P) (t : Texts) (mem : Mem) (ns : Nodes) (c : Ctx (Text → Memory P)) (qs : List Request) :=
  serveAll (directAll cfg other) changeDirect t mem ns c qs

/-- all channels are ready -/
def AllReady (sid : Text → Header) (w : Text → Wire P) : Prop := ∀ n, Ready (sid n) (w n) (w n).server.store

/-- the memories of the devices at the end of the bus -/
def memories (w : Text → Wire P) : Text → Memory P := fun n => ⟨(w n).server.store, true, (w n).other⟩

/-- the request does not change the object `o` of `node`: it reads, or it is for another node, or it writes an object with another address.  The addresses
are those of the node's dictionary. -/
def Spares (ns : Nodes) (node : Text) (o : Obj) : Request → Prop
  | .get _ _ _ => True
  | .set n object _ _ => n = node → ∀ s e, ns.find node = some s → s.dict.get (Key.fromText object) = some e → objOf e ≠ o
  | .deviceChanges n o' _ => n = node → o' ≠ o

/-- the records of a storage describe the objects of its dictionary -/
def Consistent (ns : Nodes) : Prop := ∀ n s k d, ns.find n = some s → s.data k = some d → s.dict.get k = some d.entry

/-- the request is for this node -/
def Concerns (n : Text) : Request → Prop
  | .get node _ _ => node = n
  | .set node _ _ _ => node = n
  | .deviceChanges node _ _ => node = n

end Verif.Spec.Serv
