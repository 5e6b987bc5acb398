import Verif.Model.SdoChannel
import Verif.Spec.Sdo

/-!
# The SDO channel of a node: notions used to state C95
-/

namespace Verif.Spec.Chan
open Verif Verif.Sdo Verif.OD Verif.Chan Verif.Spec.Sdo

/-- the configured value of an object is the number `v`, either directly or as an offset to the node's number -/
def Configured (dict : Dict) (node : BitVec 8) (s : BitVec 8) (v : BitVec 32) : Prop :=
  ∃ e, dict.get (Key.ofSub 0x1200#16 s) = some e ∧
    (e.value = .val (.int .u32 v) ∨ ∃ off : BitVec 32, e.value = .val (.offset .u32 off) ∧ v = off + node.setWidth 32)

/-- a COB-ID as the standard writes it: 11 or 29 bits of identifier, bit 29 for the long form -/
def cobHeader (v : BitVec 32) : Header := { id := v.extractLsb' 0 29, isError := false, isRtr := false, isExtended := v.getLsbD 29 }

/-- an identifier of the predefined connection set -/
def predefined (base : Nat) (node : BitVec 8) : Header :=
  { id := BitVec.ofNat 29 (base + node.toNat), isError := false, isRtr := false, isExtended := false }

/-- the frames of a history that carry an identifier -/
def arrivals (key : Option (BitVec 32)) : List Ev → List Frame
  | [] => []
  | .arrive f :: es => if key = some f.key then f :: arrivals key es else arrivals key es
  | _ :: es => arrivals key es

/-- an event that is part of a call: everything but initialisations and the return of the call -/
def Inner : Ev → Prop
  | .init _ _ => False
  | .leave => False
  | _ => True

/-- the event is no initialisation -/
def NoInit : Ev → Prop
  | .init _ _ => False
  | _ => True

/-- the event is no frame of somebody else -/
def Own (key : Option (BitVec 32)) : Ev → Bool
  | .arrive f => decide (key = some f.key)
  | _ => true

/-! ## a channel with a conforming server at the other end -/

/-- the channel, the server, and how many of the requests it has seen; `calls` are the calls that got the mutex, `results` what was returned -/
structure Link where
  ch : State
  server : Server
  seen : Nat
  calls : List (Obj × List Byte × Bool)
  results : List Result

/-- what may happen: the server handles the next request and its answer arrives, a step of the channel without time-out, a frame of somebody else -/
inductive LEv where
  | serve
  | call (key : Obj) (data : List Byte) (upload : Bool)
  | take
  | leave
  | foreign (f : Frame)

/-- one step of the link; `sid` is the header of the server's frames -/
def Link.step (cfg : Config) (sid : Header) (l : Link) : LEv → Link
  | .serve =>
    match l.ch.client.sent[l.seen]? with
    | none => l
    | some f =>
      let r := l.server.recv cfg f.data
      match r.2 with
      | none => { l with server := r.1, seen := l.seen + 1 }
      | some d => { l with server := r.1, seen := l.seen + 1, ch := (l.ch.step (.arrive ⟨sid, d, 8⟩)).1 }
  | .call k d u =>
    { l with ch := (l.ch.step (.call k d u)).1, calls := if l.ch.running.isNone then l.calls ++ [(k, d, u)] else l.calls }
  | .take => { l with ch := (l.ch.step .take).1 }
  | .leave => { l with ch := (l.ch.step .leave).1, results := l.results ++ (l.ch.step .leave).2 }
  | .foreign f => if f.key = sid.key then l else { l with ch := (l.ch.step (.arrive f)).1 }

/-- a schedule -/
def Link.run (cfg : Config) (sid : Header) (l : Link) (es : List LEv) : Link := es.foldl (Link.step cfg sid) l

/-- the objects of the device after an access -/
def after (store : Obj → List Byte) (a : Obj × List Byte × Bool) : Obj → List Byte :=
  if a.2.2 then store else fun o => if o = a.1 then a.2.1 else store o

/-- what an access should return: a read the value of the object, a write nothing -/
def answer (store : Obj → List Byte) (a : Obj × List Byte × Bool) : Result :=
  ⟨a.1, a.2.2, .ok (if a.2.2 then store a.1 else [])⟩

/-- what accesses one after the other should return -/
def replay (store : Obj → List Byte) : List (Obj × List Byte × Bool) → List Result
  | [] => []
  | a :: as => answer store a :: replay (after store a) as

/-- accesses the client supports: writes of at least one byte, reads of objects that are not empty with no size or the right size requested, nothing
above 255 bytes -/
def Proper (cfg : Config) (store : Obj → List Byte) : List (Obj × List Byte × Bool) → Prop
  | [] => True
  | (o, d, u) :: as =>
    (if u then 1 ≤ (store o).length ∧ (store o).length < 256 ∧ (d = [] ∧ cfg.indicate = true ∨ d.length = (store o).length)
      else 1 ≤ d.length ∧ d.length < 256) ∧ Proper cfg (after store (o, d, u)) as

end Verif.Spec.Chan
