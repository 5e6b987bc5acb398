import Verif.Model.Merge
import Verif.Model.Text
import Verif.Model.Master
import Verif.Model.Motor
import Verif.Model.ObjectText

/-!
# Setting up a chain from its parameters
canopen_chain_node/src/ros_chain.cpp:39-64, 203-208, 334-574, 606-634
-/

namespace Verif.Setup
open Verif Verif.Merge

/-- how a part of the set-up ends: `refused` is `return false`, `escapes` an exception that leaves `setup`
(canopen_chain_node/src/ros_chain.cpp:606-611) -/
inductive Res (α : Type) where
  | ok (a : α)
  | refused
  | escapes
  | ub
  deriving DecidableEq, Repr

/-- one part after the other, `a() && b()` (canopen_chain_node/src/ros_chain.cpp:633) -/
def Res.bind {α β : Type} (r : Res α) (f : α → Res β) : Res β :=
  match r with
  | .ok a => f a
  | .refused => .refused
  | .escapes => .escapes
  | .ub => .ub

/-- canopen_chain_node/src/ros_chain.cpp:374 `master_->getSync`: a SYNC layer, a null pointer or an exception -/
inductive Made where
  | sync | null | throws
  deriving DecidableEq

/-- canopen_master/src/master_plugin.cpp:119-121 with the constructors 84-92 (`SimpleMaster`) -/
def simpleMaster (junk : Vector Byte 8) (p : Sync.Props) : Made := if (Sync.Simple.create p junk).isSome then .sync else .throws

/-- canopen_master/src/master_plugin.cpp:119-121, 113-114 (`ExternalMaster`) -/
def externalMaster (_ : Sync.Props) : Made := .sync

/-- what `setup_sync` leaves behind: `update_duration_` and `sync_` (canopen_chain_node/src/ros_chain.cpp:355, 374) -/
structure SyncSetup where
  updateMs : Int
  sync : Option Sync.Props

/-- canopen_chain_node/src/ros_chain.cpp:334-380 `setup_sync`.  The parameters are those of `getParam` (`none`: not there, or no number).
`SyncProperties` takes `uint16_t` and `uint8_t` (canopen_master/include/canopen_master/canopen.h:174). -/
def setupSync (getSync : Sync.Props → Made) (interval update overflow : Option Int) : Res SyncSetup :=
  let ms := interval.getD 0
  if ms < 0 then .refused
  else
    let up := if ms = 0 then update.getD 0 else ms
    if up = 0 then .refused
    else if ms = 0 then .ok ⟨up, none⟩
    else
      let o := overflow.getD 0
      if o = 1 ∨ o > 240 then .refused
      else
        let p : Sync.Props := { header := Header.msg 0x80, period := BitVec.ofInt 16 ms, overflow := BitVec.ofInt 8 o }
        match getSync p with
        | .throws => .escapes
        | .null => .refused
        | .sync => .ok ⟨up, some p⟩

/-- `rate <= 0` for a `double` (canopen_chain_node/src/ros_chain.cpp:391) -/
def notPositive : M402.Dbl → Bool
  | .nan => false
  | .posInf => false
  | .negInf => true
  | .fin q => decide (q ≤ 0)

/-- canopen_chain_node/src/ros_chain.cpp:382-412 `setup_heartbeat`; the result is the frame and the rate of the timer, if any -/
def setupHeartbeat (junk : Vector Byte 8) (msg : Option Text) (rate : Option M402.Dbl) : Res (Option (Frame × M402.Dbl)) :=
  if msg.isNone ∧ rate.isNone then .ok none
  else
    let r := rate.getD (.fin 0)
    if notPositive r then .refused
    else
      let f := Txt.toframe junk (msg.getD [])
      if f.isValid then .ok (some (f, r)) else .refused

/-- canopen_chain_node/src/ros_chain.cpp:413-418 `parseObjectName` -/
def parseObjectName (s : Text) : Text × Bool :=
  if '!' ∈ s then (s.takeWhile (· ≠ '!'), true) else (s, false)

/-- the values `XmlRpcValue` can have, as far as they are looked at (canopen_chain_node/src/ros_chain.cpp:472-574); elements of arrays that are no
strings are `none` -/
inductive Leaf where
  | int (i : Int)
  | str (s : String)
  | list (l : List (Option String))
  | other
  deriving DecidableEq

/-- `ObjectDict::fromFile` (canopen_chain_node/src/ros_chain.cpp:525), which never returns a null pointer but throws -/
inductive Loaded where
  | dict (d : OD.Dict)
  | null
  | throws

/-- What the set-up meets outside: meaning of the opaque values of `Verif.Merge`, files and packages
(canopen_chain_node/src/ros_chain.cpp:511-525) -/
structure World where
  leaf : Nat → Leaf
  load : String → List (String × String) → Loaded
  pkgPath : String → Option String
  join : String → String → String
  mem : OD.Mem

/-- an entry of the diagnostics of a node (canopen_chain_node/include/canopen_chain_node/ros_chain.h:57-64) -/
structure LogEntry where
  level : Nat
  key : OD.Key
  name : Text
  cached : Bool

/-- a published object (canopen_chain_node/src/ros_chain.cpp:24-38) -/
structure Pub where
  topic : Text
  key : OD.Key
  ty : OD.Ty
  cached : Bool

/-- a node of the chain with what is attached to it (canopen_chain_node/src/ros_chain.cpp:530-573) -/
structure NodeSetup where
  name : String
  id : Byte
  dict : OD.Dict
  logs : List LogEntry
  pubs : List Pub

/-- getting a handle of an object (canopen_master/src/objdict.cpp:440-453, canopen_chain_node/src/ros_chain.cpp:25).  Simplified: the storage is
fresh, handles made before by the node itself are not considered. -/
def openObject (mem : OD.Mem) (d : OD.Dict) (id : Byte) (k : OD.Key) : Res (OD.Entry × OD.Ty) :=
  match d.get k with
  | none => .refused
  | some e =>
    match OD.typeOf e.dataType with
    | none => .refused
    | some ty =>
      match ((OD.Storage.fresh d id).entry mem k ty).2 with
      | .ok _ => .ok (e, ty)
      | .throws _ => .refused
      | .ub => .ub

/-- canopen_chain_node/include/canopen_chain_node/ros_chain.h:57-70 `Logger::add`, called as in canopen_chain_node/src/ros_chain.cpp:425-430 -/
def addLog (mem : OD.Mem) (d : OD.Dict) (id : Byte) (level : Nat) (s : String) : Res LogEntry :=
  let n := parseObjectName s.toList
  let k := OD.Key.fromText n.1
  (openObject mem d id k).bind fun r => .ok { level := level, key := k, name := if r.1.desc = [] then n.1 else r.1.desc, cached := !n.2 }

/-- canopen_chain_node/src/ros_chain.cpp:24-64 `create`, `createPublishFunc`, called as in 550-558 -/
def addPub (mem : OD.Mem) (d : OD.Dict) (id : Byte) (node : String) (s : String) : Res Pub :=
  let n := parseObjectName s.toList
  let k := OD.Key.fromText n.1
  (openObject mem d id k).bind fun r => .ok { topic := node.toList ++ '_' :: n.1, key := k, ty := r.2, cached := !n.2 }

/-- the loops over listed names (canopen_chain_node/src/ros_chain.cpp:424-431, 549-559); an element that is no string throws, which is caught -/
def collect {α : Type} (f : String → Res α) : List (Option String) → Res (List α)
  | [] => .ok []
  | none :: _ => .refused
  | some s :: l => (f s).bind fun a => (collect f l).bind fun as => .ok (a :: as)

/-- the elements of the value of a list parameter: `objs.size()`, `objs[i]` (canopen_chain_node/src/ros_chain.cpp:423-425, 548-550); `none`: an
exception, which is caught.  Empty strings and structs have size 0. -/
def elements (w : World) : XVal → Option (List (Option String))
  | .struct .nil => some []
  | .struct (.cons _ _ _) => none
  | .leaf n =>
    match w.leaf n with
    | .list l => some l
    | .str s => if s = "" then some [] else none
    | _ => none

/-- canopen_chain_node/src/ros_chain.cpp:420-439, 546-565: an optional list parameter -/
def optional {α : Type} (w : World) (m : Fields) (param : String) (f : String → Res α) : Res (List α) :=
  match m.get? param with
  | none => .ok []
  | some v =>
    match elements w v with
    | none => .refused
    | some l => collect f l

/-- canopen_chain_node/src/ros_chain.cpp:494-500: the overlay made of the entries; `none`: an entry is no string -/
def overlayOf (w : World) : Fields → Option (List (String × String))
  | .nil => some []
  | .cons k (.struct _) _ => (fun (_ : String) => none) k
  | .cons k (.leaf n) rest =>
    match w.leaf n with
    | .str s => (overlayOf w rest).map ((k, s) :: ·)
    | _ => none

/-- canopen_chain_node/src/ros_chain.cpp:487-501 -/
def overlay (w : World) (m : Fields) : Res (List (String × String)) :=
  match m.get? "dcf_overlay" with
  | none => .ok []
  | some (.leaf _) => .refused
  | some (.struct fs) => match overlayOf w fs with
    | none => .refused
    | some o => .ok o

/-- `std::string` of a member (canopen_chain_node/src/ros_chain.cpp:506, 541); the conversion of a missing member of a non-const value
gives the empty string -/
def stringOf (w : World) (m : Fields) (key : String) : Option String :=
  match m.get? key with
  | none => some ""
  | some (.struct _) => none
  | some (.leaf n) => match w.leaf n with
    | .str s => some s
    | _ => none

/-- canopen_chain_node/src/ros_chain.cpp:513-523: the package of the file; problems are ignored -/
def inPackage (w : World) (m : Fields) (eds : String) : String :=
  match m.get? "eds_pkg" with
  | some (.leaf n) =>
    match w.leaf n with
    | .str pkg => match w.pkgPath pkg with
      | none => eds
      | some p => w.join p eds
    | _ => eds
  | _ => eds

/-- the member "id" (canopen_chain_node/src/ros_chain.cpp:473-480); missing or no integer: an exception, which is caught -/
def idOf (w : World) (params : XVal) : Option Int :=
  match params with
  | .leaf _ => none
  | .struct a =>
    match a.get? "id" with
    | some (.leaf n) => match w.leaf n with
      | .int i => some i
      | _ => none
    | _ => none

/-- canopen_chain_node/src/ros_chain.cpp:483-485 -/
def withName (m : Fields) (nameLeaf : XVal) : Fields := if (m.get? "name").isSome then m else m.append "name" nameLeaf

/-- canopen_chain_node/src/ros_chain.cpp:472-574 `setup_node` with `nodeAdded` of `RosChain` (576-578).  `name` is the opaque value of the name
given by the caller.  The node takes its number as `uint8_t` (canopen_master/include/canopen_master/canopen.h:198).  What a refused node leaves
behind (publishers, diagnostics) is not modelled: the process ends (canopen_chain_node/src/chain_node.cpp:15-17). -/
def setupNode (w : World) (params : XVal) (name : Nat) (defaults : XVal) : Res NodeSetup :=
  match idOf w params with
  | none => .refused
  | some i =>
    match merge params defaults with
    | none => .escapes
    | some (.leaf _) => .escapes
    | some (.struct m0) =>
      let m := withName m0 (.leaf name)
      (overlay w m).bind fun ov =>
      match stringOf w m "eds_file" with
      | none => .refused
      | some eds =>
        match w.load (inPackage w m eds) ov with
        | .throws => .escapes
        | .null => .refused
        | .dict d =>
          let id := BitVec.ofInt 8 i
          (optional w m "log" (addLog w.mem d id 0)).bind fun l0 =>
          (optional w m "log_warn" (addLog w.mem d id 1)).bind fun l1 =>
          (optional w m "log_error" (addLog w.mem d id 2)).bind fun l2 =>
          match stringOf w m "name" with
          | none => .escapes
          | some nn =>
            (optional w m "publish" (addPub w.mem d id nn)).bind fun ps =>
            .ok { name := nn, id := id, dict := d, logs := l0 ++ l1 ++ l2, pubs := ps }

/-- the nodes of the chain in order and by name (canopen_chain_node/include/canopen_chain_node/ros_chain.h:148-149) -/
structure Nodes where
  nodes : List NodeSetup
  lookup : List (String × NodeSetup)

/-- `nodes_->add`, `nodes_lookup_.insert` (canopen_chain_node/src/ros_chain.cpp:566-567): an existing name stays -/
def Nodes.add (c : Nodes) (n : NodeSetup) : Nodes :=
  { nodes := c.nodes ++ [n], lookup := if (c.lookup.find? fun p => p.1 = n.name).isSome then c.lookup else c.lookup ++ [(n.name, n)] }

/-- `nodes_lookup_.find` (canopen_chain_node/src/ros_chain.cpp:251, 267) -/
def Nodes.find (c : Nodes) (name : String) : Option NodeSetup := (c.lookup.find? fun p => p.1 = name).map (·.2)

/-- the parameter "nodes", or else "modules" (canopen_chain_node/src/ros_chain.cpp:447-451); the names of a struct are given with their opaque
values -/
inductive NodesParam where
  | absent
  | array (l : List XVal)
  | struct (l : List (Nat × XVal))
  | other

/-- canopen_chain_node/src/ros_chain.cpp:455-463: the name of an element of the array -/
def arrayName (w : World) (v : XVal) : Res Nat :=
  match v with
  | .leaf _ => .refused
  | .struct a =>
    match a.get? "name" with
    | none => .refused
    | some (.struct _) => .escapes
    | some (.leaf n) => match w.leaf n with
      | .str _ => .ok n
      | _ => .escapes

/-- the loops of canopen_chain_node/src/ros_chain.cpp:455-468 -/
def setupAll (w : World) (defaults : XVal) : List (Res Nat × XVal) → Nodes → Res Nodes
  | [], c => .ok c
  | (rn, v) :: l, c => rn.bind fun n => (setupNode w v n defaults).bind fun s => setupAll w defaults l (c.add s)

/-- canopen_chain_node/src/ros_chain.cpp:441-470 `setup_nodes`.  `begin()` of a value that is no struct dereferences a pointer that is not there
(465). -/
def setupNodes (w : World) (p : NodesParam) (defaults : XVal) : Res Nodes :=
  match p with
  | .absent => .ub
  | .other => .ub
  | .array l => setupAll w defaults (l.map fun v => (arrayName w v, v)) ⟨[], []⟩
  | .struct l => setupAll w defaults (l.map fun p => (.ok p.1, p.2)) ⟨[], []⟩

/-- the layers of the stack in order (canopen_chain_node/src/ros_chain.cpp:329, 378, 443, 609) -/
inductive Member where
  | can | sync | nodes | emcy
  deriving DecidableEq, Repr

/-- the chain after its set-up (canopen_chain_node/src/ros_chain.cpp:606-634) -/
structure Chain where
  members : List Member
  updateMs : Int
  sync : Option Sync.Props
  heartbeat : Option (Frame × M402.Dbl)
  nodes : Nodes

/-- the parameters of a chain (canopen_chain_node/src/ros_chain.cpp:334-470) -/
structure Config where
  interval : Option Int
  update : Option Int
  overflow : Option Int
  msg : Option Text
  rate : Option M402.Dbl
  nodes : NodesParam
  defaults : XVal

/-- canopen_chain_node/src/ros_chain.cpp:606-634 `setup`, `setup_chain`; `bus` says whether `setup_bus` succeeds (291-332) -/
def setup (w : World) (getSync : Sync.Props → Made) (junk : Vector Byte 8) (bus : Bool) (c : Config) : Res Chain :=
  if !bus then .refused
  else
    (setupSync getSync c.interval c.update c.overflow).bind fun s =>
    (setupHeartbeat junk c.msg c.rate).bind fun h =>
    (setupNodes w c.nodes c.defaults).bind fun n =>
    .ok { members := [.can] ++ (if s.sync.isSome then [.sync] else []) ++ [.nodes, .emcy], updateMs := s.updateMs, sync := s.sync,
          heartbeat := h, nodes := n }

/-- canopen_chain_node/src/ros_chain.cpp:205-207: the publishers are called in turn after the layers were written; a publisher either publishes a
message or throws (its object could not be read), which ends the cycle (78-86) -/
def publishAll {σ μ : Type} : List (σ → σ × Option μ) → σ → σ × List μ × Bool
  | [], s => (s, [], true)
  | f :: fs, s =>
    match f s with
    | (s', none) => (s', [], false)
    | (s', some m) =>
      let r := publishAll fs s'
      (r.1, m :: r.2.1, r.2.2)

end Verif.Setup
