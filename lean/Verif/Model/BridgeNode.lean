import Verif.Model.Threaded
import Verif.Model.Bridge
import Verif.Model.Filter

/-!
# The programs of the bridge
socketcan_bridge/src/{socketcan_to_topic_node,topic_to_socketcan_node,socketcan_bridge_node}.cpp, socketcan_to_topic.cpp, topic_to_socketcan.cpp

The driver with its threads is the one of `Verif.Thr`; queues and transport of ROS are outside the model: a message is published when `publish` is
called, and messages are taken from the topic one by one.
-/

namespace Verif.Brn
open Verif Verif.Drv Verif.Thr Verif.Bridge Verif.Flt

/-- an element of `can_ids`: an integer, a string, or something else (socketcan_bridge/src/socketcan_to_topic.cpp:35-48) -/
inductive Item where
  | int (n : Int)
  | str (s : Text)
  | other
  deriving DecidableEq, Repr

/-- the parameter `can_ids` (socketcan_bridge/src/socketcan_to_topic.cpp:82-87): a list, a value that has a size but no elements to index
(string, binary, struct), or a value without a size -/
inductive Ids where
  | list (l : List Item)
  | sized (n : Nat)
  | unsized
  deriving DecidableEq, Repr

/-- `tofilter(const XmlRpcValue&)` (socketcan_bridge/src/socketcan_to_topic.cpp:35-48); `none`: the type error of the second cast -/
def itemFilter : Item → Option Filter
  | .int n => some (tofilterId (BitVec.ofInt 32 n))
  | .str s => some (tofilter s)
  | .other => none

/-- `tofilters` (socketcan_interface/include/socketcan_interface/string.h:35-41) of the parameter; `none`: a type error of `size` or of indexing -/
def idsFilters : Ids → Option (List Filter)
  | .list l => l.mapM itemFilter
  | .sized n => if n = 0 then some [] else none
  | .unsized => none

/-- what `setup` registers (socketcan_bridge/src/socketcan_to_topic.cpp:60-87): every frame, or those that pass a filter; `none`: an exception -/
def listenerOf : Option Ids → Option (Option (List Filter))
  | none => some none
  | some ids => (idsFilters ids).map some

/-- the messages published for a frame (socketcan_bridge/src/socketcan_to_topic.cpp:62, 69-73, 90-117) -/
def heard : Option (List Filter) → Frame → List Msg
  | none, f => frameCallback f
  | some fs, f => (listenerCalls fs f).flatMap frameCallback

/-- a line of the log about a state: is it an error, the text, the code (socketcan_bridge/src/socketcan_to_topic.cpp:120-132, topic_to_socketcan.cpp:78-90) -/
structure StateLine where
  error : Bool
  text : Text
  code : Int
  deriving DecidableEq, Repr

/-- `stateCallback` (socketcan_bridge/src/socketcan_to_topic.cpp:120-132, topic_to_socketcan.cpp:78-90) -/
def stateCallback (s : State) : StateLine := { error := s.internalError != 0, text := (translateError s.internalError []).2, code := s.errorCode }

/-- parameters of a program; `toTopic` and `toCan` say which halves it has
(socketcan_bridge/src/socketcan_to_topic_node.cpp:44-61, topic_to_socketcan_node.cpp:44-61, socketcan_bridge_node.cpp:43-64) -/
structure Config where
  device : Option Text
  settings : Settings
  ids : Option Ids
  toTopic : Bool
  toCan : Bool

/-- where `main` is (socketcan_bridge/src/socketcan_bridge_node.cpp:37-72): before `init`, in `init`, returning 1, ended with 1, ended by an exception,
after undefined behaviour, in `spin`, in `shutdown`, ended -/
inductive Phase where
  | new | starting | failing | failed | crashed | undefined | running | closing | done
  deriving DecidableEq, Repr

/-- A program (socketcan_bridge/src/socketcan_bridge_node.cpp:37-72): the driver, what is registered, and what was done: messages published, messages refused,
frames that could not be sent, states logged. -/
structure Node where
  cfg : Config
  t : TD
  phase : Phase
  listener : Option (Option (List Filter))
  stateListeners : Nat
  published : List Msg
  refused : List Msg
  unsent : List Frame
  states : List StateLine

/-- start of `main` (socketcan_bridge/src/socketcan_bridge_node.cpp:37-46) -/
def Node.new (cfg : Config) (junk : Vector Byte 8) (kjunk : KFrame) : Node :=
  { cfg := cfg, t := .fresh junk kjunk, phase := .new, listener := none, stateListeners := 0, published := [], refused := [], unsent := [], states := [] }

/-- the device (socketcan_bridge/src/socketcan_bridge_node.cpp:43-44) -/
def Config.dev (c : Config) : Text := c.device.getD "can0".toList

/-- the driver has gone on to `t`: listeners were called for what is new (socketcan_bridge/src/socketcan_to_topic.cpp:60-76, 90-132) -/
def Node.after (n : Node) (t : TD) : Node :=
  { n with
    t := t
    published := n.published ++ (match n.listener with
      | none => []
      | some l => (t.delivered.drop n.t.delivered.length).flatMap (heard l))
    states := n.states ++ (t.d.notified.drop n.t.d.notified.length).flatMap fun s => List.replicate n.stateListeners (stateCallback s) }

/-- construction and `setup` of the halves (socketcan_bridge/src/socketcan_bridge_node.cpp:60-64, topic_to_socketcan_node.cpp:60-61, socketcan_to_topic_node.cpp:60-61) -/
def Node.setup (n : Node) : Node :=
  let k := if n.cfg.toCan then 1 else 0
  if n.cfg.toTopic then
    match listenerOf n.cfg.ids with
    | some l => { n with listener := some l, stateListeners := k + 1, phase := .running }
    | none => { n with phase := .crashed }
  else { n with stateListeners := k, phase := .running }

/-- what can happen next: `main` calls `init`, `init` has returned, a message is taken from the topic (`ec`: result of the write), the program is asked to end,
a waiting call of `main` has returned, a step of the driver (socketcan_bridge/src/socketcan_bridge_node.cpp:46-71) -/
inductive NEv where
  | main (sys : SysInit)
  | started
  | msg (m : Msg) (ec : Int)
  | quit
  | finish
  | drv (e : Ev)

/-- steps of the driver that are not calls of `main` (socketcan_interface/include/socketcan_interface/asio_base.h:24-121, threading.h:25-49) -/
def internal : Ev → Bool
  | .init .. | .recover | .shutdown | .send .. => false
  | _ => true

/-- `msgCallback` with the driver (socketcan_bridge/src/topic_to_socketcan.cpp:48-74) -/
def Node.message (n : Node) (m : Msg) (ec : Int) : Node :=
  match msgCallback m with
  | [] => { n with refused := n.refused ++ [m] }
  | f :: _ =>
    match n.t.d.send f ec with
    | .ok (b, _) =>
      let n' := n.after (n.t.step (.send f ec))
      if b then n' else { n' with unsent := n'.unsent ++ [f] }
    | _ => n

/-- one step; what is not possible changes nothing (socketcan_bridge/src/socketcan_bridge_node.cpp:46-71) -/
def Node.step (n : Node) : NEv → Node
  -- 49
  | .main sys =>
    if n.phase = .new then
      if n.cfg.dev.length ≥ 16 then { n with phase := .undefined }
      else match masks n.cfg.settings with
        | .ok (em, fm) => { n.after (n.t.step (.init n.cfg.dev false em fm sys)) with phase := .starting }
        | _ => { n with phase := .crashed }
    else n
  -- 49-64; the driver is destroyed when `main` returns 1
  | .started =>
    if n.phase = .starting ∧ n.t.user = .idle then
      if n.t.results.getLast? = some (.init true) then n.setup else { n with phase := .failing, t := n.t.destroy }
    else n
  -- 66
  | .msg m ec => if n.phase = .running ∧ n.cfg.toCan then n.message m ec else n
  -- 66-68
  | .quit => if n.phase = .running then { n.after (n.t.step .shutdown) with phase := .closing } else n
  -- 68-72, 52
  | .finish =>
    if n.t.user = .idle then
      if n.phase = .closing then { n with phase := .done, listener := none, stateListeners := 0 }
      else if n.phase = .failing then { n with phase := .failed }
      else n
    else n
  | .drv e => if internal e ∧ n.phase ≠ .new then n.after (n.t.step e) else n

/-- a history (socketcan_bridge/src/socketcan_bridge_node.cpp:37-72) -/
def Node.run (n : Node) : List NEv → Node
  | [] => n
  | e :: es => (n.step e).run es

end Verif.Brn
