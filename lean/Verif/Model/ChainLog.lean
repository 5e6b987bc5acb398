import Verif.Model.Chain
import Verif.Model.ObjectText

/-!
# What a chain node writes to the console, and its end
canopen_chain_node/src/ros_chain.cpp:76-87, 94-132, 134-279, 636-641
-/

namespace Verif.ChainLog
open Verif Verif.Lay Verif.Chain

variable {σ : Type}

/-- levels of `ROS_INFO_STREAM`, `ROS_WARN_STREAM`, `ROS_ERROR_STREAM` (canopen_chain_node/src/ros_chain.cpp:82-83, 104-129) -/
inductive Level where
  | info | warn | error
  deriving DecidableEq, Repr

/-- one line (canopen_chain_node/src/ros_chain.cpp:82-83, 104-129) -/
structure Line where
  level : Level
  text : Text
  deriving DecidableEq, Repr

/-- canopen_chain_node/src/ros_chain.cpp:101-110 `~ResponseLogger` -/
def endResponse (command : Text) (logged success : Bool) (message : Text) : List Line :=
  if !logged && !success then
    if message = [] then [⟨.error, command ++ " failed".toList⟩] else [⟨.error, command ++ " failed: ".toList ++ message⟩]
  else []

/-- canopen_chain_node/src/ros_chain.cpp:122-131 `~TriggerResponseLogger`, followed by the destructor of its base class -/
def endTrigger (command : Text) (logged : Bool) (r : Resp) : List Line :=
  let own := !logged && r.success
  (if own then
    if r.message = [] then [⟨.info, command ++ " successful".toList⟩] else [⟨.info, command ++ " successful: ".toList ++ r.message⟩]
  else []) ++ endResponse command (logged || own) r.success r.message

/-- canopen_chain_node/src/ros_chain.cpp:115-117: the line of the constructor -/
def startLine (command : Text) : Line := ⟨.info, command ++ "...".toList⟩

/-- what one request leads to (canopen_chain_node/src/ros_chain.cpp:134-247): the command text of its logger -/
def command : Ev → Text
  | .init _ => "Initializing".toList
  | .recover => "Recovering".toList
  | .halt => "Halting down".toList
  | .shutdown => "Shutting down".toList
  | _ => []

/-- canopen_chain_node/src/ros_chain.cpp:171-201: lines of `handle_recover` between its first and its last one, and whether `logWarning`
(187, 118-121) was called -/
def recoverLines (c : Chain σ) (e : Env σ) : List Line × Bool :=
  if c.tree.state.toNat > LayerState.init.toNat then
    match (c.resetErrors (start e)).2.1 with
    | some t => ([⟨.error, t⟩], false)
    | none =>
      let r := c.handleRecover e
      if r.2.1.status.sev = .warn then ([⟨.warn, "Recovering".toList ++ " successful with warning(s): ".toList ++ r.2.2.message⟩], true) else ([], false)
  else ([], false)

/-- lines between the first and the last one (canopen_chain_node/src/ros_chain.cpp:134-247): the exceptions of `handle_init` do not occur -/
def middle (c : Chain σ) (e : Env σ) : Ev → List Line × Bool
  | .recover => recoverLines c e
  | _ => ([], false)

/-- canopen_chain_node/src/ros_chain.cpp:134-247: a request with all its lines.  The first one is written before the mutex is taken, so also by a
request that has to wait for ever.  Lines of requests that overlap can be mixed, the last one is written after the mutex was given back. -/
def serve (c : Chain σ) (e : Env σ) (v : Ev) : (Chain σ × Env σ × Option Resp) × List Line :=
  let r := c.step e v
  (r, match r.2.2 with
    | none => match v with
      | .begin _ => []
      | .cycle => []
      | _ => [startLine (command v)]
    | some a => startLine (command v) :: (middle c e v).1 ++ endTrigger (command v) (middle c e v).2 a)

/-- canopen_chain_node/src/ros_chain.cpp:250, 266: lines of the services for objects -/
def objectLines (set : Bool) (node : Text) (a : OD.Answer) : List Line :=
  endResponse ((if set then "Setting object ".toList else "Getting object ".toList) ++ node) false a.success a.message

/-! ## control loop -/

/-- the period of canopen_chain_node/src/ros_chain.cpp:82-83 in milliseconds -/
def throttlePeriod : Nat := 10000

/-- `ROSCONSOLE_THROTTLE_CHECK` (library) as used in canopen_chain_node/src/ros_chain.cpp:82-83; `last` starts with 0 -/
def hit (last now : Nat) : Bool := decide (last + throttlePeriod ≤ now) || decide (now < last)

/-- the variables of the two places in canopen_chain_node/src/ros_chain.cpp:82-83 -/
structure Sites where
  err : Nat
  warn : Nat

/-- the end of a cycle, canopen_chain_node/src/ros_chain.cpp:82-83.  The exceptions of 85-87 do not occur: the layers catch all. -/
def cycleLines (s : Sites) (now : Nat) (st : Status) : Sites × List Line :=
  if !st.boundedWarn then
    if hit s.err now then ({ s with err := now }, [⟨.error, st.reason⟩]) else (s, [])
  else if st.sev ≠ .ok then
    if hit s.warn now then ({ s with warn := now }, [⟨.warn, st.reason⟩]) else (s, [])
  else (s, [])

/-- a sequence of cycles with the times of their ends (canopen_chain_node/src/ros_chain.cpp:76-91) -/
def loopLines : Sites → List (Nat × Status) → List (Nat × Line)
  | _, [] => []
  | s, (now, st) :: cs =>
    let r := cycleLines s now st
    r.2.map (fun l => (now, l)) ++ loopLines r.1 cs

/-! ## the end of a node -/

/-- canopen_chain_node/src/ros_chain.cpp:636-641 `~RosChain`: `halt` and `shutdown` (210-220) whatever the state is -/
def destroy (c : Chain σ) (e : Env σ) : Chain σ × Env σ :=
  let r := c.tree.halt (start e)
  { c with tree := r.1 }.shutdownLayer r.2

end Verif.ChainLog
