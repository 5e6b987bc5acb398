import Verif.Model.Driver

/-!
# The virtual driver and its thread, and the table of virtual buses
socketcan_interface/include/socketcan_interface/dummy.h, threading.h

`run` holds the mutex all the time except while it waits on the condition variable, so that what it does between two waits is one step.  Every other scope of the
mutex is one step, too.  Delivery between interfaces is the subject of Verif/Model/Dummy.lean; here frames of others just arrive while the interface is connected.
Simplification: listeners neither throw nor call the driver.
-/

namespace Verif.DumL
open Verif Verif.Drv

/-- `thread_` (socketcan_interface/include/socketcan_interface/threading.h:40): null, before the first line of `run`, in the wait of line 152 of
socketcan_interface/include/socketcan_interface/dummy.h, ended -/
inductive Thread where
  | none | created | waiting | ended
  deriving DecidableEq, Repr

/-- what the user of the driver is doing: nothing; `wait` in `init` (socketcan_interface/include/socketcan_interface/threading.h:67); in `shutdown` before lines 132-137, 83, 84 of
socketcan_interface/include/socketcan_interface/dummy.h; before `interrupt` (threading.h:46), in `join` (threading.h:47), both `true` in the destructor (threading.h:81-83);
done with the destructor -/
inductive User where
  | idle | waiting | flushing | closing | dropping | interrupting (destroys : Bool) | joining (destroys : Bool) | gone
  deriving DecidableEq, Repr

/-- what a call returned: `init` with its result or with an exception, `shutdown`, the destructor (socketcan_interface/include/socketcan_interface/threading.h:63-83) -/
inductive Result where
  | init (ok : Bool)
  | unknownBus
  | shutdown
  | destroyed
  deriving DecidableEq, Repr

/-- `ThreadedInterface<DummyInterface>`: the members (socketcan_interface/include/socketcan_interface/dummy.h:59-65, threading.h:40), and what happened so far: the states
told to a listener that was there from the beginning, the frames handed to listeners, the results of calls.  `crashed`: undefined behaviour. -/
structure DL where
  state : DriverState
  bus : Bool
  queue : List Frame
  loopback : Bool
  thread : Thread
  interrupted : Bool
  user : User
  told : List DriverState
  delivered : List Frame
  results : List Result
  crashed : Bool

/-- constructor (socketcan_interface/include/socketcan_interface/dummy.h:87, interface.h:93, threading.h:84) -/
def DL.fresh : DL :=
  { state := .closed, bus := false, queue := [], loopback := false, thread := .none, interrupted := false, user := .idle, told := [], delivered := [], results := [], crashed := false }

/-- socketcan_interface/include/socketcan_interface/dummy.h:67-74 `setDriverState` -/
def DL.setDriverState (s : DL) (d : DriverState) : DL :=
  if s.state ≠ d then { s with state := d, told := s.told ++ [d] } else s

/-- socketcan_interface/include/socketcan_interface/dummy.h:75-80 `enqueue` -/
def DL.enqueue (s : DL) (f : Frame) : DL := { s with queue := s.queue ++ [f] }

/-- socketcan_interface/include/socketcan_interface/dummy.h:92-101 `send`, without a connection `bus_` is null -/
def DL.send (s : DL) (f : Frame) : DL :=
  let s := if s.loopback then s.enqueue f else s
  if s.bus then s else { s with crashed := true }

/-- socketcan_interface/include/socketcan_interface/dummy.h:149-150, the top of the loop of `run` -/
def DL.top (s : DL) : DL := { s with state := .ready, told := s.told ++ [.ready], thread := .waiting }

/-- socketcan_interface/include/socketcan_interface/dummy.h:152-166: the wait is over, for whatever reason -/
def DL.wake (s : DL) : DL :=
  let s := { s with delivered := s.delivered ++ s.queue, queue := [] }
  if s.state = .closed then { s with thread := .ended } else s.top

/-- socketcan_interface/include/socketcan_interface/threading.h:63-70 with `init` of socketcan_interface/include/socketcan_interface/dummy.h:170-184 (lines 48-51: `at` throws
if there is no bus with this name) -/
def DL.init (s : DL) (known loopback : Bool) : DL :=
  if s.thread = .none then
    let s := { s with loopback := loopback }
    if known then { DL.setDriverState { s with bus := true } .opened with thread := .created, interrupted := false, user := .waiting }
    else { s with results := s.results ++ [.unknownBus] }
  else { s with results := s.results ++ [.init (s.state = .ready)] }

/-- what can happen next (socketcan_interface/include/socketcan_interface/dummy.h:67-184, threading.h:41-83) -/
inductive Ev where
  | init (known loopback : Bool)
  | waited (timeout : Bool)
  | send (f : Frame)
  | shutdown
  | destroy
  | poll
  | close
  | drop
  | interrupt
  | join
  | arrive (f : Frame)
  | begin
  | wake
  | interrupted
  deriving DecidableEq

/-- one step; what is not possible changes nothing (socketcan_interface/include/socketcan_interface/dummy.h:67-184, threading.h:41-83; the lines of each step are given beside it) -/
def DL.step (s : DL) : Ev → DL
  -- threading.h:63-70
  | .init k l => if s.user = .idle then s.init k l else s
  -- threading.h:25-36: every state told since line 65 is passed to the waiter
  | .waited timeout => if s.user = .waiting ∧ (timeout ∨ s.state = .ready) then { s with user := .idle, results := s.results ++ [.init (!timeout)] } else s
  -- dummy.h:92-101
  | .send f => if s.user = .gone then s else s.send f
  -- threading.h:72-75
  | .shutdown => if s.user = .idle then { s with user := .flushing } else s
  -- threading.h:81-83
  | .destroy => if s.user = .idle then { s with user := .interrupting true } else s
  -- dummy.h:132-138
  | .poll => if s.user = .flushing ∧ (s.queue = [] ∨ s.state = .closed) then { s with user := .closing } else s
  -- dummy.h:83
  | .close => if s.user = .closing then { DL.setDriverState s .closed with user := .dropping } else s
  -- dummy.h:84
  | .drop => if s.user = .dropping then { s with bus := false, user := .interrupting false } else s
  -- threading.h:45-46
  | .interrupt =>
    match s.user with
    | .interrupting d => { s with interrupted := s.thread ≠ .none, user := .joining d }
    | _ => s
  -- threading.h:47-48; in the destructor dummy.h:89
  | .join =>
    match s.user with
    | .joining d =>
      if s.thread = .none ∨ s.thread = .ended then
        if d then { DL.setDriverState { s with thread := .none } .closed with bus := false, user := .gone, results := s.results ++ [.destroyed] }
        else { s with thread := .none, user := .idle, results := s.results ++ [.shutdown] }
      else s
    | _ => s
  -- dummy.h:75-80 called by the sender
  | .arrive f => if s.bus then s.enqueue f else s
  -- dummy.h:145-150
  | .begin => if s.thread = .created then s.top else s
  -- dummy.h:152-166
  | .wake => if s.thread = .waiting then s.wake else s
  -- the wait of dummy.h:152 ends with `thread_interrupted`, which ends the thread
  | .interrupted => if s.thread = .waiting ∧ s.interrupted then { s with thread := .ended } else s

/-- a history (socketcan_interface/include/socketcan_interface/dummy.h:67-184, threading.h:41-83) -/
def DL.run (s : DL) : List Ev → DL
  | [] => s
  | e :: es => (s.step e).run es

/-! ## The table of buses -/

/-- `get_buses` (socketcan_interface/include/socketcan_interface/dummy.h:23-26), the `DummyBus` objects that exist (number and name), the dispatcher each interface holds, and the number of dispatchers made so far -/
structure Table where
  buses : List (Text × Nat)
  objects : List (Nat × Text)
  links : List (Nat × Nat)
  made : Nat

/-- nothing there (socketcan_interface/include/socketcan_interface/dummy.h:24) -/
def Table.empty : Table := { buses := [], objects := [], links := [], made := 0 }

/-- `find` in the table (socketcan_interface/include/socketcan_interface/dummy.h:49) -/
def Table.find (t : Table) (name : Text) : Option Nat := t.buses.lookup name

/-- socketcan_interface/include/socketcan_interface/dummy.h:30-31 `DummyBus`: `emplace` does nothing if the name is there -/
def Table.create (t : Table) (k : Nat) (name : Text) : Table :=
  match t.find name with
  | some _ => { t with objects := t.objects ++ [(k, name)] }
  | none => { t with buses := t.buses ++ [(name, t.made)], objects := t.objects ++ [(k, name)], made := t.made + 1 }

/-- socketcan_interface/include/socketcan_interface/dummy.h:32-34 `~DummyBus` -/
def Table.destroy (t : Table) (k : Nat) : Table :=
  match t.objects.lookup k with
  | some name => { t with buses := t.buses.filter (fun b => b.1 ≠ name), objects := t.objects.filter (fun o => o.1 ≠ k) }
  | none => t

/-- socketcan_interface/include/socketcan_interface/dummy.h:48-51, 172 `connect` of interface `i`: the new link, or an exception and nothing changes -/
def Table.connect (t : Table) (i : Nat) (name : Text) : Table × Bool :=
  match t.find name with
  | some d => ({ t with links := t.links.filter (fun l => l.1 ≠ i) ++ [(i, d)] }, true)
  | none => (t, false)

/-- what is done with the table (socketcan_interface/include/socketcan_interface/dummy.h:30-51) -/
inductive Op where
  | create (k : Nat) (name : Text)
  | destroy (k : Nat)
  | connect (i : Nat) (name : Text)
  | disconnect (i : Nat)

/-- one operation (socketcan_interface/include/socketcan_interface/dummy.h:30-51, 84) -/
def Table.op (t : Table) : Op → Table
  | .create k n => if (t.objects.lookup k).isSome then t else t.create k n
  | .destroy k => t.destroy k
  | .connect i n => (t.connect i n).1
  | .disconnect i => { t with links := t.links.filter (fun l => l.1 ≠ i) }

/-- operations (socketcan_interface/include/socketcan_interface/dummy.h:30-51) -/
def Table.ops (t : Table) : List Op → Table
  | [] => t
  | o :: os => (t.op o).ops os

end Verif.DumL
