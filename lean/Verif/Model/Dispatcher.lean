import Verif.Model.Frame

/-!
# Dispatchers
socketcan_interface/include/socketcan_interface/dispatcher.h

Every public operation runs under one mutex, so it is one atomic step.  A listener is its address (`ι`); the
callback is represented by recording the call.  Creating or destroying listeners from inside a callback dead-locks in the
code (the mutex is not recursive) and is not modelled.
-/

namespace Verif.Disp

/-- socketcan_interface/include/socketcan_interface/dispatcher.h:22-63 `DispatcherBase` (member `listeners_`). -/
structure Base (ι : Type) where
  listeners : List ι
  deriving DecidableEq, Repr

variable {ι : Type} [DecidableEq ι]

/-- socketcan_interface/include/socketcan_interface/dispatcher.h:42-48 `dispatch_nolock(obj, loopback)`: the listeners
called, in order (`loopback = none` is the null pointer). -/
def Base.dispatchNolock (b : Base ι) (loopback : Option ι) : List ι :=
  b.listeners.filter (fun l => decide (loopback ≠ some l))

/-- socketcan_interface/include/socketcan_interface/dispatcher.h:49-52 `remove` -/
def Base.remove (b : Base ι) (l : ι) : Base ι := { listeners := b.listeners.filter (· ≠ l) }

omit [DecidableEq ι] in
/-- socketcan_interface/include/socketcan_interface/dispatcher.h:53-56 `numListeners` -/
def Base.numListeners (b : Base ι) : Nat := b.listeners.length

omit [DecidableEq ι] in
/-- socketcan_interface/include/socketcan_interface/dispatcher.h:58-62 `createListener`; `l` is the address of the
new object. -/
def Base.createListener (b : Base ι) (l : ι) : Base ι := { listeners := b.listeners ++ [l] }

/-- socketcan_interface/include/socketcan_interface/dispatcher.h:86-117 `FilteredDispatcher` (member `filtered_`,
`none` for a missing entry) on top of `SimpleDispatcher` (14-84, member `dispatcher_`). -/
structure Filtered (K ι : Type) where
  dispatcher : Base ι
  filtered : K → Option (Base ι)

variable {K : Type} [DecidableEq K]

/-- socketcan_interface/include/socketcan_interface/dispatcher.h:67 constructor -/
def Filtered.empty : Filtered K ι := { dispatcher := ⟨[]⟩, filtered := fun _ => none }

omit [DecidableEq ι] [DecidableEq K] in
/-- socketcan_interface/include/socketcan_interface/dispatcher.h:68-71 `createListener(callable)` -/
def Filtered.createListener (d : Filtered K ι) (l : ι) : Filtered K ι :=
  { d with dispatcher := d.dispatcher.createListener l }

omit [DecidableEq ι] in
/-- socketcan_interface/include/socketcan_interface/dispatcher.h:91-96 `createListener(key, callable)` -/
def Filtered.createKeyed (d : Filtered K ι) (key : K) (l : ι) : Filtered K ι :=
  let ptr := (d.filtered key).getD ⟨[]⟩
  { d with filtered := fun k => if k = key then some (ptr.createListener l) else d.filtered k }

/-- socketcan_interface/include/socketcan_interface/dispatcher.h:30-35 destructor of `GuardedListener`; `guard` is the
dispatcher the listener was created with: `none` the general one, `some key` the one of that key. -/
def Filtered.destroy (d : Filtered K ι) (guard : Option K) (l : ι) : Filtered K ι :=
  match guard with
  | none => { d with dispatcher := d.dispatcher.remove l }
  | some key => { d with filtered := fun k => if k = key then (d.filtered k).map (·.remove l) else d.filtered k }

omit [DecidableEq K] in
/-- socketcan_interface/include/socketcan_interface/dispatcher.h:104-109 `dispatch(key, obj)`: listeners called in order -/
def Filtered.dispatch (d : Filtered K ι) (key : K) : List ι :=
  (match d.filtered key with
   | some ptr => ptr.dispatchNolock none
   | none => [])
  ++ d.dispatcher.dispatchNolock none

omit [DecidableEq K] in
/-- socketcan_interface/include/socketcan_interface/dispatcher.h:76-79 `dispatch_filtered(obj, without)` of the base class -/
def Filtered.dispatchFiltered (d : Filtered K ι) (without : Option ι) : List ι :=
  d.dispatcher.dispatchNolock without

/-- One public operation on a dispatcher (socketcan_interface/include/socketcan_interface/dispatcher.h:68-109). -/
inductive Op (K ι : Type) where
  | create (guard : Option K) (l : ι)
  | destroy (guard : Option K) (l : ι)
  | dispatch (key : K)

/-- effect of one operation on the dispatcher
(socketcan_interface/include/socketcan_interface/dispatcher.h:30-35, 68-71, 91-96, 104-109) -/
def Filtered.step (d : Filtered K ι) : Op K ι → Filtered K ι
  | .create none l => d.createListener l
  | .create (some k) l => d.createKeyed k l
  | .destroy g l => d.destroy g l
  | .dispatch _ => d

/-- a whole history, starting with the empty dispatcher
(socketcan_interface/include/socketcan_interface/dispatcher.h:67) -/
def Filtered.run (ops : List (Op K ι)) : Filtered K ι := ops.foldl Filtered.step Filtered.empty

end Verif.Disp
