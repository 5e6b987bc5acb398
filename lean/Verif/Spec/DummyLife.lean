import Verif.Model.DummyLife

/-!
# The virtual driver and the table of virtual buses: notions used to state C116 and C117
-/

namespace Verif.Spec.DumL
open Verif Verif.DumL
open Verif.Drv (DriverState)

/-- a call of `init` -/
def IsInit : Ev → Prop
  | .init _ _ => True
  | _ => False

/-- a frame is put into the queue -/
def Feeds : Ev → Prop
  | .arrive _ => True
  | .send _ => True
  | _ => False

/-- everybody does something, in whatever order: the thread starts, wakes up, and notices an interruption; the user's call goes on -/
structure Round (es : List Ev) : Prop where
  begin : Ev.begin ∈ es
  wake : Ev.wake ∈ es
  interrupted : Ev.interrupted ∈ es
  poll : Ev.poll ∈ es
  close : Ev.close ∈ es
  drop : Ev.drop ∈ es
  interrupt : Ev.interrupt ∈ es
  join : Ev.join ∈ es

/-! ## Buses and their names -/

/-- names in use, how often the bus of a name was taken down, the bus objects, and where each interface is connected: to the bus of a name that was there after so many times -/
structure Names where
  known : Text → Bool
  times : Text → Nat
  objects : Nat → Option Text
  link : Nat → Option (Text × Nat)

/-- nothing there -/
def Names.empty : Names := { known := fun _ => false, times := fun _ => 0, objects := fun _ => none, link := fun _ => none }

/-- one operation: a bus object makes its name known; the end of a bus object takes the bus with its name down; an interface gets to the bus known by the name -/
def Names.op (s : Names) : Op → Names
  | .create k n => if s.objects k = none then { s with known := fun m => if m = n then true else s.known m, objects := fun j => if j = k then some n else s.objects j } else s
  | .destroy k =>
    match s.objects k with
    | some n => { s with known := fun m => if m = n then false else s.known m, times := fun m => if m = n then s.times n + 1 else s.times m,
                         objects := fun j => if j = k then none else s.objects j }
    | none => s
  | .connect i n => if s.known n then { s with link := fun j => if j = i then some (n, s.times n) else s.link j } else s
  | .disconnect i => { s with link := fun j => if j = i then none else s.link j }

/-- operations -/
def Names.ops (s : Names) : List Op → Names
  | [] => s
  | o :: os => (s.op o).ops os

/-- no bus object is made while there is another one with the same name -/
def NoTwins (s : Names) : List Op → Prop
  | [] => True
  | o :: os => (match o with | .create k n => ∀ j, s.objects j = some n → j = k | _ => True) ∧ NoTwins (s.op o) os

end Verif.Spec.DumL
