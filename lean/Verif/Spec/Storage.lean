import Verif.Model.Basic

/-!
# What a user of one object expects
A device that holds a value, and the last value the user has seen of it.  Nothing from the model is used.
-/

namespace Verif.Spec
open Verif

/-- access rights of an object -/
structure ObjRights where
  readable : Bool
  writable : Bool
  constant : Bool

/-- the device's value, and the last value read or written (or the default from the file) -/
structure ObjState where
  dev : List Byte
  cache : Option (List Byte)
  deriving DecidableEq

/-- what happens: the user's four calls, or the device's value changes by itself -/
inductive ObjEvent where
  | get
  | getCached
  | set (v : List Byte)
  | setCached (v : List Byte)
  | deviceChanges (v : List Byte)

/-- what the user is told -/
inductive ObjAnswer where
  | value (v : List Byte)
  | done
  | denied
  | notCached
  | nothing
  deriving DecidableEq

/-- traffic with the device -/
inductive ObjTraffic where
  | read
  | write (v : List Byte)
  deriving DecidableEq

/-- read the device -/
def ObjState.fetch (s : ObjState) : ObjState × ObjAnswer × List ObjTraffic := ({ s with cache := some s.dev }, .value s.dev, [.read])

/-- write the device -/
def ObjState.send (_ : ObjState) (v : List Byte) : ObjState × ObjAnswer × List ObjTraffic := (⟨v, some v⟩, .done, [.write v])

/-- one event -/
def ObjState.step (r : ObjRights) (s : ObjState) : ObjEvent → ObjState × ObjAnswer × List ObjTraffic
  | .get => if !r.readable then (s, .denied, [])
      else match r.constant, s.cache with
        | true, some v => (s, .value v, [])
        | _, _ => s.fetch
  | .getCached => if !r.readable then (s, .denied, [])
      else match s.cache with
        | some v => (s, .value v, [])
        | none => s.fetch
  | .set v => if r.writable then s.send v
      else match s.cache with
        | some c => (s, if c = v then .done else .denied, [])
        | none => (s, .notCached, [])
  | .setCached v => if s.cache = some v then (s, .done, [])
      else if r.writable then s.send v
      else (s, .denied, [])
  | .deviceChanges v => ({ s with dev := v }, .nothing, [])

/-- a history -/
def ObjState.run (r : ObjRights) : ObjState → List ObjEvent → ObjState × List ObjAnswer × List ObjTraffic
  | s, [] => (s, [], [])
  | s, e :: es =>
    let x := s.step r e
    let y := ObjState.run r x.1 es
    (y.1, x.2.1 :: y.2.1, x.2.2 ++ y.2.2)

/-- the documented access codes -/
def accessTable : List (String × ObjRights) :=
  [("ro", ⟨true, false, false⟩), ("wo", ⟨false, true, false⟩), ("rw", ⟨true, true, false⟩), ("rwr", ⟨true, true, false⟩),
   ("rww", ⟨true, true, false⟩), ("const", ⟨true, false, true⟩)]

/-- Does init have to write the configured value?  `dflt` is the default the device starts with (if known), `cache` what is
known of the present value. -/
def MustInit (writable : Bool) (init : List Byte) (dflt cache : Option (List Byte)) : Prop :=
  writable = true ∧ (match dflt with
    | some d => init ≠ d ∧ (cache = none ∨ cache = some d)
    | none => cache ≠ some init)

instance (w : Bool) (i : List Byte) (d c : Option (List Byte)) : Decidable (MustInit w i d c) := by
  unfold MustInit; cases d <;> infer_instance

end Verif.Spec
