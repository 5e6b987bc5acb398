import Verif.Model.Reader

/-!
# Abstract reader: a log of accepted frames and a read position
-/

namespace Verif.Spec
open Verif.Rd

variable {α : Type}

/-- All frames accepted so far, the number of them that are gone (delivered or discarded), the switch and the capacity
(0 = unlimited). -/
structure AbsReader (α : Type) where
  log : List α
  gone : Nat
  enabled : Bool
  cap : Nat

/-- with capacity `cap > 0` at least all but the newest `cap` frames are gone -/
def AbsReader.limit (a : AbsReader α) : AbsReader α :=
  if a.cap = 0 then a else { a with gone := max a.gone (a.log.length - a.cap) }

def AbsReader.step (a : AbsReader α) : Op α → AbsReader α × Option α
  | .arrive f => if a.enabled then (({ a with log := a.log ++ [f] } : AbsReader α).limit, none) else (a, none)
  | .flush => ({ a with gone := a.log.length }, none)
  | .listen => ({ a with gone := a.log.length }, none)
  | .setMaxLen n => (({ a with cap := n } : AbsReader α).limit, none)
  | .setEnabled e => ({ a with enabled := e }, none)
  | .read => match a.log[a.gone]? with
    | some f => ({ a with gone := a.gone + 1 }, some f)
    | none => (a, none)
  | .peek => (a, none)

def AbsReader.run (a : AbsReader α) : List (Op α) → AbsReader α × List α
  | [] => (a, [])
  | op :: ops =>
    let s := a.step op
    let t := s.1.run ops
    (t.1, s.2.toList ++ t.2)

/-- frames arriving in a history while the reader is enabled -/
def acceptedOf : Bool → List (Op α) → List α
  | _, [] => []
  | e, .arrive f :: ops => if e then f :: acceptedOf e ops else acceptedOf e ops
  | _, .setEnabled e :: ops => acceptedOf e ops
  | e, _ :: ops => acceptedOf e ops

end Verif.Spec
