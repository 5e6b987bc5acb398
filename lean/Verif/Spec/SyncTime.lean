import Verif.Model.SyncTime

/-! # What users expect of the timing of SYNC -/

namespace Verif.Spec.SyT
open Verif Verif.Lay Verif.SyT

/-- the period of SYNC, in microseconds (it is given in milliseconds) -/
def period (p : Sync.Props) : Nat := p.period.toNat * 1000
/-- half the period, in whole milliseconds, in microseconds -/
def halfPeriod (p : Sync.Props) : Nat := p.period.toNat / 2 * 1000
/-- the layer has been initialised and has not been switched off -/
def Running (st : LayerState) : Prop := st ≠ .off ∧ st ≠ .init

instance (st : LayerState) : Decidable (Running st) := by unfold Running; infer_instance

/-- the number of read phases past the initialisation -/
def readPhases : List Ev → Nat
  | [] => 0
  | .read st _ _ :: es => (if Running st then 1 else 0) + readPhases es
  | _ :: es => readPhases es

/-- whether node `n` takes part after an event -/
def attachStep (n : Nat) (b : Prop) : Ev → Prop
  | .add m => n = m ∨ b
  | .remove m => n ≠ m ∧ b
  | _ => b

/-- node `n` takes part: it was added and not removed since -/
def Attached (n : Nat) (es : List Ev) : Prop := es.foldl (attachStep n) False

/-- no (further) initialisation -/
def NoInit (es : List Ev) : Prop := ∀ g, Ev.init g ∉ es

/-- between two write phases (past the initialisation) there is a read phase; `b`: there was one already -/
def Alternates : Bool → List Ev → Prop
  | _, [] => True
  | b, .read st _ _ :: es => Alternates (b || decide (Running st)) es
  | b, .write st _ _ :: es => if Running st then b = true ∧ Alternates false es else Alternates b es
  | b, _ :: es => Alternates b es

/-- one cycle of the control loop: read phase, write phase; nodes come and go in between -/
structure Cycle where
  st : LayerState
  rgap : Nat
  rlate : Nat
  nodes : List (Bool × Nat)
  wgap : Nat
  wlate : Nat

def nodeEv (x : Bool × Nat) : Ev := if x.1 then .add x.2 else .remove x.2

def Cycle.events (c : Cycle) : List Ev := .read c.st c.rgap c.rlate :: (c.nodes.map nodeEv ++ [.write c.st c.wgap c.wlate])

/-- the loop is fast enough: sleeps end at most `L` late, the read phase is entered within the first half of the period, and what remains suffices -/
def Cycle.Fast (p : Sync.Props) (L : Nat) (c : Cycle) : Prop :=
  Running c.st ∧ c.wlate ≤ L ∧ c.rgap ≤ halfPeriod p ∧ c.rlate + c.wgap + halfPeriod p + L ≤ period p

/-- a frame is the SYNC waited for -/
def IsSyncFrame (p : Sync.Props) (x : Nat × Frame) : Prop := x.2.toHeader.key = p.header.key

/-- frames arrive in order, after `now` -/
def Ordered (now : Nat) (bus : List (Nat × Frame)) : Prop := bus.Pairwise (fun a b => a.1 ≤ b.1) ∧ ∀ x ∈ bus, now < x.1

end Verif.Spec.SyT
