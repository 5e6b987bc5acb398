import Verif.Model.HandleCycle

/-!
# What a user expects of the commands of a joint (C92)
-/

namespace Verif.Cyc
open Verif.Lay Verif.Rob
open Verif.M402 (Dbl)

/-- The event leaves limits enabled and the controller manager running; whatever the limits handles make of a command of
handle `k` satisfies `A k`. -/
def LimitsHold (A : Kind → Dbl → Prop) : Ev → Prop
  | .limits b => b = true
  | .enforce f => ∀ k x, A k (f k x)
  | .cmShutdown => False
  | .cmLayer l => LayerState.shutdown.toNat < l.toNat
  | _ => True

/-- The event does not complete a write cycle of the joint and does not begin another one. -/
def WithinCycle : Ev → Prop
  | .act => False
  | .begin => False
  | _ => True

/-- The event neither gives nor limits a command of handle `k` and does not complete a write cycle of the joint. -/
def LeavesCommand (k : Kind) : Ev → Prop
  | .act => False
  | .enforce _ => False
  | .set k' _ => k' ≠ k
  | _ => True

/-- The event does not make the handle layer ready. -/
def NotReady : Ev → Prop
  | .layer l => l ≠ .ready
  | _ => True

/-- The event neither starts an update of the controllers nor ends the controller manager. -/
def NoUpdate : Ev → Prop
  | .begin => False
  | .cmShutdown => False
  | _ => True

/-- What the measured values are after a history: those of the latest initialisation, or of the latest read cycle if the layer was in operation, halted or in error at that time. -/
def lastMeasured (st : LayerState) (m : Kind → Dbl) : List Ev → Kind → Dbl
  | [] => m
  | .read m' :: es => if st = .error ∨ st = .halt ∨ st = .recover ∨ st = .ready then lastMeasured st m' es else lastMeasured st m es
  | .init m' :: es => lastMeasured st m' es
  | .layer l :: es => lastMeasured l m es
  | _ :: es => lastMeasured st m es

/-- a joint in normal operation, in position mode (mode 1), between two cycles -/
def working (pos cmd : Dbl) : St :=
  { hs := { h := { commands := [(0, none), (1, some .pos), (3, some .vel)], jh := some .pos, forward := true, limits := true,
                   mode := 1, state := .ready, supports := fun m => m = 1 || m = 3 }, pending := none },
    st := .ready, meas := fun _ => pos, cmd := fun _ => cmd, cmSt := .ready, cm := true, recover := false, pc := .top }

end Verif.Cyc
