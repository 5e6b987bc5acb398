import Verif.Spec.Driver
import Verif.Model.Threaded

/-!
# The driver and its threads: what the theorems about it say
-/

namespace Verif.Spec.Thr
open Verif Verif.Drv Verif.Thr

/-- nothing is left of earlier sessions: no thread, no read, no handler, no frame to deliver -/
structure Quiet (s : TD) : Prop where
  user : s.user = .idle
  thread : s.thread = .none
  posts : s.posts = []
  reads : s.reads = 0
  handlers : s.handlers = []
  strand : s.strand = []
  owner : s.owner = none
  active : s.active = none
  closed : s.d.state.driver = .closed

/-- a call of `init` -/
def isInit : Ev → Bool
  | .init .. => true
  | _ => false

/-- a call of `recover` -/
def isRecover : Ev → Bool
  | .recover => true
  | _ => false

/-- a step the threads and waiting calls make by themselves: no call of the user, no time-out, nothing from the bus -/
def ownStep : Ev → Bool
  | .init .. | .recover | .shutdown | .send .. | .arrive _ | .fail _ | .waited _ => false
  | _ => true

/-- an event without a fault: reads do not fail, writes do not fail, error frames are not fatal, and the driver is not shut down -/
def faultless (fatal : BitVec 32) : Ev → Prop
  | .fail _ | .shutdown | .recover => False
  | .arrive k => ¬ (k.canId &&& CAN_ERR_FLAG ≠ 0#32 ∧ k.canId &&& fatal ≠ 0#32)
  | .send _ ec => ec = 0
  | _ => True

end Verif.Spec.Thr
