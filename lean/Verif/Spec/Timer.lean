import Verif.Model.Timer

namespace Verif.Spec
open Verif Verif.Tim

/-- the timer is left alone: time passes, waits end, handlers run -/
def LeftAlone : Tim.Ev → Bool
  | .pass _ | .expire | .handle _ => true
  | _ => false

/-- and the delegate always asks to be called again -/
def Steady : Tim.Ev → Bool
  | .pass _ | .expire | .handle true => true
  | _ => false

/-- neither pending nor queued -/
def Silent (t : Timer) : Prop := t.waiting = false ∧ t.queued = 0

/-- the event loop has nothing to do at the moment -/
def Settled' (t : Timer) : Prop := t.queued = 0 ∧ (t.waiting = true → t.now < t.expiry)

/-- the events that arm the timer from outside -/
def Starts : Tim.Ev → Bool
  | .restart => true
  | .start _ now => now
  | _ => false

end Verif.Spec
