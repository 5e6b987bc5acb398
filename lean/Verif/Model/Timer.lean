import Verif.Model.Driver

/-!
# Timer and heartbeat producer
canopen_master/include/canopen_master/timer.h, `HeartbeatSender` of canopen_chain_node/include/canopen_chain_node/ros_chain.h

The functions of the timer and its handler exclude each other by a mutex: they are atomic steps.  The thread of the event loop executes
handlers one at a time, at any time after they became due.  Time is a number that only grows.

Library behaviour (boost::asio waitable timer), part of the trusted base: setting the expiry or `cancel` removes a pending wait (its handler
then gets an error code and does nothing), but not a handler that is already queued because its time has come.
-/

namespace Verif.Tim
open Verif

/-- Timer object with its event loop (canopen_master/include/canopen_master/timer.h:50-58).  `calls` records the calls of the delegate:
time and result (bookkeeping). -/
structure Timer where
  now : Int
  period : Int
  /-- `timer.expires_at()` -/
  expiry : Int
  /-- a wait is pending -/
  waiting : Bool
  /-- handlers in the queue of the event loop -/
  queued : Nat
  /-- `delegate` is set -/
  delegate : Bool
  calls : List (Int × Bool)
  deriving DecidableEq, Repr

/-- canopen_master/include/canopen_master/timer.h:20-23; `junk` is the uninitialised period -/
def Timer.fresh (now junk : Int) : Timer :=
  { now := now, period := junk, expiry := 0, waiting := false, queued := 0, delegate := false, calls := [] }

/-- `expires_from_now(period)`, `async_wait` (canopen_master/include/canopen_master/timer.h:34-35,40-41) -/
def Timer.arm (t : Timer) : Timer := { t with expiry := t.now + t.period, waiting := true }

/-- canopen_master/include/canopen_master/timer.h:29-37 `start`; the period is the duration converted to clock ticks (simplification:
the conversion is not modelled) -/
def Timer.start (t : Timer) (period : Int) (startNow : Bool) : Timer :=
  let t := { t with delegate := true, period := period }
  if startNow then t.arm else t

/-- canopen_master/include/canopen_master/timer.h:38-42 `restart` -/
def Timer.restart (t : Timer) : Timer := t.arm

/-- canopen_master/include/canopen_master/timer.h:25-28 `stop` -/
def Timer.stop (t : Timer) : Timer := { t with waiting := false }

/-- the wait is over (boost::asio), canopen_master/include/canopen_master/timer.h:35,41,64 -/
def Timer.expire (t : Timer) : Timer :=
  if t.waiting ∧ t.expiry ≤ t.now then { t with waiting := false, queued := t.queued + 1 } else t

/-- canopen_master/include/canopen_master/timer.h:59-68 `handler` without error code; `res` is the result of the delegate -/
def Timer.handle (t : Timer) (res : Bool) : Timer :=
  if t.queued = 0 then t
  else
    let t := { t with queued := t.queued - 1 }
    if t.delegate then
      let t := { t with calls := t.calls ++ [(t.now, res)] }
      if res then { t with expiry := t.expiry + t.period, waiting := true } else t
    else t

/-- steps (canopen_master/include/canopen_master/timer.h:25-68) -/
inductive Ev where
  | pass (d : Nat)
  | start (period : Int) (startNow : Bool)
  | restart
  | stop
  | expire
  | handle (res : Bool)
  deriving DecidableEq, Repr

/-- one step (canopen_master/include/canopen_master/timer.h:25-68) -/
def Timer.step (t : Timer) : Ev → Timer
  | .pass d => { t with now := t.now + d }
  | .start p s => t.start p s
  | .restart => t.restart
  | .stop => t.stop
  | .expire => t.expire
  | .handle r => t.handle r

/-- a schedule (canopen_master/include/canopen_master/timer.h:25-68) -/
def Timer.run (t : Timer) (evs : List Ev) : Timer := evs.foldl Timer.step t

/-- `HeartbeatSender::send` (canopen_chain_node/include/canopen_chain_node/ros_chain.h:177-179) with an interface: the delegate of the
heartbeat timer; `ec` is the error code of the write -/
def heartbeat (d : Drv.Driver) (f : Frame) (ec : Int) : Outcome Empty (Bool × Drv.Driver) := d.send f ec

end Verif.Tim
