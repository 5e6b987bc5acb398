import Verif.Model.CanLayer

/-!
# Specification vocabulary for the CAN layer
-/

namespace Verif.Spec
open Verif Verif.Drv Verif.Lay Verif.CanL

/-- `P` holds at every step of the schedule -/
def Along (P : Sys → Ev → Prop) : Sys → List Ev → Prop
  | _, [] => True
  | s, e :: es => P s e ∧ Along P (s.step e) es

/-- this step is not an initialisation that gives up after one second -/
def NoInitTimeout (s : Sys) (e : Ev) : Prop :=
  ∀ c, e = .caller c → s.pc = .wait → c.late = true → s.view = .ready

/-- if this step closes the socket, no thread that records an error has already found the socket open -/
def QuietClose (s : Sys) (e : Ev) : Prop :=
  ∀ c, e = .caller c → s.pc = .close → Upd.store true ∉ s.upds

/-- the steps of the calling thread and of the thread in `run` -/
def isCaller : Ev → Bool
  | .caller _ => true
  | _ => false
def isWorker : Ev → Bool
  | .worker _ => true
  | _ => false

/-- only these two threads make steps, the system calls of `init` succeed, nothing is late -/
def Undisturbed : Ev → Prop
  | .caller c => c.sys = .ok ∧ c.late = false
  | .worker _ => True
  | _ => False

/-- steps of all threads but the calling one -/
def Others : Ev → Prop
  | .caller _ | .call _ => False
  | _ => True

/-- a report that makes the handler fail -/
def IsError : Report → Bool
  | .error _ => true
  | _ => false

/-- nothing runs and nothing is left over -/
def Down (s : Sys) : Prop :=
  s.pc = .idle ∧ s.again = false ∧ s.thread = false ∧ s.worker = .none ∧ s.st.driver = .closed ∧ s.upds = [] ∧ s.aborted = 0 ∧ s.checked = 0

end Verif.Spec

namespace Verif.Spec
open Verif Verif.CanL

/-- In the schedule `pre ++ .call c :: mid` of a new object the call `c` begins after `pre` (no other call is running) and returns with the
last step of `mid`. -/
def Completed (layer : Bool) (c : Call) (pre mid : List Ev) : Prop :=
  ((Sys.fresh layer).run pre).pc = .idle ∧
  ((Sys.fresh layer).run (pre ++ .call c :: mid)).pc = .idle ∧
  ∀ k, k < mid.length → ((Sys.fresh layer).run (pre ++ .call c :: mid.take k)).pc ≠ .idle

/-- the driver is ready, its socket is open, and exactly one thread executes its event loop -/
def Running (s : Sys) : Prop :=
  s.st.driver = .ready ∧ s.sock = true ∧ s.thread = true ∧ s.double = false ∧ s.stopped = false ∧ (s.worker = .trigger ∨ s.worker = .loop)

/-- number of steps of the calling thread that lead to another place in the code -/
def moves : Sys → List Ev → Nat
  | _, [] => 0
  | s, e :: es => (if isCaller e ∧ (s.step e).pc ≠ s.pc then 1 else 0) + moves (s.step e) es

end Verif.Spec
