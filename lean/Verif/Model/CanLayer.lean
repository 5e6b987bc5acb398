import Verif.Model.Driver
import Verif.Model.Layer

/-!
# The thread that runs the driver, and the CAN layer of a chain
canopen_master/include/canopen_master/can_layer.h, socketcan_interface/include/socketcan_interface/threading.h, on top of the driver
(socketcan_interface/include/socketcan_interface/{asio_base,socketcan}.h) at the granularity of its locks: every access to the recorded
state, to the socket or to the event loop is one step, and the steps of all threads interleave freely.

Threads: the one that calls the handlers of the layer (or `init`/`shutdown` of a `ThreadedInterface`), the one that executes `run`, any number
of threads that call `send` or execute completion handlers of the event loop.

Simplifications: `interrupt` has no effect (`run` contains no interruption point); state listeners return; frames are only represented by
their effect on the recorded state; system calls return (their results are arguments of the steps).
-/

namespace Verif.CanL
open Verif Verif.Drv Verif.Lay

/-- the rest of "record an error, then `setNotReady`" in `enqueue`, `readFrame` or `frameReceived`
(socketcan_interface/include/socketcan_interface/socketcan.h:226-231,247-251, asio_base.h:70-72,78-81) -/
inductive Upd where
  /-- `setErrorCode(e)` comes next -/
  | err (e : Int)
  /-- `setInternalError(e)` comes next -/
  | int (e : BitVec 32)
  /-- the evaluation of `socket_.is_open()` comes next (asio_base.h:71) -/
  | look
  /-- `setDriverState` with the result of the evaluation comes next (asio_base.h:71) -/
  | store (isOpen : Bool)
  deriving DecidableEq, Repr

/-- where the thread that executes `run` is (socketcan_interface/include/socketcan_interface/asio_base.h:96-114) -/
inductive Wk where
  | none
  | look                  -- 97: `socket_.is_open()`
  | store (isOpen : Bool) -- 97: `setDriverState`
  | test                  -- 99: `getState()`
  | reset                 -- 100
  | ready                 -- 102
  | trigger               -- 106
  | loop                  -- 109
  | err (ec : Int)        -- 110
  | look2                 -- 112: `socket_.is_open()`
  | store2 (isOpen : Bool)-- 112: `setDriverState`
  | final                 -- 114: `getState()`
  | tell (s : State)      -- 114: `dispatch`
  | done
  deriving DecidableEq, Repr

/-- where the thread that calls the handlers is (canopen_master/include/canopen_master/can_layer.h:70-110,
socketcan_interface/include/socketcan_interface/threading.h:22-36,61-73; `init` of the driver: socketcan.h:137-206) -/
inductive Pc where
  | idle
  | recover               -- can_layer.h:106
  | init                  -- can_layer.h:71, threading.h:62
  | drvTest               -- socketcan.h:138-139
  | drvElse               -- socketcan.h:205
  | drvFail (c : Int)     -- socketcan.h:146-198: `setErrorCode` of the failing call
  | drvErr                -- socketcan.h:194
  | drvInt                -- socketcan.h:200
  | drvOpen               -- socketcan.h:201
  | waiter                -- threading.h:23
  | listen                -- threading.h:24
  | spawn                 -- can_layer.h:78, threading.h:64
  | wait                  -- can_layer.h:81, threading.h:65
  | check                 -- can_layer.h:85, threading.h:67
  | sWaiter               -- can_layer.h:90, threading.h:23
  | sListen               -- threading.h:24
  | close                 -- can_layer.h:91-92, asio_base.h:25-28
  | stop                  -- asio_base.h:29
  | sWait                 -- can_layer.h:93
  | join                  -- can_layer.h:96-100, threading.h:45-49
  deriving DecidableEq, Repr

/-- All objects involved (canopen_master/include/canopen_master/can_layer.h:10-23,
socketcan_interface/include/socketcan_interface/{threading.h:9-18,39-40,asio_base.h:17-40}). -/
structure Sys where
  /-- the object that owns the thread is a `CANLayer` (else a `ThreadedInterface`) -/
  layer : Bool
  /-- `state_` -/
  st : State
  /-- `socket_.is_open()` -/
  sock : Bool
  /-- the event loop was told to stop -/
  stopped : Bool
  /-- an asynchronous read is outstanding -/
  reading : Bool
  /-- completion handlers of cancelled reads, or of reads of a closed socket, that are still in the queue of the event loop -/
  aborted : Nat
  /-- `state_.driver_state` of the state waiter, and whether it listens -/
  view : DriverState
  listening : Bool
  /-- `thread_` is set -/
  thread : Bool
  /-- the thread -/
  worker : Wk
  /-- bookkeeping: a second thread was created while one was running -/
  double : Bool
  /-- threads in `send` that found the driver ready and have not yet written -/
  checked : Nat
  /-- threads that are recording an error -/
  upds : List Upd
  pc : Pc
  /-- `handleInit` follows the running `handleShutdown` (can_layer.h:107-108) -/
  again : Bool
  /-- reports to the status of the running or last handler -/
  reports : List Report
  /-- return value of the last `init` of a `ThreadedInterface` -/
  ret : Option Bool

/-- constructors (canopen_master/include/canopen_master/can_layer.h:26-27, socketcan_interface/include/socketcan_interface/threading.h:83,
asio_base.h:84-86) -/
def Sys.fresh (layer : Bool) : Sys :=
  { layer := layer, st := .initial, sock := false, stopped := false, reading := false, aborted := 0, view := .closed, listening := false,
    thread := false, worker := .none, double := false, checked := 0, upds := [], pc := .idle, again := false, reports := [], ret := none }

/-- `dispatch(s)` to the state waiter (socketcan_interface/include/socketcan_interface/threading.h:14-19) -/
def Sys.tell (s : Sys) (x : State) : Sys := if s.listening then { s with view := x.driver } else s

/-- the common part of `setErrorCode`, `setInternalError` and `setDriverState`
(socketcan_interface/include/socketcan_interface/asio_base.h:48-69) -/
def Sys.set (s : Sys) (x : State) : Sys := if s.st ≠ x then ({ s with st := x }).tell x else s

/-- socketcan_interface/include/socketcan_interface/asio_base.h:48-54 `setErrorCode` -/
def Sys.setErr (s : Sys) (e : Int) : Sys := s.set { s.st with errorCode := e }
/-- socketcan_interface/include/socketcan_interface/asio_base.h:55-61 `setInternalError` -/
def Sys.setInt (s : Sys) (e : BitVec 32) : Sys := s.set { s.st with internalError := e }
/-- socketcan_interface/include/socketcan_interface/asio_base.h:63-69 `setDriverState` -/
def Sys.setDrv (s : Sys) (x : DriverState) : Sys := s.set { s.st with driver := x }

/-- the argument of `setDriverState` in `setNotReady` (socketcan_interface/include/socketcan_interface/asio_base.h:71) -/
def notReady (isOpen : Bool) : DriverState := if isOpen then .opened else .closed

/-- next step of a thread that records an error (socketcan_interface/include/socketcan_interface/socketcan.h:226-231,247-251,
asio_base.h:70-72,78-81); `none`: finished -/
def Sys.updStep (s : Sys) : Upd → Sys × Option Upd
  | .err e => (s.setErr e, some .look)
  | .int e => (s.setInt e, some .look)
  | .look => (s, some (.store s.sock))
  | .store o => (s.setDrv (notReady o), none)

/-- next step of the thread in `run` (socketcan_interface/include/socketcan_interface/asio_base.h:96-114); the event loop returns only
after `stop` (a work object keeps it alive), with error code `ec` -/
def Sys.workerStep (s : Sys) (ec : Int) : Sys :=
  match s.worker with
  | .none => s
  | .look => { s with worker := .store s.sock }
  | .store o => { s.setDrv (notReady o) with worker := .test }
  | .test => { s with worker := if s.st.driver = .opened then .reset else .final }
  | .reset => { s with stopped := false, worker := .ready }
  | .ready => { s.setDrv .ready with worker := .trigger }
  | .trigger =>
    if s.sock then { s with reading := true, worker := .loop }
    else { s with aborted := s.aborted + 1, worker := .loop }
  | .loop => if s.stopped then { s with worker := .err ec } else s
  | .err e => { s.setErr e with worker := .look2 }
  | .look2 => { s with worker := .store2 s.sock }
  | .store2 o => { s.setDrv (notReady o) with worker := .final }
  | .final => { s with worker := .tell s.st }
  | .tell x => { s.tell x with worker := .done }
  | .done => s

/-- choices of the environment for a step of the calling thread: result of the system calls of `init`
(socketcan_interface/include/socketcan_interface/socketcan.h:144-198), expiry of the second given to `wait` (threading.h:27-35) -/
structure Choice where
  sys : SysInit
  late : Bool

/-- the running handler is finished; `handleRecover` continues with `handleInit` after its `handleShutdown`
(canopen_master/include/canopen_master/can_layer.h:105-109) -/
def Sys.leave (s : Sys) : Sys :=
  if s.again then { s with pc := .init, again := false, listening := false } else { s with pc := .idle, listening := false }

/-- next step of the calling thread (canopen_master/include/canopen_master/can_layer.h:70-110,
socketcan_interface/include/socketcan_interface/threading.h:22-36,44-50,61-73, socketcan.h:137-206, asio_base.h:24-30) -/
def Sys.callerStep (s : Sys) (c : Choice) : Sys :=
  match s.pc with
  | .idle => s
  | .recover => if s.st.driver = .ready then s.leave else { s with pc := .sWaiter, again := true }
  | .init =>
    if s.thread then
      (if s.layer then { s with reports := s.reports ++ [.warn "CAN thread already running".toList], pc := .check }
       else { s with pc := .check })
    else { s with pc := .drvTest }
  | .drvTest =>
    if s.st.driver = .closed then
      match c.sys with
      | .fail e => { s with pc := .drvFail e }
      | .ok => { s with sock := true, pc := .drvErr }
    else { s with pc := .drvElse }
  | .drvElse =>
    if s.st.driver = .ready then { s with pc := .waiter }
    else if s.layer then { s with reports := s.reports ++ [.error "CAN init failed".toList], pc := .check }
    else { s with pc := .check }
  | .drvFail e =>
    if s.layer then { s.setErr e with reports := s.reports ++ [.error "CAN init failed".toList], pc := .check }
    else { s.setErr e with pc := .check }
  | .drvErr => { s.setErr 0 with pc := .drvInt }
  | .drvInt => { s.setInt 0 with pc := .drvOpen }
  | .drvOpen => { s.setDrv .opened with pc := .waiter }
  | .waiter => { s with view := s.st.driver, pc := .listen }
  | .listen => { s with listening := true, pc := .spawn }
  | .spawn =>
    { s with double := s.double || !(s.worker = .none || s.worker = .done), worker := .look, thread := true, pc := .wait }
  | .wait =>
    if s.view = .ready then
      (if s.layer then { s with pc := .check, listening := false } else Sys.leave { s with ret := some true })
    else if c.late then
      (if s.layer then { s with reports := s.reports ++ [.error "CAN init timed out".toList], pc := .check, listening := false }
       else Sys.leave { s with ret := some false })
    else s
  | .check =>
    if s.layer then
      (if s.st.driver = .ready then s.leave else Sys.leave { s with reports := s.reports ++ [.error "CAN is not ready".toList] })
    else Sys.leave { s with ret := some (decide (s.st.driver = .ready)) }
  | .sWaiter => { s with view := s.st.driver, pc := .sListen }
  | .sListen => { s with listening := true, pc := .close }
  | .close =>
    { s with sock := false, aborted := s.aborted + (if s.reading then 1 else 0), reading := false, pc := .stop }
  | .stop => { s with stopped := true, pc := if s.layer then .sWait else .join }
  | .sWait =>
    if s.view = .closed then { s with pc := .join }
    else if c.late then
      { s with reports := s.reports ++ [.warn "CAN shutdown timed out".toList], pc := .join }
    else s
  | .join =>
    if s.thread then (if s.worker = .done then Sys.leave { s with worker := .none, thread := false } else s)
    else s.leave

/-- the functions of the owner of the thread (canopen_master/include/canopen_master/can_layer.h:70-110,
socketcan_interface/include/socketcan_interface/threading.h:61-73) -/
inductive Call where
  | init | shutdown | recover
  deriving DecidableEq, Repr

/-- Start of a call, possible if none is running (calls on one object are serialised by the user).  A `ThreadedInterface` has no `recover`
of its own and needs no waiter in `shutdown` (socketcan_interface/include/socketcan_interface/threading.h:70-73). -/
def Sys.begin (s : Sys) (c : Call) : Sys :=
  if s.pc ≠ .idle then s else
  match c with
  | .init => { s with pc := .init, reports := [], ret := none }
  | .shutdown => { s with pc := if s.layer then .sWaiter else .close, reports := [], ret := none }
  | .recover => if s.layer then { s with pc := .recover, reports := [], ret := none } else s

/-- Steps of all threads (socketcan_interface/include/socketcan_interface/asio_base.h:48-121, socketcan.h:136-261, threading.h:9-88,
canopen_master/include/canopen_master/can_layer.h:70-110). -/
inductive Ev where
  | call (c : Call)
  | caller (c : Choice)
  | worker (ec : Int)
  /-- `send`: the test for ready (asio_base.h:116) -/
  | sendTest
  /-- `send`: the write returned `ec` (socketcan.h:225-226) -/
  | sendWrite (ec : Int)
  /-- a fatal error frame was read (socketcan.h:246-250) -/
  | readFatal (e : BitVec 32)
  /-- the outstanding read failed (asio_base.h:78-81) -/
  | readError (e : Int)
  /-- the completion handler of such a read is executed (asio_base.h:78-81) -/
  | readAborted (e : Int)
  /-- the `i`-th thread that records an error makes its next step -/
  | upd (i : Nat)

/-- completion handlers are executed: `run` is past its `reset` and the event loop was not stopped
(socketcan_interface/include/socketcan_interface/asio_base.h:104,109) -/
def Sys.handling (s : Sys) : Bool := !s.stopped && (s.worker = .trigger || s.worker = .loop)

/-- one step of any thread (socketcan_interface/include/socketcan_interface/asio_base.h:48-121, threading.h:9-88); a step that is not
enabled changes nothing -/
def Sys.step (s : Sys) : Ev → Sys
  | .call c => s.begin c
  | .caller c => s.callerStep c
  | .worker ec => s.workerStep ec
  | .sendTest => if s.st.driver = .ready then { s with checked := s.checked + 1 } else s
  | .sendWrite ec =>
    if s.checked = 0 then s
    else { s with checked := s.checked - 1, upds := if ec ≠ 0 then s.upds ++ [.err ec] else s.upds }
  | .readFatal e => if s.handling ∧ s.reading then { s with upds := s.upds ++ [.int e] } else s
  | .readError e => if s.handling ∧ s.reading then { s with reading := false, upds := s.upds ++ [.err e] } else s
  | .readAborted e =>
    if s.handling ∧ s.aborted ≠ 0 then { s with aborted := s.aborted - 1, upds := s.upds ++ [.err e] } else s
  | .upd i =>
    match s.upds[i]? with
    | none => s
    | some u =>
      let r := s.updStep u
      { r.1 with upds := match r.2 with | some v => r.1.upds.set i v | none => r.1.upds.eraseIdx i }

/-- a schedule (socketcan_interface/include/socketcan_interface/asio_base.h:48-121, threading.h:9-88,
canopen_master/include/canopen_master/can_layer.h:70-110) -/
def Sys.run (s : Sys) (evs : List Ev) : Sys := evs.foldl Sys.step s

/-- canopen_master/include/canopen_master/can_layer.h:32-41 `handleRead`, `handleWrite` (the same text) with the recorded driver state -/
def cycleReports (st : State) (current : LayerState) : List Report :=
  if current.toNat > LayerState.init.toNat ∧ st.driver ≠ .ready then [.error "CAN not ready".toList] else []

/-- values added to a report (canopen_master/include/canopen_master/can_layer.h:47,50,53,55,64) -/
inductive DiagVal where
  | num (n : Int)
  | text (t : Text)
  deriving DecidableEq, Repr

/-- `int(s.driver_state)` (canopen_master/include/canopen_master/can_layer.h:47, socketcan_interface/include/socketcan_interface/interface.h:88) -/
def driverNo : DriverState → Int
  | .closed => 0 | .opened => 1 | .ready => 2

/-- `sstr << std::hex << (unsigned int) b << " "` (canopen_master/include/canopen_master/can_layer.h:57-62) -/
def hexBytes (bs : List Byte) : Text := bs.flatMap fun b => Nat.toDigits 16 b.toNat ++ [' ']

/-- canopen_master/include/canopen_master/can_layer.h:43-68 `handleDiag`: reported error and added values, given the recorded state and
the last error frame.  The loop indexes the payload up to `dlc`, so `dlc > 8` is undefined behaviour. -/
def diag (s : State) (last : Frame) : Outcome Empty (List Report × List (String × DiagVal)) :=
  let r0 : List Report := if s.driver = .ready then [] else [.error "CAN layer not ready".toList]
  let v0 : List (String × DiagVal) := if s.driver = .ready then [] else [("driver_state", .num (driverNo s.driver))]
  let v1 := if s.errorCode ≠ 0 then [("socket_error", DiagVal.num s.errorCode)] else []
  if s.internalError ≠ 0 then
    if last.dlc.toNat ≤ 8 then
      let t := translateError s.internalError []
      .ok (r0, v0 ++ v1 ++ [("internal_error", .num s.internalError.toInt)] ++
        (if t.1 then [("internal_error_desc", .text t.2)] else []) ++
        [("can_error_frame", .text (hexBytes (last.data.toList.take last.dlc.toNat)))])
    else .ub
  else .ok (r0, v0 ++ v1)

end Verif.CanL
