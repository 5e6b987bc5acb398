import Verif.Model.Driver

/-!
# The driver and its threads
socketcan_interface/include/socketcan_interface/threading.h, asio_base.h, socketcan.h

`boost::asio` is outside of this code; what the model takes from its documentation: handlers that are ready are kept in a queue and run by any of the threads inside
`run`, in the order of the queue; `stop` makes `run` return and leaves handlers that have not been started in the queue; `reset` allows `run` again; cancelling
a read makes its handler ready with an error; functions posted to a strand are run one at a time, in the order they were posted.
Everything that takes a mutex or is done by one handler is one step.  Simplifications: the handler of a read is one step, `interrupt` of the thread
(threading.h:46) has no effect, and unsynchronised access to the socket object (asio_base.h:24-30, 71) is taken as atomic.
-/

namespace Verif.Thr
open Verif Verif.Drv

/-- the threads inside `io_service_.run`: the one of `ThreadedInterface` (socketcan_interface/include/socketcan_interface/threading.h:41, 66) and the ones
made in `run` (socketcan_interface/include/socketcan_interface/asio_base.h:103) -/
inductive Worker where
  | main
  | post (n : Nat)
  deriving DecidableEq, Repr

/-- `thread_` (socketcan_interface/include/socketcan_interface/threading.h:40): null, or how far `AsioDriver::run`
(socketcan_interface/include/socketcan_interface/asio_base.h:95-114) is: not begun, before line 99, before line 103, in line 108, ended -/
inductive Thread where
  | none | created | checked | begun | loop | ended
  deriving DecidableEq, Repr

/-- what the user of the driver waits for: nothing, `init` (socketcan_interface/include/socketcan_interface/threading.h:67), `shutdown` before line 27, before line 29
of asio_base.h, at line 47 of threading.h; `recovers`: as part of `recover` (socketcan.h:85-91) -/
inductive User where
  | idle | waiting | closing (recovers : Bool) | stopping (recovers : Bool) | joining (recovers : Bool)
  deriving DecidableEq, Repr

/-- what a call returned (socketcan_interface/include/socketcan_interface/threading.h:63-75, socketcan.h:85-91) -/
inductive Result where
  | init (ok : Bool)
  | shutdown
  | recover (ok : Bool)
  deriving DecidableEq, Repr

/-- The driver object (socketcan_interface/include/socketcan_interface/asio_base.h:17-40, threading.h:40, socketcan.h:133-134) with the state of the library:
`stopped`, the number of reads under way, the completed reads whose handler has not been run with their error (0: none) and the frames posted to the
strand.  `strand` is run by `owner`, `active` is the frame for which the listeners are being called.
What happened: frames the kernel put into `frame_`, frames the listeners were called for, results of calls. -/
structure TD where
  d : Driver
  thread : Thread
  posts : List Nat
  nextPost : Nat
  stopped : Bool
  reads : Nat
  buffer : KFrame
  handlers : List Int
  strand : List Frame
  owner : Option Worker
  active : Option Frame
  user : User
  arrived : List KFrame
  delivered : List Frame
  results : List Result

/-- constructor (socketcan_interface/include/socketcan_interface/asio_base.h:84-86, socketcan.h:46-48, threading.h:84); `junk` and `kjunk` are uninitialised -/
def TD.fresh (junk : Vector Byte 8) (kjunk : KFrame) : TD :=
  { d := .initial junk, thread := .none, posts := [], nextPost := 0, stopped := false, reads := 0, buffer := kjunk, handlers := [], strand := [],
    owner := none, active := none, user := .idle, arrived := [], delivered := [], results := [] }

/-- `isReady` (socketcan_interface/include/socketcan_interface/interface.h:92) of `getState` (asio_base.h:91-94) -/
def TD.isReady (s : TD) : Bool := s.d.state.driver = .ready

/-- `boost::asio::error::operation_aborted`: the read was cancelled (socketcan_interface/include/socketcan_interface/asio_base.h:26-27) -/
def aborted : Int := 125
/-- `boost::asio::error::bad_descriptor`: the socket is closed (socketcan_interface/include/socketcan_interface/socketcan.h:210) -/
def badDescriptor : Int := 9

/-- socketcan_interface/include/socketcan_interface/socketcan.h:208-211 `triggerReadSome` -/
def TD.trigger (s : TD) : TD := if s.d.socketOpen then { s with reads := s.reads + 1 } else { s with handlers := s.handlers ++ [badDescriptor] }

/-- a thread that can take a handler: it is inside `run` and not in the strand (socketcan_interface/include/socketcan_interface/asio_base.h:103, 108) -/
def TD.canWork (s : TD) (w : Worker) : Bool :=
  s.owner != some w && (match w with
    | .main => s.thread == .loop
    | .post n => s.posts.contains n)

/-- socketcan_interface/include/socketcan_interface/threading.h:63-70 `init`: the result, or the thread is started and waited for (`StateWaiter`, 9-37).
`em fm` are the masks of socketcan.h:80-81, `sys` the outcome of the system calls.  Left out: device names of 16 characters and more (undefined, see `Drv.Driver.init`). -/
def TD.init (s : TD) (device : Text) (loopback : Bool) (em fm : BitVec 32) (sys : SysInit) : TD :=
  if s.thread = .none then
    match s.d.init device loopback em fm sys with
    | .ok (true, d) => { s with d := d, thread := .created, user := .waiting }
    | .ok (false, d) => { s with d := d, results := s.results ++ [.init (d.state.driver = .ready)] }
    | _ => s
  else { s with results := s.results ++ [.init s.isReady] }

/-- socketcan_interface/include/socketcan_interface/socketcan.h:236-261 `readFrame` with the completed read `e`: an error ends reading; a frame is posted to the strand
(asio_base.h:45-47, 76) and the next read is started (77) -/
def TD.readDone (s : TD) (e : Int) : TD :=
  if e = 0 then
    let d := s.d.readOk s.buffer
    TD.trigger { s with d := d, strand := s.strand ++ [d.input] }
  else { s with d := s.d.readError e }

/-- end of `shutdown` (socketcan_interface/include/socketcan_interface/threading.h:47-48); `recover` goes on with
`SocketCANInterface::init(device_, loopback_, error_mask_, fatal_error_mask_)` (socketcan.h:88), which is not the one of `ThreadedInterface` and starts no
thread.  `device_` is taken as a name that was accepted before. -/
def TD.joined (s : TD) (recovers : Bool) (sys : SysInit) : TD :=
  let s := { s with thread := .none, user := .idle }
  if recovers then
    match s.d.init [] s.d.loopback s.d.errorMask s.d.fatalMask sys with
    | .ok (b, d) => { s with d := d, results := s.results ++ [.recover b] }
    | _ => s
  else { s with results := s.results ++ [.shutdown] }

/-- the destructor waits for the thread without stopping the event loop (socketcan_interface/include/socketcan_interface/threading.h:81-83, 44-50);
`interrupt` is taken to have no effect on a thread in the event loop, which has no interruption point -/
def TD.destroy (s : TD) : TD := { s with user := .joining false }

/-- what can happen next: calls of the user and steps of waiting calls, steps of the threads, completions of reads, calls of `send`
(socketcan_interface/include/socketcan_interface/threading.h:41-75, asio_base.h:24-121, socketcan.h:85-91, 208-261) -/
inductive Ev where
  | init (device : Text) (loopback : Bool) (em fm : BitVec 32) (sys : SysInit)
  | waited (timeout : Bool)
  | shutdown
  | recover
  | close
  | stop
  | join (sys : SysInit)
  | begin
  | reset
  | spawn
  | endLoop
  | exit (n : Nat)
  | arrive (k : KFrame)
  | fail (e : Int)
  | read (w : Worker)
  | enter (w : Worker)
  | call (w : Worker)
  | ret (w : Worker)
  | leave (w : Worker)
  | send (f : Frame) (ec : Int)

/-- one step; what is not possible changes nothing (socketcan_interface/include/socketcan_interface/threading.h:25-75, asio_base.h:24-121, socketcan.h:85-91, 208-261; the lines of each
step are given beside it) -/
def TD.step (s : TD) : Ev → TD
  -- threading.h:63-70
  | .init dev lb em fm sys => if s.user = .idle then s.init dev lb em fm sys else s
  -- threading.h:25-36: all changes of the state are passed to the waiter
  | .waited timeout =>
    if s.user = .waiting ∧ (timeout ∨ s.isReady) then { s with user := .idle, results := s.results ++ [.init (!timeout)] } else s
  -- threading.h:72-75
  | .shutdown => if s.user = .idle then { s with user := .closing false } else s
  -- socketcan.h:85-91
  | .recover =>
    if s.user = .idle then
      if s.isReady then { s with results := s.results ++ [.recover true] } else { s with user := .closing true }
    else s
  -- asio_base.h:25-28
  | .close =>
    match s.user with
    | .closing r =>
      if s.d.socketOpen then { s with user := .stopping r, d := s.d.shutdown, handlers := s.handlers ++ List.replicate s.reads aborted, reads := 0 }
      else { s with user := .stopping r }
    | _ => s
  -- asio_base.h:29
  | .stop =>
    match s.user with
    | .stopping r => { s with user := .joining r, stopped := true }
    | _ => s
  -- threading.h:45-49
  | .join sys =>
    match s.user with
    | .joining r => if s.thread = .none ∨ s.thread = .ended then s.joined r sys else s
    | _ => s
  -- asio_base.h:96-98, 113
  | .begin =>
    if s.thread = .created then
      let d := s.d.setNotReady
      if d.state.driver = .opened then { s with d := d, thread := .checked } else { s with d := { d with notified := d.notified ++ [d.state] }, thread := .ended }
    else s
  -- asio_base.h:99-101
  | .reset => if s.thread = .checked then { s with d := s.d.setDriverState .ready, thread := .begun, stopped := false } else s
  -- asio_base.h:103-105
  | .spawn => if s.thread = .begun then TD.trigger { s with thread := .loop, posts := s.posts ++ [s.nextPost], nextPost := s.nextPost + 1 } else s
  -- asio_base.h:107-113: `run` returns without an error as soon as it was stopped
  | .endLoop => if s.stopped ∧ s.canWork .main then { s with d := s.d.runEnd 0, thread := .ended } else s
  -- asio_base.h:103
  | .exit n => if s.stopped ∧ s.canWork (.post n) then { s with posts := s.posts.filter (· != n) } else s
  -- socketcan.h:210: a read under way fills `frame_`
  | .arrive k => if s.d.socketOpen ∧ 0 < s.reads then { s with reads := s.reads - 1, buffer := k, handlers := s.handlers ++ [0], arrived := s.arrived ++ [k] } else s
  | .fail e => if s.d.socketOpen ∧ 0 < s.reads ∧ e ≠ 0 then { s with reads := s.reads - 1, handlers := s.handlers ++ [e] } else s
  -- asio_base.h:103, 108, socketcan.h:236-261
  | .read w =>
    if !s.stopped ∧ s.canWork w then
      match s.handlers with
      | e :: hs => TD.readDone { s with handlers := hs } e
      | [] => s
    else s
  -- asio_base.h:46
  | .enter w => if !s.stopped ∧ s.canWork w ∧ s.owner = none ∧ s.strand ≠ [] then { s with owner := some w } else s
  | .call w =>
    if s.owner = some w ∧ s.active = none then
      match s.strand with
      | f :: fs => { s with active := some f, strand := fs, delivered := s.delivered ++ [f] }
      | [] => s
    else s
  | .ret w => if s.owner = some w then { s with active := none } else s
  | .leave w => if s.owner = some w ∧ s.active = none then { s with owner := none } else s
  -- asio_base.h:115-117; frames with more than 8 bytes are left out
  | .send f ec =>
    match s.d.send f ec with
    | .ok (_, d) => { s with d := d }
    | _ => s

/-- a history (socketcan_interface/include/socketcan_interface/threading.h:39-88) -/
def TD.run (s : TD) : List Ev → TD
  | [] => s
  | e :: es => (s.step e).run es

end Verif.Thr
