import Verif.Model.Text
import Verif.Model.Driver

/-!
# The program candump
socketcan_interface/src/candump.cpp

`std::cout` is a text with the base of numbers as its state, which the manipulators change.  The driver (SocketCAN or a plugin) is a parameter: what `init` returns and which
listeners are called with what, in which order.
-/

namespace Verif.Cdump
open Verif Verif.Drv Verif.Txt

/-- what is done with `std::cout`: a text (`std::endl` is the text of a line break), a number, `std::hex`, `std::dec` (socketcan_interface/src/candump.cpp:15-35, 45) -/
inductive Op where
  | text (t : Text)
  | num (n : Int)
  | hex
  | dec
  deriving DecidableEq, Repr

/-- `std::cout`: what was printed and whether numbers are printed with base 16 (socketcan_interface/src/candump.cpp:16) -/
structure Stream where
  out : Text
  hex : Bool
  deriving DecidableEq, Repr

/-- `ostream << int` and `ostream << unsigned int` (socketcan_interface/src/candump.cpp:16-31, 45; library behaviour: with base 16 the digits of the value modulo 2^32) -/
def showNum (hex : Bool) (n : Int) : Text := if hex then ostreamHex true (n % 4294967296).toNat else (toString n).toList

/-- one operation on the stream (socketcan_interface/src/candump.cpp:15-35, 45) -/
def Stream.exec (s : Stream) : Op → Stream
  | .text t => { s with out := s.out ++ t }
  | .num n => { s with out := s.out ++ showNum s.hex n }
  | .hex => { s with hex := true }
  | .dec => { s with hex := false }

/-- operations one after the other (socketcan_interface/src/candump.cpp:15-35) -/
def Stream.run (s : Stream) (ops : List Op) : Stream := ops.foldl Stream.exec s

/-- socketcan_interface/src/candump.cpp:13-36 `print_frame`; reading `data` with `dlc > 8` is undefined -/
def printFrame (f : Frame) : Outcome Empty (List Op) :=
  let head := (if f.isError then [.text "E ".toList, .hex, .num f.id.toNat, .dec]
    else if f.isExtended then [.text "e ".toList, .hex, .num f.id.toNat, .dec]
    else [.text "s ".toList, .hex, .num f.id.toNat, .dec]) ++ [Op.text ['\t']]
  let foot := [Op.dec, .text ['\n']]
  if f.isRtr then .ok (head ++ [.text ['r']] ++ foot)
  else
    match (f.bytes : Outcome Empty _) with
    | .ok bs => .ok (head ++ [.num f.dlc.toNat, .hex] ++ bs.flatMap (fun b => [.hex, .text [' '], .num b.toNat]) ++ foot)
    | .throws e => .throws e
    | .ub => .ub

/-- the value of the enumeration printed as a number (socketcan_interface/include/socketcan_interface/interface.h:88-90) -/
def driverNum : DriverState → Int
  | .closed => 0
  | .opened => 1
  | .ready => 2

/-- socketcan_interface/src/candump.cpp:42-46 `print_state`, with the texts of SocketCAN; `error_code` is printed as category and value (library behaviour), all
codes of this driver belong to the category `system` -/
def printState (s : State) : List Op :=
  let err := (translateError s.internalError []).2
  [.text "STATE: driver_state=".toList, .num (driverNum s.driver), .text " internal_error=".toList, .num s.internalError.toNat, .text "('".toList, .text err,
   .text "') asio: ".toList, .text "system:".toList, .num s.errorCode, .text ['\n']]

/-- a call of a listener (socketcan_interface/src/candump.cpp:74-75) -/
inductive Ev where
  | frame (f : Frame)
  | state (s : State)
  deriving DecidableEq

/-- what a listener does with the stream (socketcan_interface/src/candump.cpp:13-46) -/
def Ev.ops : Ev → Outcome Empty (List Op)
  | .frame f => printFrame f
  | .state s => .ok (printState s)

/-- listeners called one after the other, each to its end (socketcan_interface/src/candump.cpp:74-82) -/
def printAll : List Ev → Stream → Outcome Empty Stream
  | [], s => .ok s
  | e :: es, s =>
    match e.ops with
    | .ok ops => printAll es (s.run ops)
    | .throws x => .throws x
    | .ub => .ub

/-- two listeners at the same time in two threads: `sched` tells whose operation is next (socketcan_interface/src/candump.cpp:74-75; the driver calls the frame listener
in its strand, the state listener wherever the state changes, socketcan_interface/include/socketcan_interface/asio_base.h:45-69) -/
def merge : List Bool → List Op → List Op → List Op
  | _, [], bs => bs
  | _, as, [] => as
  | [], a :: as, bs => a :: (as ++ bs)
  | true :: sched, a :: as, b :: bs => a :: merge sched as (b :: bs)
  | false :: sched, a :: as, b :: bs => b :: merge sched (a :: as) bs

/-- what the program depends on: its arguments (without its name), whether the plugin could be loaded, the result of `init` and the states passed to the listener meanwhile,
the state after it, the calls of listeners while `run` runs, whether `run` returns, and the states passed to the listener during `shutdown`
(socketcan_interface/src/candump.cpp:49-86) -/
structure Env where
  args : List Text
  loads : Bool
  initOk : Bool
  initStates : List State
  state : State
  events : List Ev
  returns : Bool
  downStates : List State

/-- socketcan_interface/src/candump.cpp:49-90 `main`: what it prints to standard output and the exit code, `none` while it runs.  The usage text is shortened; what is
printed to standard error is left out. -/
def main (e : Env) : Outcome Empty (Text × Option Nat) :=
  if e.args.length ≠ 1 ∧ e.args.length ≠ 3 then .ok ("usage\n".toList, some 1)
  else if e.args.length = 3 ∧ e.loads = false then .ok ([], some 1)
  else
    let start : Stream := { out := [], hex := false }
    let r := if !e.initOk then printAll (e.initStates.map .state ++ [.state e.state]) start
      else if e.returns then printAll (e.initStates.map .state ++ e.events ++ e.downStates.map .state) start
      else printAll (e.initStates.map .state ++ e.events) start
    match r with
    | .ok s => .ok (s.out, if !e.initOk then some 1 else if e.returns then some 0 else none)
    | .throws x => .throws x
    | .ub => .ub

end Verif.Cdump
