import Verif.Model.Text

/-!
# The socket of the kernel's broadcast manager and the program canbcm
socketcan_interface/include/socketcan_interface/bcm.h, socketcan_interface/src/canbcm.cpp

The message to the kernel is modelled byte by byte, with the layout of `bcm_msg_head` and `can_frame` on 64 bit little-endian Linux.
What the object asks of the operating system is a list of calls, each with the operating system's answer; what the kernel makes of them is
not code of the repository and is in the specification.
-/

namespace Verif.BcmS
open Verif Verif.Txt

/-- an assertion that fails ends the program (socketcan_interface/include/socketcan_interface/bcm.h:29) -/
inductive Err where
  | assertion
  deriving DecidableEq, Repr

/-- an unsigned value in memory, least significant byte first (bit-fields and integers of socketcan_interface/include/socketcan_interface/bcm.h:31-43, 86-93) -/
def leBytes : Nat → Nat → List Byte
  | 0, _ => []
  | k + 1, v => BitVec.ofNat 8 v :: leBytes k (v / 256)

/-- a write into the message of socketcan_interface/include/socketcan_interface/bcm.h:24-27 at byte offset `off`; outside of it: undefined behaviour -/
def put (mem : List Byte) (off : Nat) (bs : List Byte) : Outcome Err (List Byte) :=
  if off + bs.length ≤ mem.length then .ok (mem.take off ++ bs ++ mem.drop (off + bs.length)) else .ub

/-- one C++ statement after the other (socketcan_interface/include/socketcan_interface/bcm.h:82-98) -/
def andThen {α β : Type} (a : Outcome Err α) (f : α → Outcome Err β) : Outcome Err β :=
  match a with
  | .ok x => f x
  | .throws e => .throws e
  | .ub => .ub

/-- `sizeof(bcm_msg_head)` in socketcan_interface/include/socketcan_interface/bcm.h:27 -/
def headSize : Nat := 56
/-- `sizeof(can_frame)` in socketcan_interface/include/socketcan_interface/bcm.h:27 -/
def frameSize : Nat := 16

/-- socketcan_interface/include/socketcan_interface/bcm.h:26-32 `Message(n)`; `nframes` is at offset 52.  The assertion is there unless the program
is compiled without assertions (`ndebug`). -/
def newMsg (ndebug : Bool) (n : Nat) : Outcome Err (List Byte) :=
  if !ndebug ∧ 256 < n then .throws .assertion
  else put (List.replicate (headSize + frameSize * n) 0) 52 (leBytes 4 n)

/-- a `long` in memory (socketcan_interface/include/socketcan_interface/bcm.h:38-39) -/
def leLong (v : Int) : List Byte := leBytes 8 (BitVec.ofInt 64 v).toNat

/-- socketcan_interface/include/socketcan_interface/bcm.h:36-40 `setIVal2`, the period is in microseconds already; `ival2` is at offsets 32 and 40 -/
def setIVal2 (mem : List Byte) (usec : Int) : Outcome Err (List Byte) :=
  andThen (put mem 32 (leLong (usec.tdiv 1000000))) fun mem => put mem 40 (leLong (usec.tmod 1000000))

/-- socketcan_interface/include/socketcan_interface/bcm.h:41-43 `setHeader`; `can_id` is at offset 48, `CAN_EFF_FLAG` is bit 31 -/
def setHeader (mem : List Byte) (h : Header) : Outcome Err (List Byte) :=
  put mem 48 (leBytes 4 (h.id.setWidth 32 ||| (if h.isExtended then 0x80000000#32 else 0)).toNat)

/-- socketcan_interface/include/socketcan_interface/bcm.h:92-97: one frame; `can_id`, `can_dlc` and `data` are at offsets 0, 4 and 8 of the frame.  The
inner loop reads and writes beyond both payload arrays if `dlc > 8`: undefined behaviour (simplification: of the whole loop). -/
def putFrame (mem : List Byte) (i : Nat) (f : Frame) : Outcome Err (List Byte) :=
  andThen (put mem (headSize + frameSize * i + 4) [f.dlc]) fun mem =>
  andThen (put mem (headSize + frameSize * i) ((mem.drop 48).take 4)) fun mem =>
  if f.dlc.toNat ≤ 8 then put mem (headSize + frameSize * i + 8) (f.data.toList.take f.dlc.toNat) else .ub

/-- socketcan_interface/include/socketcan_interface/bcm.h:91-97: the loop, `k` frames from number `i` on; reading behind the caller's array is
undefined -/
def putFrames (frames : List Frame) : Nat → Nat → List Byte → Outcome Err (List Byte)
  | 0, _, mem => .ok mem
  | k + 1, i, mem =>
    match frames[i]? with
    | none => .ub
    | some f => andThen (putFrame mem i f) (putFrames frames k (i + 1))

/-- socketcan_interface/include/socketcan_interface/bcm.h:81-97: the message of `startTX`; `TX_SETUP` is 1 (offset 0), `SETTIMER | STARTTIMER` is 3
(offset 4).  Simplification: the period is given in microseconds, the `duration_cast` of line 37 is at the caller. -/
def txMsg (ndebug : Bool) (usec : Int) (h : Header) (num : Nat) (frames : List Frame) : Outcome Err (List Byte) :=
  andThen (newMsg ndebug num) fun mem =>
  andThen (setHeader mem h) fun mem =>
  andThen (setIVal2 mem usec) fun mem =>
  andThen (put mem 0 (leBytes 4 1)) fun mem =>
  andThen (put mem 4 (leBytes 4 3)) fun mem =>
  putFrames frames num 0 mem

/-- socketcan_interface/include/socketcan_interface/bcm.h:100-103: the message of `stopTX`; `TX_DELETE` is 2 -/
def delMsg (ndebug : Bool) (h : Header) : Outcome Err (List Byte) :=
  andThen (newMsg ndebug 0) fun mem =>
  andThen (put mem 0 (leBytes 4 2)) fun mem => setHeader mem h

/-- a call to the operating system with its answer (socketcan_interface/include/socketcan_interface/bcm.h:45, 57, 62, 73, 108) -/
inductive Call where
  | socket (fd : Int)
  | ifindex (fd : Int) (name : Text) (ret : Int)
  | connect (fd : Int) (ret : Int)
  | write (fd : Int) (msg : List Byte) (ret : Int)
  | close (fd : Int)
  deriving DecidableEq, Repr

/-- socketcan_interface/include/socketcan_interface/bcm.h:22-23 `BCMsocket` -/
structure Sock where
  fd : Int
  deriving DecidableEq, Repr

/-- socketcan_interface/include/socketcan_interface/bcm.h:54-55: constructor -/
def Sock.new : Sock := { fd := -1 }

/-- the answers of the operating system during `init` (socketcan_interface/include/socketcan_interface/bcm.h:57, 62, 73) -/
structure Answers where
  socket : Int
  ifindex : Int
  connect : Int
  deriving DecidableEq, Repr

/-- socketcan_interface/include/socketcan_interface/bcm.h:106-111 `shutdown`, also 113-115: destructor -/
def Sock.shutdown (s : Sock) : Sock × List Call :=
  if 0 < s.fd then ({ fd := -1 }, [.close s.fd]) else (s, [])

/-- socketcan_interface/include/socketcan_interface/bcm.h:56-80 `init`; `strcpy` into the 16 bytes of `ifr_name` (line 61) is undefined for longer names -/
def Sock.init (s : Sock) (device : Text) (a : Answers) : Outcome Err (Sock × Bool × List Call) :=
  let s := { s with fd := a.socket }
  if s.fd < 0 then .ok (s, false, [.socket a.socket])
  else if 16 ≤ device.length then .ub
  else if a.ifindex ≠ 0 then
    .ok (s.shutdown.1, false, [.socket a.socket, .ifindex s.fd device a.ifindex] ++ s.shutdown.2)
  else if a.connect < 0 then
    .ok (s.shutdown.1, false, [.socket a.socket, .ifindex s.fd device a.ifindex, .connect s.fd a.connect] ++ s.shutdown.2)
  else .ok (s, true, [.socket a.socket, .ifindex s.fd device a.ifindex, .connect s.fd a.connect])

/-- socketcan_interface/include/socketcan_interface/bcm.h:81-99 `startTX`; `ret` is the answer of `write` (44-46) -/
def Sock.startTX (s : Sock) (ndebug : Bool) (usec : Int) (h : Header) (num : Nat) (frames : List Frame) (ret : Int) :
    Outcome Err (Sock × Bool × List Call) :=
  andThen (txMsg ndebug usec h num frames) fun m => .ok (s, decide (0 < ret), [.write s.fd m ret])

/-- socketcan_interface/include/socketcan_interface/bcm.h:100-105 `stopTX` -/
def Sock.stopTX (s : Sock) (ndebug : Bool) (h : Header) (ret : Int) : Outcome Err (Sock × Bool × List Call) :=
  andThen (delMsg ndebug h) fun m => .ok (s, decide (0 < ret), [.write s.fd m ret])

/-- what is done with the object (socketcan_interface/include/socketcan_interface/bcm.h:56-111), with the operating system's answers -/
inductive Op where
  | init (device : Text) (a : Answers)
  | start (usec : Int) (h : Header) (num : Nat) (frames : List Frame) (ret : Int)
  | stop (h : Header) (ret : Int)
  | shutdown
  deriving DecidableEq, Repr

/-- one call of the object (socketcan_interface/include/socketcan_interface/bcm.h:56-111); `shutdown` has no result, here `true` -/
def Sock.step (s : Sock) (ndebug : Bool) : Op → Outcome Err (Sock × Bool × List Call)
  | .init d a => s.init d a
  | .start usec h num fs ret => s.startTX ndebug usec h num fs ret
  | .stop h ret => s.stopTX ndebug h ret
  | .shutdown => .ok (s.shutdown.1, true, s.shutdown.2)

/-- a history of calls (socketcan_interface/include/socketcan_interface/bcm.h:56-111): results and calls to the operating system -/
def Sock.run (s : Sock) (ndebug : Bool) : List Op → Outcome Err (Sock × List Bool × List Call)
  | [] => .ok (s, [], [])
  | op :: ops =>
    andThen (s.step ndebug op) fun r =>
    andThen (r.1.run ndebug ops) fun q => .ok (q.1, r.2.1 :: q.2.1, r.2.2 ++ q.2.2)

/-- what the program canbcm depends on: the arguments after the program's name, the answers of the operating system, the value of `atof` converted to
microseconds (socketcan_interface/src/canbcm.cpp:34; library behaviour), and uninitialised memory -/
structure Env where
  args : List Text
  answers : Answers
  writeRet : Int
  usec : Text → Int
  junk : Nat → Vector Byte 8

/-- how far canbcm got: the exit code, or waiting for a signal (socketcan_interface/src/canbcm.cpp:13-38) -/
inductive Exit where
  | code (n : Nat)
  | waiting
  deriving DecidableEq, Repr

/-- the state of canbcm: what was printed, the calls to the operating system (socketcan_interface/src/canbcm.cpp:8-39) -/
structure Prog where
  printed : List Text
  calls : List Call
  sock : Sock
  exit : Exit
  deriving DecidableEq, Repr

/-- socketcan_interface/src/canbcm.cpp:23-30: the frames -/
def toolFrames (e : Env) : List Frame :=
  let first := toframe (e.junk 0) (e.args.getD 2 [])
  first :: ((e.args.drop 3).mapIdx fun i d => toframe (e.junk (i + 1)) (headerToString first.toHeader true ++ '#' :: d))

/-- socketcan_interface/src/canbcm.cpp:31-33: the lines printed -/
def printFrames : List Frame → Outcome Err (List Text)
  | [] => .ok []
  | f :: fs => andThen (frameToString f true) fun t => andThen (printFrames fs) fun ts => .ok (t :: ts)

/-- end of `main`: the destructor of the socket (socketcan_interface/include/socketcan_interface/bcm.h:113-115) -/
def Prog.leave (p : Prog) (n : Nat) : Prog :=
  { p with sock := p.sock.shutdown.1, calls := p.calls ++ p.sock.shutdown.2, exit := .code n }

/-- socketcan_interface/src/canbcm.cpp:8-39 `main` up to `pause`; the usage text is shortened -/
def main (ndebug : Bool) (e : Env) : Outcome Err Prog :=
  let p : Prog := { printed := [], calls := [], sock := Sock.new, exit := .waiting }
  if e.args.length < 3 then .ok ({ p with printed := ["usage".toList] }.leave 1)
  else
    andThen (p.sock.init (e.args.getD 0 []) e.answers) fun r =>
    let p := { p with sock := r.1, calls := p.calls ++ r.2.2 }
    if !r.2.1 then .ok (p.leave 2)
    else
      let fs := toolFrames e
      andThen (printFrames fs) fun lines =>
      let p := { p with printed := lines }
      andThen (p.sock.startTX ndebug (e.usec (e.args.getD 1 [])) (toframe (e.junk 0) (e.args.getD 2 [])).toHeader fs.length fs e.writeRet) fun r =>
      let p := { p with sock := r.1, calls := p.calls ++ r.2.2 }
      if r.2.1 then .ok p else .ok (p.leave 4)

/-- socketcan_interface/src/canbcm.cpp:35-36: a signal handler returned, `pause` returns -/
def Prog.resumed (p : Prog) : Prog := p.leave 0

end Verif.BcmS
