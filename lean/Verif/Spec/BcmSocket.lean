import Verif.Model.BcmSocket
import Verif.Spec.Can

/-!
# What the kernel makes of messages to its broadcast manager, and what users expect of it
The layout and the meaning are those of linux/can/bcm.h and linux/can.h on 64 bit little-endian machines.
-/

namespace Verif.Spec.BcmS
open Verif Verif.BcmS Verif.Spec

/-- the value of bytes, least significant first -/
def leVal : List Byte → Nat
  | [] => 0
  | b :: bs => b.toNat + 256 * leVal bs

/-- the `w` bytes at offset `off` -/
def field (m : List Byte) (off w : Nat) : Nat := leVal ((m.drop off).take w)

/-- a signed 64 bit value at offset `off` -/
def long (m : List Byte) (off : Nat) : Int := (BitVec.ofNat 64 (field m off 8)).toInt

/-- a frame as it appears on the bus -/
structure Wire where
  id : Nat
  extended : Bool
  remote : Bool
  data : List Byte
  deriving DecidableEq, Repr

/-- the frame on the bus for the 16 bytes of a `can_frame` at offset `off`: bit 31 of the identifier is "extended", bit 30 "remote" -/
def wire (m : List Byte) (off : Nat) : Wire :=
  let c := field m off 4
  let ext := c.testBit 31
  { id := if ext then c % 2 ^ 29 else c % 2 ^ 11
    extended := ext
    remote := c.testBit 30
    data := (m.drop (off + 8)).take (field m (off + 4) 1) }

/-- a cyclic transmission: one frame every period, one after the other -/
structure Job where
  /-- microseconds -/
  period : Int
  frames : List Wire
  deriving DecidableEq, Repr

/-- a request to the broadcast manager: jobs are found by their number (`can_id` of the head) -/
inductive Req where
  | setup (key : Nat) (j : Job)
  | delete (key : Nat)
  deriving DecidableEq, Repr

/-- what a message asks for; `none` is an error.  `TX_SETUP` (1) must set and start the timer (flags 1 and 2), without an initial count and with
1 to 256 frames, for which the message has to have room. -/
def decode (m : List Byte) : Option Req :=
  let n := field m 52 4
  if m.length ≠ 56 + 16 * n then none
  else if field m 0 4 = 1 ∧ field m 4 4 = 3 ∧ field m 8 4 = 0 ∧ 1 ≤ n ∧ n ≤ 256 ∧ 0 ≤ long m 32 ∧ 0 ≤ long m 40 ∧ long m 40 < 1000000 then
    some (.setup (field m 48 4) { period := 1000000 * long m 32 + long m 40, frames := (List.range n).map fun i => wire m (56 + 16 * i) })
  else if field m 0 4 = 2 then some (.delete (field m 48 4))
  else none

/-- open sockets of the broadcast manager, each with its jobs -/
abbrev Kernel := Int → Option (Nat → Option Job)

/-- nothing is open -/
def Kernel.none : Kernel := fun _ => Option.none

/-- what a request does to the jobs of a socket -/
def serve (jobs : Nat → Option Job) : Option Req → (Nat → Option Job)
  | some (.setup key j) => fun k => if k = key then some j else jobs k
  | some (.delete key) => fun k => if k = key then Option.none else jobs k
  | Option.none => jobs

/-- what a call does: a socket is opened, a message accepted (positive answer) or refused, a socket closed together with its jobs -/
def Kernel.apply (k : Kernel) : Call → Kernel
  | .socket fd => if 0 ≤ fd then fun x => if x = fd then some (fun _ => Option.none) else k x else k
  | .write fd m ret => if 0 < ret then fun x => if x = fd then (k x).map (serve · (decode m)) else k x else k
  | .close fd => fun x => if x = fd then Option.none else k x
  | .ifindex .. => k
  | .connect .. => k

/-- after a list of calls -/
def Kernel.after (k : Kernel) (cs : List Call) : Kernel := cs.foldl Kernel.apply k

/-- the frame to be seen on the bus for a data frame -/
def Wire.of (h : Header) (data : List Byte) : Wire := { id := h.id.toNat, extended := h.isExtended, remote := h.isRtr, data := data }

/-- the number of the job for a header: the identifier, plus 2^31 if it is extended -/
def jobNumber (h : Header) : Nat := h.id.toNat + if h.isExtended then 2 ^ 31 else 0

/-- the payload of a frame -/
def payload (f : Frame) : List Byte := f.data.toList.take f.dlc.toNat

/-- the attempt to open a socket succeeds -/
def opens (a : Answers) : Prop := 0 ≤ a.socket ∧ a.ifindex = 0 ∧ 0 ≤ a.connect

instance (a : Answers) : Decidable (opens a) := by unfold opens; infer_instance

/-- a tidy history: the object is not initialised while it is open (`o`); and the operating system does not hand out descriptor 0 -/
def Tidy : Bool → List Op → Prop
  | _, [] => True
  | o, .init _ a :: ops => o = false ∧ a.socket ≠ 0 ∧ Tidy (decide (opens a)) ops
  | _, .shutdown :: ops => Tidy false ops
  | o, _ :: ops => Tidy o ops

/-- texts of hexadecimal digits and the payloads they stand for, one by one -/
def DenoteAll : List Text → List (List Byte) → Prop
  | [], [] => True
  | t :: ts, d :: ds => Denotes t d ∧ d.length ≤ 8 ∧ DenoteAll ts ds
  | _, _ => False

/-- what is printed for a frame: its identifier and its payload in hexadecimal digits -/
def IsLine (id : Nat) (data : List Byte) (line : Text) : Prop := ∃ a b, line = a ++ '#' :: b ∧ HexNumeral a id ∧ Denotes b data

end Verif.Spec.BcmS
