import Verif.Spec.BridgeNode

/-!
# Bridge programs on different computers with one CAN bus between them: notions used to state C121

Each program runs on a computer of its own; the kernel of that computer queues what comes from the bus for the program's socket, in the order of the bus.
Frames are only given to sockets that are open.  The bus loses nothing; other stations may send frames and a kernel may report errors to its socket.
-/

namespace Verif.Spec.Brn
open Verif Verif.Drv Verif.Thr Verif.Brn Verif.Bridge

/-- The programs by number, the queues of their sockets, and for reference: all that was given to a socket, with the program it came from, and what the
program did. -/
structure Net where
  node : Nat → Node
  inbox : Nat → List KFrame
  given : Nat → List (Option Nat × KFrame)
  hist : Nat → List NEv

/-- all programs before their start -/
def Net.new (cfg : Nat → Config) (junk : Vector Byte 8) (kjunk : KFrame) : Net :=
  { node := fun i => Node.new (cfg i) junk kjunk, inbox := fun _ => [], given := fun _ => [], hist := fun _ => [] }

/-- Steps: a program goes on by itself, another station sends a frame, a kernel reports an error to its socket, a program's read gets the next frame. -/
inductive NetEv where
  | own (i : Nat) (e : NEv)
  | foreign (k : KFrame)
  | notice (j : Nat) (k : KFrame)
  | receive (j : Nat)

/-- frames only arrive by `receive` -/
def isArrival : NEv → Bool
  | .drv (.arrive _) => true
  | _ => false

/-- the socket of a program is open -/
def Net.isOpen (s : Net) (j : Nat) : Bool := (s.node j).t.d.socketOpen

/-- frames of `src` are on the bus: every other open socket gets them -/
def Net.spread (s : Net) (src : Option Nat) (ks : List KFrame) : Net :=
  { s with
    inbox := fun j => if s.isOpen j ∧ src ≠ some j then s.inbox j ++ ks else s.inbox j
    given := fun j => if s.isOpen j ∧ src ≠ some j then s.given j ++ ks.map (fun k => (src, k)) else s.given j }

/-- program `i` makes the step `e` -/
def Net.act (s : Net) (i : Nat) (e : NEv) : Net :=
  { s with node := fun j => if j = i then (s.node i).step e else s.node j, hist := fun j => if j = i then s.hist i ++ [e] else s.hist j }

def Net.step (s : Net) : NetEv → Net
  | .own i e =>
    if isArrival e then s
    else (s.act i e).spread (some i) (((s.node i).step e).t.d.wire.drop (s.node i).t.d.wire.length)
  | .foreign k => s.spread none [k]
  | .notice j k => { s with inbox := fun i => if i = j then s.inbox i ++ [k] else s.inbox i, given := fun i => if i = j then s.given i ++ [(none, k)] else s.given i }
  | .receive j =>
    match s.inbox j with
    | [] => s
    | k :: ks =>
      if ((s.node j).step (.drv (.arrive k))).t.arrived = (s.node j).t.arrived then s
      else { s.act j (.drv (.arrive k)) with inbox := fun i => if i = j then ks else s.inbox i }

def Net.run (s : Net) : List NetEv → Net
  | [] => s
  | e :: es => (s.step e).run es

/-- what `j` was given from `i` -/
def Net.from (s : Net) (i j : Nat) : List KFrame := ((s.given j).filter fun g => g.1 = some i).map (·.2)

/-- what of a message can be said on a CAN bus: 29 bits of the identifier, one bit of the flags, and not that it is about an error -/
def said (m : Msg) : Msg :=
  { id := BitVec.ofNat 32 (m.id.toNat % 2 ^ 29), isRtr := if m.isRtr.toNat % 2 = 1 then 1 else 0, isExtended := if m.isExtended.toNat % 2 = 1 then 1 else 0,
    isError := 0, dlc := m.dlc, data := m.data }

/-- two messages say the same: bytes after the length do not count -/
def SameMsg (m m' : Msg) : Prop :=
  m.id = m'.id ∧ m.dlc = m'.dlc ∧ m.isRtr = m'.isRtr ∧ m.isExtended = m'.isExtended ∧ m.isError = m'.isError ∧
  ∀ i : Nat, (h : i < 8) → i < m.dlc.toNat → m.data[i] = m'.data[i]

end Verif.Spec.Brn
