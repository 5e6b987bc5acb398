import Verif.Model.Frame

/-!
# Buffered reader
socketcan_interface/include/socketcan_interface/reader.h

Every operation holds the reader's mutex, so it is one atomic step.  A blocking `readUntil` is represented by the step at
which it returns: with a frame if the buffer is not empty then, without one if the time-out expired on an empty buffer.
The model is polymorphic in the frame type.
-/

namespace Verif.Rd

variable {α : Type}

/-- socketcan_interface/include/socketcan_interface/reader.h:13-19 members `buffer_`, `enabled_`, `max_len_` -/
structure Reader (α : Type) where
  buffer : List α
  enabled : Bool
  maxLen : Nat
  deriving DecidableEq, Repr

/-- socketcan_interface/include/socketcan_interface/reader.h:49 `BufferedReader(enable, max_len)` -/
def Reader.new (enable : Bool) (maxLen : Nat) : Reader α := { buffer := [], enabled := enable, maxLen := maxLen }

/-- the loop socketcan_interface/include/socketcan_interface/reader.h:23-26: pop the oldest while too long -/
def trimLoop (maxLen : Nat) : List α → List α
  | [] => []
  | x :: xs => if (x :: xs).length > maxLen then trimLoop maxLen xs else x :: xs

/-- socketcan_interface/include/socketcan_interface/reader.h:21-28 `trim` -/
def Reader.trim (r : Reader α) : Reader α :=
  if r.maxLen > 0 then { r with buffer := trimLoop r.maxLen r.buffer } else r

/-- socketcan_interface/include/socketcan_interface/reader.h:29-38 `handleFrame` -/
def Reader.handleFrame (r : Reader α) (msg : α) : Reader α :=
  if r.enabled then ({ r with buffer := r.buffer ++ [msg] } : Reader α).trim else r

/-- socketcan_interface/include/socketcan_interface/reader.h:51-54 `flush` -/
def Reader.flush (r : Reader α) : Reader α := { r with buffer := [] }

/-- socketcan_interface/include/socketcan_interface/reader.h:55-59 `setMaxLen` -/
def Reader.setMaxLen (r : Reader α) (n : Nat) : Reader α := ({ r with maxLen := n } : Reader α).trim

/-- socketcan_interface/include/socketcan_interface/reader.h:64-69 `setEnabled` (new state and returned previous value) -/
def Reader.setEnabled (r : Reader α) (e : Bool) : Reader α × Bool := ({ r with enabled := e }, r.enabled)

/-- socketcan_interface/include/socketcan_interface/reader.h:80-89 `listen` (registration itself is the dispatcher's) -/
def Reader.listen (r : Reader α) : Reader α := { r with buffer := [] }

/-- socketcan_interface/include/socketcan_interface/reader.h:94-109 `readUntil(msg, …)` at the moment it returns.
`want = false` is a null `msg` pointer: the frame is left in the buffer.  Result: new state, return value, `*msg`. -/
def Reader.readUntil (r : Reader α) (want : Bool) : Reader α × Bool × Option α :=
  match r.buffer with
  | [] => (r, false, none)
  | x :: xs => if want then ({ r with buffer := xs }, true, some x) else (r, true, none)

/-- The public operations (socketcan_interface/include/socketcan_interface/reader.h:29-109). -/
inductive Op (α : Type) where
  | arrive (f : α)
  | flush
  | setMaxLen (n : Nat)
  | setEnabled (e : Bool)
  | listen
  | read
  | peek

/-- one operation: new state and the frame handed to the caller, if any
(socketcan_interface/include/socketcan_interface/reader.h:29-109) -/
def Reader.step (r : Reader α) : Op α → Reader α × Option α
  | .arrive f => (r.handleFrame f, none)
  | .flush => (r.flush, none)
  | .setMaxLen n => (r.setMaxLen n, none)
  | .setEnabled e => ((r.setEnabled e).1, none)
  | .listen => (r.listen, none)
  | .read => ((r.readUntil true).1, (r.readUntil true).2.2)
  | .peek => ((r.readUntil false).1, (r.readUntil false).2.2)

/-- a history: final state and the frames handed out, in order
(socketcan_interface/include/socketcan_interface/reader.h:29-109) -/
def Reader.run (r : Reader α) : List (Op α) → Reader α × List α
  | [] => (r, [])
  | op :: ops =>
    let s := r.step op
    let t := s.1.run ops
    (t.1, s.2.toList ++ t.2)

/-- socketcan_interface/include/socketcan_interface/reader.h:40-46 `ScopedEnabler` around a block of operations -/
def Reader.scopedEnabled (r : Reader α) (ops : List (Op α)) : Reader α × List α :=
  let e := r.setEnabled true
  let t := e.1.run ops
  ((t.1.setEnabled e.2).1, t.2)

end Verif.Rd
