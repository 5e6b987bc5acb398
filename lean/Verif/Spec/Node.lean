import Verif.Model.Node

/-!
# What users of a node expect

Of the model only the events and outputs are used, and `Node.run` to say which histories are meant.
-/

namespace Verif.Spec.Node
open Verif Verif.Nmt

/-- the state bytes a device reported, in order -/
def reports : List Ev → List Byte
  | [] => []
  | .frame f _ :: es => f.data[0] :: reports es
  | _ :: es => reports es

/-- the changes in a sequence of states that starts from `s` -/
def changes (s : Byte) : List Byte → List Byte
  | [] => []
  | b :: r => if b = s then changes s r else b :: changes b r

/-- the NMT states of CiA 301: boot-up 0, stopped 4, operational 5, pre-operational 127 -/
def standard (b : Byte) : Prop := b = 0 ∨ b = 4 ∨ b = 5 ∨ b = 127

/-- the NMT command specifiers of CiA 301 -/
def specifier : Cmd → Byte
  | .start => 0x01 | .prepare => 0x80 | .reset => 0x81 | .resetCom => 0x82

/-- the state a command asks for -/
def wanted : Cmd → Byte
  | .start => 5 | .prepare => 127 | .reset => 0 | .resetCom => 0

/-- the NMT command frame of CiA 301: identifier 0, two bytes -/
def IsCommand (f : Frame) (spec node : Byte) : Prop :=
  f.id = 0 ∧ f.isExtended = false ∧ f.isRtr = false ∧ f.isError = false ∧ f.dlc = 2 ∧ f.data[0] = spec ∧ f.data[1] = node

/-- A history without the two races of the code: no frame is handled between the end of the wait of a reset and the assignment of the
pre-operational state, and the shut-down sequence is not interrupted. -/
def Undisturbed (n : Nmt.Node) (es : List Ev) : Prop :=
  ∀ pre e post, es = pre ++ e :: post →
    (∀ f t, e = .frame f t → ∀ c, (n.run pre).1.phase ≠ .finishing c) ∧
    (e = .forget → ∃ pre', pre = pre' ++ [.stop, .unlisten] ∧ (n.run pre').1.phase = .idle)

/-- the event `e`, after the history `pre`, tells the node that the device is in state `s`: a frame with that state byte, or a command that
assumes it because there is no heartbeat -/
def Tells (n : Nmt.Node) (pre : List Ev) (e : Ev) (s : Byte) : Prop :=
  (∃ f t, e = .frame f t ∧ f.data[0] = s) ∨ Out.assumed s ∈ ((n.run pre).1.step e).2

/-- the last thing the node was told is that the device is in state `s` -/
def LastTold (n : Nmt.Node) (es : List Ev) (s : Byte) : Prop :=
  ∃ pre e post, es = pre ++ e :: post ∧ Tells n pre e s ∧ ∀ f t, Ev.frame f t ∈ post → f.data[0] = s

/-- the node was told at some time that the device is in state `s` -/
def Told (n : Nmt.Node) (es : List Ev) (s : Byte) : Prop :=
  ∃ pre e post, es = pre ++ e :: post ∧ Tells n pre e s

/-- a reset succeeded, and nothing but pre-operational has been reported since -/
def ResetSince (n : Nmt.Node) (es : List Ev) : Prop :=
  ∃ pre ok post, es = pre ++ Ev.finish ok :: post ∧ Told n pre 0 ∧ ∀ f t, Ev.frame f t ∈ post → f.data[0] = 127

/-- the heartbeat object does not exist, or has a default in the EDS and a cached value -/
def Ready (h : Hb) : Prop := h.present = false ∨ (h.dflt.isSome = true ∧ h.valid = true)

/-- not yet shut down -/
def Up (es : List Ev) : Prop := ∀ e ∈ es, e ≠ .unlisten ∧ e ≠ .forget

/-- time of the last report -/
def lastTime : List Ev → Option Int
  | [] => none
  | .frame _ t :: es => (lastTime es).or (some t)
  | _ :: es => lastTime es

/-- events that leave the heartbeat interval alone and the node listening -/
def steady : Ev → Prop
  | .frame _ _ => True
  | .call c _ => c = .prepare ∨ c = .start
  | .stop => True
  | .wake => True
  | .expire _ _ => True
  | _ => False

end Verif.Spec.Node
