import Verif.Model.Master

/-! # What users expect of the emergency handler and the SYNC producers -/

namespace Verif.Spec.Master
open Verif Verif.Lay

/-- the error register has a bit other than the profile specific bit 5 -/
def Alarming (r : Byte) : Prop := ∃ i, i < 8 ∧ i ≠ 5 ∧ r.getLsbD i = true

/-- an emergency frame of CiA 301: eight bytes -/
def wellFormed (f : Frame) : Prop := f.dlc = 8

/-- the generic bit of the register is clear and the error list, if there is one, could be cleared -/
def resets (hasList : Bool) : Emcy.Ev → Prop
  | .init (some r) clears => r.getLsbD 0 = false ∧ (hasList = true → clears = true)
  | _ => False

/-- whether an error is to be reported after a history: decided by the last (well-formed) emergency frame or
successful initialisation (`true` before any); nothing else changes it -/
inductive InError (hasList : Bool) : List Emcy.Ev → Prop
  | fresh : InError hasList []
  | frame (es f) : wellFormed f → Alarming f.data[2] → InError hasList (es ++ [.frame f])
  | keep (es e) : InError hasList es → (∀ f, e = .frame f → ¬ wellFormed f) → ¬ resets hasList e → InError hasList (es ++ [e])

/-- node `n` takes part: it was added and not removed since -/
def Member (es : List Sync.Ev) (n : Nat) : Prop := ∃ a b, es = a ++ .add n :: b ∧ Sync.Ev.remove n ∉ b

/-- the number of write cycles in which the producer was past its initialisation -/
def cycles : List Sync.Ev → Nat
  | [] => 0
  | .write st :: es => (if LayerState.init.toNat < st.toNat then 1 else 0) + cycles es
  | _ :: es => cycles es

/-- the SYNC frame of CiA 301 without and with counter -/
def IsSync (h : Header) (f : Frame) (counter : Option Nat) : Prop :=
  f.toHeader = h ∧ match counter with
    | none => f.dlc = 0
    | some c => f.dlc = 1 ∧ f.data[0].toNat = c

/-- whether node `n` is to be looked at -/
def watched (monitored ignored : List Nat) (n : Nat) : Prop := n ∉ ignored ∧ (monitored = [] ∨ n ∈ monitored)

/-- frame `f` is the NMT command `cmd` for node `n` -/
def IsNmt (f : Frame) (cmd : Byte) (n : Nat) : Prop := f.id = 0 ∧ f.dlc.toNat > 1 ∧ f.data[0] = cmd ∧ f.data[1].toNat = n

/-- frame `f` is the report of node `n` that it is stopped -/
def IsStoppedReport (f : Frame) (n : Nat) : Prop := f.id.toNat = 0x700 + n ∧ n < 128 ∧ f.dlc.toNat > 0 ∧ f.data[0] = 4

/-- the frame starts node `n` -/
def starts (f : Frame) (n : Nat) : Prop := IsNmt f 1 n
/-- the frame ends the operation of node `n`: another command, or its report that it is stopped -/
def ends (f : Frame) (n : Nat) : Prop := (∃ cmd, cmd ≠ 1 ∧ IsNmt f cmd n) ∨ IsStoppedReport f n

/-- what is observed between initialisation and shut-down -/
inductive Seen where
  | frame (f : Frame)
  | halt

/-- node `n` is started: some frame started it, and neither a frame ended it nor the layer was halted since -/
def Started (es : List Seen) (n : Nat) : Prop :=
  ∃ a f b, es = a ++ .frame f :: b ∧ starts f n ∧ (∀ g, Seen.frame g ∈ b → ¬ ends g n) ∧ Seen.halt ∉ b

/-- the kernel accepts every job -/
def toEv : Seen → Bcm.Ev
  | .frame f => .frame f true
  | .halt => .halt

end Verif.Spec.Master
