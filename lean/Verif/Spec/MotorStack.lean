import Verif.Model.MotorStack
import Verif.Spec.Layer

/-!
# Vocabulary for motors in a chain
-/

namespace Verif.Spec.MStk
open Verif Verif.Lay Verif.M402 Verif.MStk

/-- the part of a motor that its mode handlers and controllers have nothing to do with, the control words sent, and whether they can be sent -/
structure Core where
  cw : BitVec 16
  hs : S402
  target : S402
  sw : BitVec 16
  words : List (BitVec 16)
  accepts : Bool

def core {ρ : Type} (w : World ρ) (i : Nat) : Core :=
  { cw := (w.motors i).cw, hs := (w.motors i).hs, target := (w.motors i).target, sw := (w.motors i).sw, words := w.words i,
    accepts := w.accepts i }

/-- a layer that is no motor: whatever it does (a joint gives a target, a node receives a status word), it leaves this part of the motors alone -/
def Calm {ρ : Type} (h : Handlers (World ρ)) : Prop := ∀ m st w s i, core (h.run m st w s).1 i = core w i

mutual
/-- a tree of layers made of motors and calm layers: the numbers of its motors with the states of their layers, in order -/
def Made {ρ : Type} : Tree (World ρ) → List (Nat × LayerState) → Prop
  | .leaf id st h _, l => (∃ o, h = motorHandlers o id ∧ l = [(id, st)]) ∨ (Calm h ∧ l = [])
  | .group _ _ ms, l => MadeAll ms l
def MadeAll {ρ : Type} : List (Tree (World ρ)) → List (Nat × LayerState) → Prop
  | [], l => l = []
  | t :: ts, l => ∃ a b, l = a ++ b ∧ Made t a ∧ MadeAll ts b
end

/-- a chain whose motors have the numbers `ids`, all different -/
def ChainOf {ρ : Type} (t : Tree (World ρ)) (ids : List Nat) : Prop := ids.Nodup ∧ ∃ l, Made t l ∧ l.map (·.1) = ids

/-- a motor after it was told to stop: an enabled one is to go to quick stop and has the command for it (bit 1 set, bits 2 and 7 clear, CiA 402), one in
fault is left alone, any other one stays where it is.  What it was told to do is judged by the state last read. -/
def Stopped (a b : Core) : Prop :=
  (b.hs = .enabled → b.target = .quickStop ∧ ∀ k, b.cw.getLsbD k = if k = 1 then true else if k = 2 ∨ k = 7 then false else a.cw.getLsbD k) ∧
  (b.hs = .fault ∨ b.hs = .faultReaction → b.target = a.target ∧ b.cw = a.cw) ∧
  (b.hs ≠ .enabled → b.hs ≠ .fault → b.hs ≠ .faultReaction → b.target = b.hs ∧ b.cw = a.cw)

/-- its state was read: it is the one of the status word now, unless reading failed and nothing changed -/
def WasRead (a b : Core) : Prop := b.words = a.words ∧ (b.hs = decode b.sw ∨ (b.hs = a.hs ∧ b.sw = a.sw))

/-- a command to stop: quick stop (CiA 402) -/
def IsQuickStop (w : BitVec 16) : Prop := w.getLsbD 1 = true ∧ w.getLsbD 2 = false ∧ w.getLsbD 7 = false

/-- the drive reports an internal limit (bit 11 of the status word) -/
def Limit (sw : BitVec 16) : Prop := sw.getLsbD 11 = true

end Verif.Spec.MStk
