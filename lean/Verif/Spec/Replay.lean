import Verif.Spec.Can
import Verif.Spec.Driver
import Verif.Model.Text

/-!
# What a scripted participant of the virtual bus should do
-/

namespace Verif.Spec
open Verif

/-- Frames whose text determines them: valid, and extended frames do not have a small identifier (see C01). -/
def Printable (f : Frame) : Prop := ValidFrame f ∧ (f.isExtended = true → 2048 ≤ f.id.toNat)

/-- `Plays script seen sent rest`: a participant that goes through `script` (an expected frame and the answers to it) and sees
the frames `seen` sends `sent` and has `rest` of its script left. -/
inductive Plays : List (Frame × List Frame) → List Frame → List Frame → List (Frame × List Frame) → Prop
  | nothing (script) : Plays script [] [] script
  | expected {e m : Frame} {answers script seen sent rest} : SameFrame m e → Plays script seen sent rest →
      Plays ((e, answers) :: script) (m :: seen) (answers ++ sent) rest
  | other {e m : Frame} {answers script seen sent rest} : ¬ SameFrame m e →
      Plays ((e, answers) :: script) seen sent rest → Plays ((e, answers) :: script) (m :: seen) sent rest

/-- `t` is the text of frame `f` in one of the two letter cases -/
def TextOf (f : Frame) (t : Text) : Prop := ∃ lc, Txt.frameToString (ε := Empty) f lc = .ok t

/-- the script was written with texts of these frames -/
def Writes (want : Frame × List Frame) (line : Text × List Text) : Prop :=
  (Printable want.1 ∧ TextOf want.1 line.1) ∧ Pointwise (fun f t => Printable f ∧ TextOf f t) want.2 line.2

end Verif.Spec
