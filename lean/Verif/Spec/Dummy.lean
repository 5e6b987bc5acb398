import Verif.Model.Dummy

/-!
# What an interface on the virtual bus should see
-/

namespace Verif.Spec
open Verif Verif.Dummy

/-- who is connected and with which loop-back setting (`none` = not connected) -/
abbrev Conns := Nat → Option Bool

def connStep (c : Conns) : Ev → Conns
  | .connect i l => fun k => if k = i then some l else c k
  | .disconnect i => fun k => if k = i then none else c k
  | _ => c

/-- connections after a schedule -/
def conns (es : List Ev) : Conns := es.foldl connStep (fun _ => none)

/-- Frames interface `j` must receive from a schedule that starts with connections `c`: every frame sent by another interface
while `j` is connected, and its own frames if it asked for loop-back. -/
def mustReceive (j : Nat) (c : Conns) : List Ev → List Frame
  | [] => []
  | .send i f :: es =>
    if (i ≠ j ∧ (c j).isSome) ∨ (i = j ∧ c j = some true) then f :: mustReceive j c es else mustReceive j c es
  | e :: es => mustReceive j (connStep c e) es

/-- every sender is connected when it sends -/
def SendersConnected (c : Conns) : List Ev → Prop
  | [] => True
  | .send i f :: es => (c i).isSome ∧ SendersConnected (connStep c (.send i f)) es
  | e :: es => SendersConnected (connStep c e) es

end Verif.Spec
