import Verif.Model.Candump
import Verif.Spec.Dict

/-! # What the lines of candump say -/

namespace Verif.Spec.Cdump
open Verif Verif.Drv Verif.Spec

/-- kinds of frames -/
inductive Kind where
  | standard | extended | error
  deriving DecidableEq, Repr

/-- what the user of candump wants to know: of a frame the kind, the identifier, the bytes or that it is a remote frame; of a state its parts -/
inductive Seen where
  | frame (kind : Kind) (id : Nat) (payload : Option (List Byte))
  | state (driver : DriverState) (internal : Nat) (code : Int)
  deriving DecidableEq

/-- what there is to see -/
def seen : Verif.Cdump.Ev → Seen
  | .frame f => .frame (if f.isError then .error else if f.isExtended then .extended else .standard) f.id.toNat (if f.isRtr then none else some (f.data.toList.take f.dlc.toNat))
  | .state s => .state s.driver s.internalError.toNat s.errorCode

/-- the letter of a kind -/
def Kind.letter : Kind → Char
  | .standard => 's'
  | .extended => 'e'
  | .error => 'E'

/-- bytes as hexadecimal numbers, each after a blank -/
inductive Bytes : Text → List Byte → Prop where
  | nil : Bytes [] []
  | cons {a t : Text} {b : Byte} {bs : List Byte} : HexNumeral a b.toNat → Bytes t bs → Bytes (' ' :: (a ++ t)) (b :: bs)

/-- the payload: `r`, or the number of bytes and the bytes -/
inductive Payload : Text → Option (List Byte) → Prop where
  | remote : Payload ['r'] none
  | data {d t : Text} {bs : List Byte} : Numeral 10 d bs.length → Bytes t bs → Payload (d ++ t) (some bs)

/-- decimal numbers -/
inductive Dec : Text → Int → Prop where
  | pos {t : Text} {n : Nat} : Numeral 10 t n → Dec t n
  | neg {t : Text} {n : Nat} : Numeral 10 t n → Dec ('-' :: t) (-(n : Int))

/-- the number of a state of a driver -/
def driverNo : DriverState → Nat
  | .closed => 0
  | .opened => 1
  | .ready => 2

/-- a line of the output -/
inductive Line : Text → Seen → Prop where
  | frame {k : Kind} {a p : Text} {id : Nat} {payload : Option (List Byte)} : HexNumeral a id → Payload p payload →
      Line (k.letter :: ' ' :: (a ++ '\t' :: (p ++ ['\n']))) (.frame k id payload)
  | state {d : DriverState} {a b err c : Text} {n : Nat} {z : Int} : Numeral 10 a (driverNo d) → Numeral 10 b n → '\'' ∉ err → Dec c z →
      Line ("STATE: driver_state=".toList ++ (a ++ (" internal_error=".toList ++ (b ++ ("('".toList ++ (err ++ ("') asio: system:".toList ++ (c ++ ['\n'])))))))) (.state d n z)

/-- the text consists of lines that say this, in this order -/
inductive Says : Text → List Seen → Prop where
  | nil : Says [] []
  | cons {l t : Text} {v : Seen} {vs : List Seen} : Line l v → Says t vs → Says (l ++ t) (v :: vs)

/-- frames have at most 8 bytes -/
def Sane : Verif.Cdump.Ev → Prop
  | .frame f => f.dlc.toNat ≤ 8
  | .state _ => True

end Verif.Spec.Cdump
