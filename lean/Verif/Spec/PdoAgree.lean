import Verif.Spec.PdoDevice
import Verif.Spec.Pdo

/-!
# What a device does with the frames of its PDOs

CiA 301: a PDO carries the objects named by the mapping parameter of the device, one after the other and without gaps, in frames with the
identifier of its communication parameter.  This is the device's side; nothing of the code is used.
-/

namespace Verif.Spec
open Verif Verif.OD Verif.Pdo Verif.PdoInit

/-- the mapping words of a PDO on the device: as many as sub-object 0 says, from sub-object 1 -/
def Contents.words (m : Contents) (map : BitVec 16) : List (BitVec 32) :=
  (List.range ((m map 0).headD 0#8).toNat).map fun j => word32 ((m map (BitVec.ofNat 8 (j + 1))).take 4)

/-- an object of the device with a value -/
abbrev DevValue := BitVec 16 × BitVec 8 × List Byte

/-- what a device that receives a payload stores, and where -/
def unpack : List (BitVec 32) → List Byte → List DevValue
  | [], _ => []
  | w :: ws, b => (wordIndex w, wordSub w, b.take (wordBytes w)) :: unpack ws (b.drop (wordBytes w))

/-- the payload of a PDO that a device sends -/
def Contents.payload (m : Contents) (map : BitVec 16) : List Byte := ((m.words map).map fun w => m (wordIndex w) (wordSub w)).flatten

/-- the frame belongs to the PDO of the device: the PDO is on, and the identifier and its format are its own -/
def Contents.owns (m : Contents) (com : BitVec 16) (f : Frame) : Prop :=
  m.on com = true ∧ f.id.toNat = (m.cob com).toNat % 2 ^ 29 ∧ f.isExtended = (m.cob com).getLsbD 29 ∧ f.isError = false

/-- every entry of the mapping is configured with a plain 32 bit number and can be written -/
def AllConfigured (dict : Dict) (map : BitVec 16) : Prop :=
  ∀ s, 1 ≤ s → s ≤ mappingCount dict map → ∃ x w, dict.get (sub map s) = some x ∧ x.writable = true ∧ x.initVal = .val (.int .u32 w)

/-- the mapping words that are configured -/
def configuredWords (dict : Dict) (map : BitVec 16) : List (BitVec 32) :=
  (List.range (mappingCount dict map)).map fun j => match dict.get (sub map (j + 1)) with
    | some x => match x.initVal with
      | .val (.int .u32 w) => w
      | _ => 0
    | none => 0

/-- none of the parameters of the PDO is itself mapped into a PDO -/
def AllPlain (dict : Dict) (com map : BitVec 16) {D : Type} (e : Env D) : Prop :=
  Plain (sub com 1) e ∧ ∀ s, s ≤ mappingCount dict map → Plain (sub map s) e

end Verif.Spec
