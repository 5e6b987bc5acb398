import Verif.Spec.PdoSetup

/-!
# A device that insists on the procedure of CiA 301 for changing PDOs

CiA 301 (7.5.2.36, 7.5.2.38): to change a mapping, the PDO is switched off (bit 31 of its identifier), the number of mapped objects is set to 0,
the entries are written, the number is set, and the PDO is switched on again.  Bits 0 to 29 of the identifier of a PDO that is on must not be
changed.  A device may refuse everything else with an abort code; this one does, and remembers it.
-/

namespace Verif.Spec
open Verif Verif.OD Verif.Pdo Verif.PdoInit

/-- contents of the objects of a device -/
abbrev Contents := BitVec 16 → BitVec 8 → List Byte

/-- contents after a write -/
def Contents.write (m : Contents) (i : BitVec 16) (s : BitVec 8) (b : List Byte) : Contents := fun j t => if j = i ∧ t = s then b else m j t

/-- communication parameters of the PDOs the device receives and sends -/
def isCom (i : BitVec 16) : Bool := (0x1400 ≤ i.toNat && i.toNat < 0x1600) || (0x1800 ≤ i.toNat && i.toNat < 0x1A00)
/-- mapping parameters of the PDOs the device receives and sends; the one of a PDO is 0x200 above its communication parameter -/
def isMap (i : BitVec 16) : Bool := (0x1600 ≤ i.toNat && i.toNat < 0x1800) || (0x1A00 ≤ i.toNat && i.toNat < 0x1C00)

/-- identifier word of a PDO on the device -/
def Contents.cob (m : Contents) (com : BitVec 16) : BitVec 32 := word32 ((m com 1).take 4)
/-- the PDO is on -/
def Contents.on (m : Contents) (com : BitVec 16) : Bool := !(m.cob com).msb
/-- the number of mapped objects is 0 -/
def Contents.unmapped (m : Contents) (map : BitVec 16) : Bool := (m map 0).head? == some 0#8

/-- a write that CiA 301 forbids in this state of the device -/
def Contents.forbids (m : Contents) (i : BitVec 16) (s : BitVec 8) (b : List Byte) : Bool :=
  (isMap i && (m.on (i - 0x200#16) || (s != 0 && !m.unmapped i))) ||
  (isCom i && s == 1 && m.on i && (word32 (b.take 4)).extractLsb' 0 30 != (m.cob i).extractLsb' 0 30)

/-- state of the device: contents, and whether a forbidden write was tried -/
structure Strict where
  store : Contents
  broken : Bool

/-- The device.  Beyond the rules it may refuse reads and writes as it likes (`noRead`, `noWrite`), and reads into a buffer of another size fail. -/
def strictDev (noRead noWrite : Entry → List Byte → Contents → Option Nat) : Dev Strict where
  read e b d := match noRead e b d.store with
    | some c => (d, b, some c)
    | none => if (d.store e.index e.subIndex).length = b.length then (d, d.store e.index e.subIndex, none) else (d, b, some 0x06070010)
  write e b d :=
    if d.store.forbids e.index e.subIndex b then ({ d with broken := true }, some 0x08000022)
    else match noWrite e b d.store with
      | some c => (d, some c)
      | none => ({ d with store := d.store.write e.index e.subIndex b }, none)

/-- parameters of one PDO -/
def IsPair (com map : BitVec 16) : Prop := ∃ i < 512, (com, map) = sends i ∨ (com, map) = receives i

/-- if the object is in use, it is read from and written to the device and not to a PDO -/
def Plain {D : Type} (k : Key) (e : Env D) : Prop := ∀ d, e.s.data k = some d → d.rd = .dev ∧ d.wr = .dev

/-- the object can be written, is not constant, and a configured value of it is a plain 32 bit number -/
def Settable (c : Entry) : Prop := c.writable = true ∧ c.constant = false ∧ ∀ p, c.initVal = .val p → ∃ w, p = .int .u32 w

/-- the dictionary has the identifier and the number of mapped objects of the PDO, and they can be set -/
def Proper (dict : Dict) (com map : BitVec 16) : Prop :=
  ∃ c m, dict.get (sub com 1) = some c ∧ Settable c ∧ dict.get (sub map 0) = some m ∧ m.writable = true

/-- the dictionary configures a mapping entry of the PDO -/
def Configured (dict : Dict) (map : BitVec 16) : Prop := ∃ s x p, 1 ≤ s ∧ s ≤ mappingCount dict map ∧ dict.get (sub map s) = some x ∧ x.initVal = .val p

/-- The device has what the dictionary says: identifier, number of mapped objects, and every entry that is configured. -/
structure Applied (dict : Dict) (node : BitVec 8) (com map : BitVec 16) (e : Env Strict) : Prop where
  id : cobOf dict node com = some (e.c.w.dev.store.cob com)
  count : (e.c.w.dev.store map 0).head? = some (BitVec.ofNat 8 (mappingCount dict map))
  entries : ∀ s x w, 1 ≤ s → s ≤ mappingCount dict map → dict.get (sub map s) = some x → x.writable = true → x.initVal = .val (.int .u32 w) →
    Plain (sub map s) e → word32 ((e.c.w.dev.store map (BitVec.ofNat 8 s)).take 4) = w

end Verif.Spec
