import Verif.Model.PdoInit
import Verif.Spec.StorageUse

/-!
# Vocabulary for the set-up of PDOs
-/

namespace Verif.Spec
open Verif Verif.OD Verif.Pdo Verif.PdoInit

/-- the number of objects the dictionary maps with the mapping parameter `map`: its sub-object 0, if that is 1..64 -/
def mappingCount (dict : Dict) (map : BitVec 16) : Nat :=
  match dict.get (sub map 0) with
  | some x => match x.value.getInt .u8 with
    | .ok v => if 0 < v.toNat ∧ v.toNat ≤ 64 then v.toNat else 0
    | _ => 0
  | none => 0

/-- a PDO the dictionary describes is switched on (bit 31 of its identifier is clear), or it has no mapping -/
def NotDisabled (dict : Dict) (node : BitVec 8) (com map : BitVec 16) : Prop :=
  mappingCount dict map = 0 ∨
  ∀ y (w : BitVec 32), dict.get (sub com 1) = some y → applyOffset .u32 y.value node = .ok w → w.msb = false

/-- communication and mapping parameter of the `i`-th PDO the device sends, and of the one it receives (CiA 301) -/
def sends (i : Nat) : BitVec 16 × BitVec 16 := (0x1800#16 + BitVec.ofNat 16 i, 0x1A00#16 + BitVec.ofNat 16 i)
/-- see `sends` -/
def receives (i : Nat) : BitVec 16 × BitVec 16 := (0x1400#16 + BitVec.ofNat 16 i, 0x1600#16 + BitVec.ofNat 16 i)

/-- operations of a user of the storage, other than mapping -/
def IsUse : SOp → Prop
  | .map _ _ _ _ => False
  | _ => True

/-- the state before anything was done with a node: empty storage, no PDO -/
def fresh {D : Type} (dict : Dict) (node : BitVec 8) (d : D) : Env D :=
  { s := Storage.fresh dict node, c := ⟨{ dev := d, heap := fun _ => none, next := 0, bad := false }, []⟩, rpdos := [], tpdos := [] }

/-- a history of uses of the storage -/
def uses {D : Type} (dv : Dev D) (mem : Mem) (ops : List SOp) (e : Env D) : Env D :=
  { e with s := (e.s.run (pdoBus dv) mem e.c ops).1, c := (e.s.run (pdoBus dv) mem e.c ops).2.1 }

/-- the states of a node's storage and mapper: any history of uses of the storage and of set-ups of the PDOs, whatever their outcome -/
inductive Reached {D : Type} (dv : Dev D) (mem : Mem) (junk : Vector Byte 8) (nrTx nrRx : Nat) (dict : Dict) (node : BitVec 8) : Env D → Prop
  | start (d : D) : Reached dv mem junk nrTx nrRx dict node (fresh dict node d)
  | use (e : Env D) (ops : List SOp) (h : ∀ o ∈ ops, IsUse o) : Reached dv mem junk nrTx nrRx dict node e →
      Reached dv mem junk nrTx nrRx dict node (uses dv mem ops e)
  | setUp (e : Env D) : Reached dv mem junk nrTx nrRx dict node e → Reached dv mem junk nrTx nrRx dict node (mapperInit dv mem junk nrTx nrRx e).1

/-- every key of the dictionary names its entry -/
def KeysMatch (dict : Dict) : Prop := ∀ k e, dict.get k = some e → k.index = e.index ∧ (k.hasSub = true → k.subIndex = e.subIndex)

/-- the last value written to an object of the device -/
def lastWrite (i : BitVec 16) (s : BitVec 8) : List Acc → Option (List Byte)
  | [] => none
  | a :: l =>
    match lastWrite i s l with
    | some v => some v
    | none => match a with
      | .write .dev j t v => if j = i ∧ t = s then some v else none
      | _ => none

/-- the last identifier written to the device has the bit "invalid" set, so that the device does not use the PDO -/
def SwitchedOff (com : BitVec 16) (l : List Acc) : Prop := ∃ v, lastWrite com 1 l = some v ∧ (word32 (v.take 4)).msb = true

/-- the last number of mapped objects written to the device is 0 -/
def CountZero (map : BitVec 16) (l : List Acc) : Prop := ∃ v, lastWrite map 0 l = some v ∧ v.head? = some 0#8

/-- CiA 301: the mapping of a PDO is changed only while the PDO is switched off, and its entries only while their number is 0 -/
def Disciplined (com map : BitVec 16) (l : List Acc) : Prop :=
  ∀ pre s v post, l = pre ++ Acc.write .dev map s v :: post → SwitchedOff com pre ∧ (s ≠ 0 → CountZero map pre)

/-- parts of a mapping word (CiA 301): index, sub-index, length in bytes -/
def wordIndex (w : BitVec 32) : BitVec 16 := w.extractLsb' 16 16
/-- see `wordIndex` -/
def wordSub (w : BitVec 32) : BitVec 8 := w.extractLsb' 8 8
/-- see `wordIndex` -/
def wordBytes (w : BitVec 32) : Nat := w.toNat % 256 / 8

/-- the object a mapping word stands for: words below index 0x1000 are place holders; sub-index 0 also stands for a plain variable -/
def mappedKey (dict : Dict) (w : BitVec 32) : Option Key :=
  if (wordIndex w).toNat < 0x1000 then none
  else if (dict.get (Key.ofSub (wordIndex w) (wordSub w))).isSome then some (Key.ofSub (wordIndex w) (wordSub w))
  else if wordSub w = 0 ∧ (dict.get (Key.ofIndex (wordIndex w))).isSome then some (Key.ofIndex (wordIndex w))
  else none

/-- the object is in use, is read from `r` and written to `w` -/
def Uses {D : Type} (k : Key) (r w : Dlg) (e : Env D) : Prop := ∃ d, e.s.data k = some d ∧ d.rd = r ∧ d.wr = w

/-- if the object is in use, it is written to the device and not to a PDO -/
def Direct {D : Type} (k : Key) (e : Env D) : Prop := ∀ d, e.s.data k = some d → d.wr = .dev

/-- buffer `n` exists and has room for `size` bytes -/
def HasBuffer {D : Type} (n size : Nat) (e : Env D) : Prop := ∃ b, e.c.w.heap n = some b ∧ b.size = size ∧ b.buffer.length = size

/-- A PDO is laid out as the dictionary (and, for entries that are not configured, the storage) says: `words` are its mapping words in order,
`bufs` the buffers for their values.  `fromDevice`: the device sends it, so that the mapped objects are read from the buffers; otherwise they
are written to them. -/
structure Layout {D : Type} (dict : Dict) (map : BitVec 16) (fromDevice : Bool) (e e' : Env D) (words : List (BitVec 32)) (bufs : List Nat) : Prop where
  /-- as many words as the dictionary says, and one new buffer for each of them -/
  count : words.length = mappingCount dict map
  buffers : bufs.length = words.length ∧ bufs.Nodup ∧ ∀ n ∈ bufs, e.c.w.next ≤ n
  room : ∀ (j : Nat) w n, words[j]? = some w → bufs[j]? = some n → HasBuffer n (wordBytes w) e'
  /-- a configured mapping entry is used -/
  configured : ∀ (j : Nat) w x p, words[j]? = some w → dict.get (sub map (j + 1)) = some x → x.initVal = .val p → x.initVal.getInt .u32 = .ok w
  /-- without one the default, unless the entry was in use before or is itself mapped -/
  default : ∀ (j : Nat) w x d, words[j]? = some w → dict.get (sub map (j + 1)) = some x → x.defVal = .val (.int .u32 d) → (∀ p, x.initVal ≠ .val p) →
    e.s.data (sub map (j + 1)) = none → (∀ (i : Nat) w', i < j → words[i]? = some w' → mappedKey dict w' ≠ some (sub map (j + 1))) → w = d
  /-- every word is a place holder or names an object -/
  exist : ∀ w ∈ words, (wordIndex w).toNat < 0x1000 ∨ ∃ k, mappedKey dict w = some k
  /-- mapped objects use the buffer of their word (of the last one, if there are several), and the device in the other direction -/
  connected : ∀ (j : Nat) w n k, words[j]? = some w → bufs[j]? = some n → mappedKey dict w = some k →
    (∀ (i : Nat) w', j < i → words[i]? = some w' → mappedKey dict w' ≠ some k) →
    Uses k (if fromDevice then .pdo n else .dev) (if fromDevice then .dev else .pdo n) e'
  /-- other objects are not touched -/
  others : ∀ k r w, Uses k r w e → (∀ w' ∈ words, mappedKey dict w' ≠ some k) → Uses k r w e'

/-- identifier word of a PDO: the value of the dictionary, with the node id if it asks for it -/
def cobOf (dict : Dict) (node : BitVec 8) (com : BitVec 16) : Option (BitVec 32) :=
  match dict.get (sub com 1) with
  | some y => match applyOffset .u32 y.value node with
    | .ok w => some w
    | _ => none
  | none => none

/-- the dictionary has the PDO, maps objects in it, and it is switched on -/
def usable (dict : Dict) (node : BitVec 8) (com map : BitVec 16) : Bool :=
  ((dict.get (sub com 0)).isSome || (dict.get (sub map 0)).isSome) && mappingCount dict map != 0 &&
    match cobOf dict node com with
    | some w => !w.msb
    | none => false

/-- what an identifier word says about the frames of a PDO: bits 0-28 are the identifier, bit 29 the format, bit 30 forbids requests -/
def FrameOf (w : BitVec 32) (fromDevice : Bool) (f : Frame) : Prop :=
  f.id.toNat = w.toNat % 2 ^ 29 ∧ f.isExtended = w.getLsbD 29 ∧ f.isRtr = (fromDevice && !w.getLsbD 30) ∧ f.isError = false

end Verif.Spec
