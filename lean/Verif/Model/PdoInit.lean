import Verif.Model.Pdo
import Verif.Model.Storage

/-!
# Setting up PDOs
canopen_master/src/pdo.cpp:39-253, canopen_master/include/canopen_master/canopen.h:92-146

The functions run under the mutex of the mapper (canopen_master/src/pdo.cpp:176), one after the other, so they are modelled as sequential
programs over one state: the object storage, the record of delegate calls, the device, and the heap of PDO buffers.  The delegates
installed by `parse_and_set_mapping` hold raw pointers to buffers (canopen_master/src/pdo.cpp:132, 136); a delegate is `.pdo n` for buffer
number `n`, numbers are never reused, and calling a delegate whose buffer was destroyed raises the flag `bad` (undefined behaviour).
`assert`s are taken as compiled out.
-/

namespace Verif.PdoInit
open Verif Verif.OD Verif.Pdo

/-- The device behind the SDO client: arbitrary reaction to reads and writes (canopen_master/include/canopen_master/canopen.h:62-65). -/
structure Dev (D : Type) where
  read : Entry → List Byte → D → D × List Byte × Option Nat
  write : Entry → List Byte → D → D × Option Nat

/-- the world of the delegates: device, heap of buffers (`none`: not allocated or destroyed), next number, and whether a destroyed buffer
was used (canopen_master/src/pdo.cpp:124, 132, 136) -/
structure PW (D : Type) where
  dev : D
  heap : Nat → Option Buffer
  next : Nat
  bad : Bool

variable {D : Type}

/-- change of one buffer (canopen_master/src/pdo.cpp:340-383) -/
def PW.setBuf (w : PW D) (n : Nat) (b : Option Buffer) : PW D := { w with heap := fun m => if m = n then b else w.heap m }

/-- numbers for the exceptions of canopen_master/src/pdo.cpp:365, 368, 378 -/
def errCode : BErr → Nat
  | .badCast => 1000
  | .timeout => 1001

/-- a call of the read delegate bound at canopen_master/src/pdo.cpp:132, or of the SDO client -/
def busRead (dv : Dev D) (d : Dlg) (e : Entry) (data : List Byte) (w : PW D) : PW D × List Byte × Option Nat :=
  match d with
  | .dev => let r := dv.read e data w.dev; ({ w with dev := r.1 }, r.2.1, r.2.2)
  | .pdo n =>
    match w.heap n with
    | none => ({ w with bad := true }, data, none)
    | some b =>
      match b.readEntry data with
      | .ok (b', data') => (w.setBuf n (some b'), data', none)
      | .throws x => (w, data, some (errCode x))
      | .ub => ({ w with bad := true }, data, none)

/-- a call of the write delegate bound at canopen_master/src/pdo.cpp:136, or of the SDO client -/
def busWrite (dv : Dev D) (d : Dlg) (e : Entry) (data : List Byte) (w : PW D) : PW D × Option Nat :=
  match d with
  | .dev => let r := dv.write e data w.dev; ({ w with dev := r.1 }, r.2)
  | .pdo n =>
    match w.heap n with
    | none => ({ w with bad := true }, none)
    | some b =>
      match b.writeEntry data with
      | .ok b' => (w.setBuf n (some b'), none)
      | .throws x => (w, some (errCode x))
      | .ub => ({ w with bad := true }, none)

/-- both kinds of delegates (canopen_master/src/pdo.cpp:132-137) -/
def pdoBus (dv : Dev D) : Bus (PW D) := { read := busRead dv, write := busWrite dv }

/-- a PDO that was set up (canopen_master/include/canopen_master/canopen.h:92-98): its communication parameter, frame, transmission type and
the numbers of its buffers -/
structure Rec where
  com : BitVec 16
  frame : Frame
  type : Byte
  bufs : List Nat

/-- everything the set-up works on: storage, delegate calls with the world, and the members `rpdos_`, `tpdos_`
(canopen_master/include/canopen_master/canopen.h:136-137; sets of pointers, here in the order of insertion) -/
structure Env (D : Type) where
  s : Storage
  c : Ctx (PW D)
  rpdos : List Rec
  tpdos : List Rec

/-- a piece of sequential code that may throw (canopen_master/src/pdo.cpp:86-253) -/
def Act (D α : Type) : Type := Env D → Env D × Outcome Err α

/-- sequencing; an exception leaves the rest out (canopen_master/src/pdo.cpp:86-253) -/
def Act.andThen {α β : Type} (m : Act D α) (f : α → Act D β) : Act D β := fun e =>
  match m e with
  | (e', .ok a) => f a e'
  | (e', .throws x) => (e', .throws x)
  | (e', .ub) => (e', .ub)

/-- statements one after the other (canopen_master/src/pdo.cpp:86-253) -/
instance : Monad (Act D) where
  pure a := fun e => (e, .ok a)
  bind := Act.andThen

/-- a result that does not depend on the state (canopen_master/src/pdo.cpp:96, 149, 166, 218) -/
def lift {α : Type} (o : Outcome Err α) : Act D α := fun e => (e, o)

/-- an `if` without `else` (canopen_master/src/pdo.cpp:112, 160) -/
def onlyIf (b : Bool) (m : Act D Unit) : Act D Unit := if b then m else pure ()

/-- `dict(index, sub)` (canopen_master/include/canopen_master/objdict.h:194-196): throws `std::out_of_range` -/
def dictAt (i : BitVec 16) (sub : BitVec 8) : Act D Entry := fun e =>
  match e.s.dict.get (Key.ofSub i sub) with
  | some x => (e, .ok x)
  | none => (e, .throws .outOfRange)

/-- `storage->entry(handle, index, sub)` (canopen_master/include/canopen_master/objdict.h:513-515) -/
def openEntry (mem : Mem) (k : Key) (ty : Ty) : Act D Unit := fun e =>
  let r := e.s.entry mem k ty
  ({ e with s := r.1 }, match r.2 with | .ok _ => .ok () | .throws x => .throws x | .ub => .ub)

/-- `handle.desc()` (canopen_master/include/canopen_master/objdict.h:451-453); only used with handles opened before -/
def descOf (k : Key) : Act D Entry := fun e =>
  match e.s.data k with
  | some d => (e, .ok d.entry)
  | none => (e, .ub)

/-- `handle.set(value)` (canopen_master/include/canopen_master/objdict.h:420-423); only used with handles opened before -/
def setEntry (dv : Dev D) (k : Key) (v : List Byte) : Act D Unit := fun e =>
  match e.s.data k with
  | some d => let r := d.set (pdoBus dv) v e.c; ({ e with s := e.s.put k r.1, c := r.2.1 }, r.2.2)
  | none => (e, .ub)

/-- `handle.get()`, `handle.get_cached()` (canopen_master/include/canopen_master/objdict.h:394-411); only used with handles opened before -/
def getEntry (dv : Dev D) (k : Key) (cached : Bool) : Act D (List Byte) := fun e =>
  match e.s.data k with
  | some d => let r := d.get (pdoBus dv) cached e.c; ({ e with s := e.s.put k r.1, c := r.2.1 }, r.2.2)
  | none => (e, .ub)

/-- `storage->init(key)` (canopen_master/src/objdict.cpp:408-411) -/
def initEntry (dv : Dev D) (mem : Mem) (k : Key) : Act D Unit := fun e =>
  let r := e.s.init (pdoBus dv) mem k e.c
  ({ e with s := r.1, c := r.2.1 }, r.2.2)

/-- `storage->map(index, sub, rd, wd)` (canopen_master/src/objdict.cpp:368-383) -/
def mapEntry (dv : Dev D) (mem : Mem) (i : BitVec 16) (sub : BitVec 8) (r w : Option Nat) : Act D Nat := fun e =>
  let x := e.s.map (pdoBus dv) mem i sub r w e.c
  ({ e with s := x.1, c := x.2.1 }, x.2.2)

/-- `std::make_shared<Buffer>(size)` (canopen_master/src/pdo.cpp:124) -/
def newBuf (size : Nat) : Act D Nat := fun e =>
  let w := e.c.w
  ({ e with c := { e.c with w := { (w.setBuf w.next (some (Buffer.new size))) with next := w.next + 1 } } }, .ok w.next)

/-- `b->clean()` (canopen_master/src/pdo.cpp:144) -/
def cleanBuf (n : Nat) : Act D Unit := fun e =>
  ({ e with c := { e.c with w := e.c.w.setBuf n ((e.c.w.heap n).map Buffer.clean) } }, .ok ())

/-- destruction of the buffers of a PDO when its last pointer goes (canopen_master/include/canopen_master/canopen.h:97, 106, 122) -/
def freeBufs (ns : List Nat) (e : Env D) : Env D :=
  { e with c := { e.c with w := { e.c.w with heap := fun m => if m ∈ ns then none else e.c.w.heap m } } }

/-- little-endian value of an object representation (used through canopen_master/include/canopen_master/objdict.h:304) -/
def leValue : List Byte → Nat
  | [] => 0
  | b :: bs => b.toNat + 256 * leValue bs

/-- bytes of a `uint32_t` (canopen_master/src/pdo.cpp:109, 121, 166) -/
def bytes32 (v : BitVec 32) : List Byte := leBytes 4 v

/-- a `uint32_t` from its bytes (canopen_master/src/pdo.cpp:109, 123) -/
def word32 (b : List Byte) : BitVec 32 := BitVec.ofNat 32 (leValue b)

/-- key of a sub-object (canopen_master/include/canopen_master/objdict.h:127) -/
abbrev sub (i : BitVec 16) (s : Nat) : Key := Key.ofSub i (BitVec.ofNat 8 s)

/-- `!dict(index, sub).init_val.is_empty()`, false if there is no such entry (canopen_master/src/pdo.cpp:56-62, 73-79) -/
def hasInit (dict : Dict) (i : BitVec 16) (s : Nat) : Bool :=
  match dict.get (sub i s) with
  | some e => !e.initVal.isEmpty
  | none => false

/-- canopen_master/src/pdo.cpp:51-65 `check_com_changed` -/
def comChanged (dict : Dict) (i : BitVec 16) : Bool := (List.range 7).any fun s => hasInit dict i s

/-- canopen_master/src/pdo.cpp:67-85 `check_map_changed` -/
def mapChanged (num : Nat) (i : BitVec 16) : Act D Bool := fun e =>
  if num ≤ 0x40 then (e, .ok ((List.range' 1 num).any fun s => hasInit e.s.dict i s))
  else match e.s.dict.get (sub i 0) with
    | some x => (e, .ok x.initVal.isEmpty)
    | none => (e, .throws .outOfRange)

/-- canopen_master/src/pdo.cpp:93-99: the number of mapped objects; any exception counts as 0 -/
def mapNum (e : Entry) : Nat :=
  match e.value.getInt .u8 with
  | .ok v => v.toNat
  | _ => 0

/-- canopen_master/src/pdo.cpp:120-121 -/
def setConfigured (dv : Dev D) (k : Key) (init : HoldAny) : Act D Unit :=
  match init with
  | .val _ => do
    let v ← lift (init.getInt .u32)
    setEntry dv k (bytes32 v)
  | _ => pure ()

/-- canopen_master/src/pdo.cpp:125-140: delegates for one mapped object.  (If neither `read` nor `write` is set nothing happens; both
callers set one of them, 216, 241.) -/
def mapOne (dv : Dev D) (mem : Mem) (p : PdoMap) (n : Nat) (read write : Bool) : Act D Unit :=
  if p.index.toNat < 0x1000 then pure ()
  else if read || write then do
    let _ ← mapEntry dv mem p.index p.subIndex (if read then some n else none) (some n)
    pure ()
  else pure ()

/-- canopen_master/src/pdo.cpp:117-146: the loop over the mapping entries `subs`; the result is the length of the frame (an `unsigned char`)
and the buffers -/
def mapLoop (dv : Dev D) (mem : Mem) (map : BitVec 16) (read write : Bool) : List Nat → Byte → List Nat → Act D (Byte × List Nat)
  | [], dlc, bufs => pure (dlc, bufs)
  | s :: ss, dlc, bufs => do
    openEntry mem (sub map s) (.int .u32)
    let x ← dictAt map (BitVec.ofNat 8 s)
    setConfigured dv (sub map s) x.initVal
    let v ← getEntry dv (sub map s) true
    let p := PdoMap.ofWord (word32 v)
    let n ← newBuf (p.length.toNat / 8)
    mapOne dv mem p n read write
    cleanBuf n
    mapLoop dv mem map read write ss (dlc + BitVec.ofNat 8 (p.length.toNat / 8)) (bufs ++ [n])

/-- canopen_master/src/pdo.cpp:150-158: the loop over the communication parameters -/
def comLoop (dv : Dev D) (mem : Mem) (com : BitVec 16) : List Nat → Act D Unit
  | [] => pure ()
  | s :: ss => fun e =>
    if s = 1 ∨ s = 4 then comLoop dv mem com ss e
    else match initEntry dv mem (sub com s) e with
      | (e', .throws .outOfRange) => comLoop dv mem com ss e'
      | (e', .ok _) => comLoop dv mem com ss e'
      | (e', .throws x) => (e', .throws x)
      | (e', .ub) => (e', .ub)

/-- canopen_master/src/pdo.cpp:103-110: disabling the PDO -/
def disable (dv : Dev D) (mem : Mem) (com : BitVec 16) (changed : Bool) : Act D Unit := do
  openEntry mem (sub com 1) (.int .u32)
  let x ← descOf (sub com 1)
  if changed && x.writable then do
    let v ← getEntry dv (sub com 1) false
    setEntry dv (sub com 1) (bytes32 (word32 v ||| 0x80000000#32))
  else pure ()

/-- canopen_master/src/pdo.cpp:111-147: the actual mapping -/
def setMapping (dv : Dev D) (mem : Mem) (map : BitVec 16) (read write : Bool) (num : Nat) (changed : Bool) : Act D (Byte × List Nat) :=
  if 0 < num ∧ num ≤ 0x40 then do
    onlyIf changed (setEntry dv (sub map 0) [0#8])
    mapLoop dv mem map read write (List.range' 1 num) 0 []
  else pure (0, [])

/-- canopen_master/src/pdo.cpp:148-159: communication parameters.  With 255 sub-objects the loop over a `uint8_t` never ends; this is
rendered as `ub`. -/
def setCom (dv : Dev D) (mem : Mem) (com : BitVec 16) (changed : Bool) : Act D Unit :=
  if changed then do
    let x ← dictAt com 0
    let subs ← lift (x.value.getInt .u8)
    if subs.toNat = 255 then lift .ub else comLoop dv mem com (List.range' 1 subs.toNat)
  else pure ()

/-- canopen_master/src/pdo.cpp:160-167: number of entries and identifier -/
def enable (dv : Dev D) (mem : Mem) (com map : BitVec 16) (num : Nat) (mapCh comCh : Bool) : Act D Unit := do
  onlyIf mapCh (setEntry dv (sub map 0) [BitVec.ofNat 8 num])
  let x ← descOf (sub com 1)
  if (comCh || mapCh) && x.writable then do
    initEntry dv mem (sub com 1)
    let y ← dictAt com 1
    let v ← fun e => (e, applyOffset .u32 y.value e.s.nodeId)
    setEntry dv (sub com 1) (bytes32 v)
  else pure ()

/-- canopen_master/src/pdo.cpp:86-170 `parse_and_set_mapping`: length and buffers -/
def parseAndSet (dv : Dev D) (mem : Mem) (com map : BitVec 16) (read write : Bool) : Act D (Byte × List Nat) := do
  openEntry mem (sub map 0) (.int .u8)
  let x ← descOf (sub map 0)
  let num := mapNum x
  let mapCh ← mapChanged num map
  let dict ← fun e => (e, .ok e.s.dict)
  let comCh := comChanged dict map
  disable dv mem com (mapCh || comCh)
  let r ← setMapping dv mem map read write num mapCh
  setCom dv mem com comCh
  enable dv mem com map num mapCh comCh
  pure r

/-- the identifier word of a PDO (canopen_master/src/pdo.cpp:218, 238) -/
def cobWord (com : BitVec 16) : Act D (BitVec 32) := do
  let y ← dictAt com 1
  fun e => (e, applyOffset .u32 y.value e.s.nodeId)

/-- canopen_master/src/pdo.cpp:212-231 `RPDO::init`; `none` is `false`.  The frame assigned at 224 has no payload and length 0. -/
def rpdoInit (dv : Dev D) (mem : Mem) (junk : Vector Byte 8) (com map : BitVec 16) : Act D (Option Rec) := do
  let r ← parseAndSet dv mem com map true false
  let w ← cobWord com
  if r.2.isEmpty || (PdoId.mk w).isInvalid then pure none
  else do
    let y ← dictAt com 2
    let t ← lift (y.value.getInt .u8)
    pure (some { com := com, frame := Frame.ofHeader junk ((PdoId.mk w).header true), type := t, bufs := r.2 })

/-- canopen_master/src/pdo.cpp:249-251: synchronous types other than 1 are set to 1 on the device -/
def enforceType (dv : Dev D) (com : BitVec 16) (t : BitVec 8) : Act D Unit :=
  if t ≠ 1#8 ∧ t.toNat ≤ 240 then setEntry dv (sub com 2) [1#8] else pure ()

/-- canopen_master/src/pdo.cpp:233-253 `TPDO::init`; `none` is `false` -/
def tpdoInit (dv : Dev D) (mem : Mem) (junk : Vector Byte 8) (com map : BitVec 16) : Act D (Option Rec) := do
  let w ← cobWord com
  let r ← parseAndSet dv mem com map false true
  if r.2.isEmpty || (PdoId.mk w).isInvalid then pure none
  else do
    openEntry mem (sub com 2) (.int .u8)
    let y ← descOf (sub com 2)
    let t ← lift (y.value.getInt .u8)
    enforceType dv com t
    let f := Frame.ofHeader junk ((PdoId.mk w).header false)
    pure (some { com := com, frame := { f with dlc := r.1 }, type := t, bufs := r.2 })

/-- canopen_master/include/canopen_master/canopen.h:103-108, 119-124 `create`: unless the PDO is kept, its buffers are destroyed with it -/
def create (init : Act D (Option Rec)) : Act D (Option Rec) := fun e =>
  let r := init e
  let new := List.range' e.c.w.next (r.1.c.w.next - e.c.w.next)
  match r.2 with
  | .ok (some x) => (r.1, .ok (some x))
  | o => (freeBufs new r.1, o)

/-- `dict.has(com,0)` or `dict.has(map,0)` (canopen_master/src/pdo.cpp:183, 194) -/
def present (dict : Dict) (com map : BitVec 16) : Bool := (dict.get (sub com 0)).isSome || (dict.get (sub map 0)).isSome

/-- canopen_master/src/pdo.cpp:182-189: the loop over the PDOs the device sends -/
def rpdoLoop (dv : Dev D) (mem : Mem) (junk : Vector Byte 8) (nr : Nat) : List Nat → Act D Unit
  | [] => pure ()
  | i :: is => fun e =>
    let com := 0x1800#16 + BitVec.ofNat 16 i
    let map := 0x1A00#16 + BitVec.ofNat 16 i
    if e.rpdos.length < nr then
      if !present e.s.dict com map then rpdoLoop dv mem junk nr is e
      else match create (rpdoInit dv mem junk com map) e with
        | (e', .ok (some x)) => rpdoLoop dv mem junk nr is { e' with rpdos := e'.rpdos ++ [x] }
        | (e', .ok none) => rpdoLoop dv mem junk nr is e'
        | (e', .throws x) => (e', .throws x)
        | (e', .ub) => (e', .ub)
    else (e, .ok ())

/-- canopen_master/src/pdo.cpp:193-200: the loop over the PDOs the device receives -/
def tpdoLoop (dv : Dev D) (mem : Mem) (junk : Vector Byte 8) (nr : Nat) : List Nat → Act D Unit
  | [] => pure ()
  | i :: is => fun e =>
    let com := 0x1400#16 + BitVec.ofNat 16 i
    let map := 0x1600#16 + BitVec.ofNat 16 i
    if e.tpdos.length < nr then
      if !present e.s.dict com map then tpdoLoop dv mem junk nr is e
      else match create (tpdoInit dv mem junk com map) e with
        | (e', .ok (some x)) => tpdoLoop dv mem junk nr is { e' with tpdos := e'.tpdos ++ [x] }
        | (e', .ok none) => tpdoLoop dv mem junk nr is e'
        | (e', .throws x) => (e', .throws x)
        | (e', .ub) => (e', .ub)
    else (e, .ok ())

/-- `rpdos_.clear()` (canopen_master/src/pdo.cpp:179) -/
def clearRpdos : Act D Unit := fun e => ({ freeBufs (e.rpdos.flatMap (·.bufs)) e with rpdos := [] }, .ok ())

/-- `tpdos_.clear()` (canopen_master/src/pdo.cpp:192) -/
def clearTpdos : Act D Unit := fun e => ({ freeBufs (e.tpdos.flatMap (·.bufs)) e with tpdos := [] }, .ok ())

/-- canopen_master/src/pdo.cpp:178-204: the body of `PDOMapper::init`; `nrTx`, `nrRx` are the numbers of PDOs of the device information -/
def initBody (dv : Dev D) (mem : Mem) (junk : Vector Byte 8) (nrTx nrRx : Nat) : Act D Unit := do
  clearRpdos
  rpdoLoop dv mem junk nrTx (List.range 512)
  clearTpdos
  tpdoLoop dv mem junk nrRx (List.range 512)

/-- canopen_master/src/pdo.cpp:175-209 `PDOMapper::init`; only `std::out_of_range` is turned into `false` -/
def mapperInit (dv : Dev D) (mem : Mem) (junk : Vector Byte 8) (nrTx nrRx : Nat) : Act D Bool := fun e =>
  match initBody dv mem junk nrTx nrRx e with
  | (e', .ok _) => (e', .ok true)
  | (e', .throws .outOfRange) => (e', .ok false)
  | (e', .throws x) => (e', .throws x)
  | (e', .ub) => (e', .ub)

end Verif.PdoInit
