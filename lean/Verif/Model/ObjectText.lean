import Verif.Model.Storage

/-!
# Objects as text
canopen_master/src/objdict.cpp:428-480 (`getStringReader`, `getStringWriter`) and the two services built on them,
canopen_chain_node/src/ros_chain.cpp:249-279
-/

namespace Verif.OD
open Verif

/-- `ObjectStorage::DataType<dt>::type` with `branch_type` (canopen_master/include/canopen_master/objdict.h:542-583); `none`: `std::bad_cast` -/
def typeOf (dt : BitVec 16) : Option Ty :=
  match dt.toNat with
  | 0x02 => some (.int .i8)
  | 0x03 => some (.int .i16)
  | 0x04 => some (.int .i32)
  | 0x15 => some (.int .i64)
  | 0x05 => some (.int .u8)
  | 0x06 => some (.int .u16)
  | 0x07 => some (.int .u32)
  | 0x1b => some (.int .u64)
  | 0x08 => some .real32
  | 0x10 => some .real64
  | 0x09 => some .string
  | 0x0a => some .string
  | 0x0b => some .string
  | 0x0f => some .string
  | _ => none

/-- `sstr << value` for `float`, `double` (canopen_master/src/objdict.cpp:430); library behaviour, kept as a parameter -/
structure RealPrinter where
  real32 : List Byte → Text
  real64 : List Byte → Text

/-- the number with the given object representation (canopen_master/include/canopen_master/objdict.h:304) -/
def leNat (bs : List Byte) : Nat := bs.foldr (fun b a => b.toNat + 256 * a) 0

/-- `sstr << value` for an integer of at least 16 bits (canopen_master/src/objdict.cpp:430) -/
def intText (t : IntTy) (bs : List Byte) : Text :=
  let v := BitVec.ofNat t.width (leNat bs)
  (toString (if t.signed then v.toInt else (v.toNat : Int))).toList

/-- bytes of a `std::string` as characters (canopen_master/src/objdict.cpp:430) -/
def byteText (bs : List Byte) : Text := bs.map fun b => Char.ofNat b.toNat

/-- canopen_master/src/objdict.cpp:428-438 `formatValue<dt>`.  The specialisations for DOMAIN and OCTET_STRING are for `std::string` and are
never chosen, the values are of type `String`.  An integer of one byte is a character for the stream.  A `String` is converted to
`const char*` by `&at(0)` (canopen_master/include/canopen_master/objdict.h:48-50), which throws if it is empty, and is printed up to the first
zero; without a zero the stream reads beyond the end. -/
def formatValue (rp : RealPrinter) : Ty → List Byte → Outcome Err Text
  | .int t, bs => if t.size = 1 then .ok (byteText bs) else .ok (intText t bs)
  | .real32, bs => .ok (rp.real32 bs)
  | .real64, bs => .ok (rp.real64 bs)
  | .string, bs =>
    if bs = [] then .throws .outOfRange
    else if 0#8 ∈ bs then .ok (byteText (bs.takeWhile (· ≠ 0#8)))
    else .ub
  | .offset _, _ => .throws .badCast

section
variable {W : Type} (bus : Bus W)

/-- canopen_master/src/objdict.cpp:440-453 `getStringReader(key, cached)()` -/
def Storage.readText (rp : RealPrinter) (mem : Mem) (s : Storage) (c : Ctx W) (k : Key) (cached : Bool) : Storage × Ctx W × Outcome Err Text :=
  match s.dict.get k with
  | none => (s, c, .throws .outOfRange)
  | some e =>
    match typeOf e.dataType with
    | none => (s, c, .throws .badCast)
    | some ty =>
      let o := s.entry mem k ty
      match o.2 with
      | .throws x => (o.1, c, .throws x)
      | .ub => (o.1, c, .ub)
      | .ok d =>
        let r := d.get bus cached c
        match r.2.2 with
        | .throws x => (o.1.put k r.1, r.2.1, .throws x)
        | .ub => (o.1.put k r.1, r.2.1, .ub)
        | .ok v => (o.1.put k r.1, r.2.1, formatValue rp ty v)

/-- `any.get<T>()` (canopen_master/include/canopen_master/objdict.h:86-93, canopen_master/src/objdict.cpp:15-17): object representation of
the value, for a `String` its contents -/
def HoldAny.get (mem : Mem) (ty : Ty) (h : HoldAny) : Outcome Err (List Byte) :=
  if ty = .string then .ok (h.getString mem)
  else if h.type = some ty then h.data mem
  else .throws .badCast

/-- canopen_master/src/objdict.cpp:455-480 `getStringWriter(key, cached)(value)`.  The result of `Entry::set_cached`, which is false if the
write failed (canopen_master/include/canopen_master/objdict.h:424-432), is dropped (line 463). -/
def Storage.writeText (rp : RealParser) (mem : Mem) (s : Storage) (c : Ctx W) (k : Key) (cached : Bool) (value : Text) :
    Storage × Ctx W × Outcome Err Unit :=
  match s.dict.get k with
  | none => (s, c, .throws .outOfRange)
  | some e =>
    match typeOf e.dataType with
    | none => (s, c, .throws .badCast)
    | some ty =>
      let o := s.entry mem k ty
      match o.2 with
      | .throws x => (o.1, c, .throws x)
      | .ub => (o.1, c, .ub)
      | .ok d =>
        match readValue rp e.dataType (some value) with
        | .throws x => (o.1, c, .throws x)
        | .ub => (o.1, c, .ub)
        | .ok any =>
          match any.get mem ty with
          | .throws x => (o.1, c, .throws x)
          | .ub => (o.1, c, .ub)
          | .ok v =>
            if cached then
              let r := d.setCached bus v c
              (o.1.put k r.1, r.2.1, match r.2.2 with | .ub => .ub | _ => .ok ())
            else
              let r := d.set bus v c
              (o.1.put k r.1, r.2.1, r.2.2)

end

/-- Nodes by name, `nodes_lookup_` (canopen_chain_node/include/canopen_chain_node/ros_chain.h:149); only their storages matter here -/
abbrev Nodes := List (Text × Storage)

/-- `find` (canopen_chain_node/src/ros_chain.cpp:251, 267) -/
def Nodes.find (ns : Nodes) (name : Text) : Option Storage := (List.find? (fun p => p.1 = name) ns).map (·.2)

/-- the storage of a node after a service worked on it (canopen_chain_node/src/ros_chain.cpp:256, 272) -/
def Nodes.update (ns : Nodes) (name : Text) (s : Storage) : Nodes := ns.map fun p => if p.1 = name then (name, s) else p

/-- `GetObject::Response`, `SetObject::Response` (canopen_chain_node/srv/GetObject.srv, SetObject.srv; canopen_chain_node/src/ros_chain.cpp:249-279) -/
structure Answer where
  success : Bool
  message : Text
  value : Text
  deriving DecidableEq, Repr

/-- canopen_chain_node/src/ros_chain.cpp:249-263 `handle_get_object`; `info` is the text made of an exception (260), `none` undefined behaviour -/
def getObject {W : Type} (bus : Text → Bus W) (rp : RealPrinter) (info : Err → Text) (mem : Mem) (ns : Nodes) (c : Ctx W)
    (node object : Text) (cached : Bool) : Nodes × Ctx W × Option Answer :=
  match ns.find node with
  | none => (ns, c, some ⟨false, "node not found".toList, []⟩)
  | some s =>
    let r := s.readText (bus node) rp mem c (Key.fromText object) cached
    (ns.update node r.1, r.2.1,
      match r.2.2 with
      | .ok v => some ⟨true, [], v⟩
      | .throws e => some ⟨false, info e, []⟩
      | .ub => none)

/-- canopen_chain_node/src/ros_chain.cpp:265-279 `handle_set_object` -/
def setObject {W : Type} (bus : Text → Bus W) (rp : RealParser) (info : Err → Text) (mem : Mem) (ns : Nodes) (c : Ctx W)
    (node object : Text) (value : Text) (cached : Bool) : Nodes × Ctx W × Option Answer :=
  match ns.find node with
  | none => (ns, c, some ⟨false, "node not found".toList, []⟩)
  | some s =>
    let r := s.writeText (bus node) rp mem c (Key.fromText object) cached value
    (ns.update node r.1, r.2.1,
      match r.2.2 with
      | .ok _ => some ⟨true, [], []⟩
      | .throws e => some ⟨false, info e, []⟩
      | .ub => none)

end Verif.OD
