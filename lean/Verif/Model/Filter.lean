import Verif.Model.Text

/-!
# Frame filters
socketcan_interface/include/socketcan_interface/filter.h and the text syntax in socketcan_interface/src/string.cpp
-/

namespace Verif.Flt

open Verif

/-- The two filter classes socketcan_interface/include/socketcan_interface/filter.h:17-32 (members `mask_`,
`masked_id_`, `invert_`) and 34-47 (`min_id_`, `max_id_`, `invert_`). -/
inductive Filter where
  | mask (mask_ maskedId : BitVec 32) (invert : Bool)
  | range (minId maxId : BitVec 32) (invert : Bool)
  deriving DecidableEq, Repr

/-- socketcan_interface/include/socketcan_interface/filter.h:20 `MASK_RELAXED` -/
def MASK_RELAXED : BitVec 32 := ~~~Header.EXTENDED_MASK

/-- socketcan_interface/include/socketcan_interface/filter.h:21-23 constructor of `FrameMaskFilter` -/
def maskFilter (canId : BitVec 32) (mask : BitVec 32 := MASK_RELAXED) (invert : Bool := false) : Filter :=
  .mask mask (canId &&& mask) invert

/-- socketcan_interface/include/socketcan_interface/filter.h:36-38 constructor of `FrameRangeFilter` -/
def rangeFilter (minId maxId : BitVec 32) (invert : Bool := false) : Filter :=
  .range minId maxId invert

/-- `pass`: socketcan_interface/include/socketcan_interface/filter.h:24-27 and 39-42 -/
def Filter.pass (fl : Filter) (frame : Frame) : Bool :=
  let k := frame.key
  match fl with
  | .mask m maskedId invert => ((m &&& k) == maskedId) != invert
  | .range minId maxId invert => (minId ≤ k && k ≤ maxId) != invert

/-- The lambda of `FilteredFrameListener` (socketcan_interface/include/socketcan_interface/filter.h:55-62) on one
frame: the list of invocations of the user callback. -/
def listenerCalls : List Filter → Frame → List Frame
  | [], _ => []
  | f :: fs, frame => if f.pass frame then [frame] else listenerCalls fs frame

/-- socketcan_interface/include/socketcan_interface/filter.h:55-62 on a sequence of received frames -/
def listenerRun (filters : List Filter) (frames : List Frame) : List Frame :=
  frames.flatMap (listenerCalls filters)

/-- socketcan_interface/src/string.cpp:139-165 `tofilter(const std::string&)`; `s.find_first_of(":~-_")`. -/
def tofilter (s : Text) : Filter :=
  match Txt.splitFirst (fun c => c = ':' || c = '~' || c = '-' || c = '_') s with
  | none => maskFilter (Txt.toheader s).fullid MASK_RELAXED false
  | some (hd, type, rest) =>
    let second := Txt.tohex rest
    let first := (Txt.toheader hd).fullid
    if type = '~' then maskFilter first second true
    else if type = ':' then maskFilter first second false
    else if type = '_' then rangeFilter first second true
    else rangeFilter first second false

/-- socketcan_interface/src/string.cpp:166-168 `tofilter(const uint32_t&)` -/
def tofilterId (id : BitVec 32) : Filter := maskFilter id

end Verif.Flt
