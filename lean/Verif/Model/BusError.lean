import Verif.Model.CanLayer

/-!
# Error frames in the CAN layer
canopen_master/include/canopen_master/can_layer.h:10-109 with the driver of socketcan_interface/include/socketcan_interface/socketcan.h, asio_base.h (`Verif.Drv`)
-/

namespace Verif.BErr
open Verif Verif.Drv Verif.CanL

/-- The driver, frames posted to its strand for which the listeners have not been called (socketcan_interface/include/socketcan_interface/asio_base.h:45-47), whether the
error listener of the layer exists, and the error frame it kept (canopen_master/include/canopen_master/can_layer.h:16-17). -/
structure Sys where
  d : Driver
  strand : List Frame
  listening : Bool
  last : Frame

/-- constructors (canopen_master/include/canopen_master/can_layer.h:26-27, socketcan_interface/include/socketcan_interface/interface.h:76-79); `junk` is uninitialised -/
def Sys.fresh (junk : Vector Byte 8) : Sys :=
  { d := .initial junk, strand := [], listening := false, last := Frame.ofHeader junk Header.default' }

/-- what the threads do: steps of the driver, calls of the listeners for the next frame, and the listener is created or released
(canopen_master/include/canopen_master/can_layer.h:79, 91) -/
inductive Ev where
  | op (o : Op)
  | deliver
  | listen
  | unlisten

/-- canopen_master/include/canopen_master/can_layer.h:18-22 `handleFrame` for the frames with the key of an error header, for which it was registered (79); lines 19, 57: a
mutex makes it one step -/
def Sys.hear (s : Sys) (f : Frame) : Sys :=
  if s.listening && f.key == (Header.err 0#32).key then { s with last := f } else s

/-- one step (canopen_master/include/canopen_master/can_layer.h:18-22, 79, 91, socketcan_interface/include/socketcan_interface/asio_base.h:45-47, 74-82).  Steps whose
effect is undefined are left out. -/
def Sys.step (s : Sys) : Ev → Sys
  | .op o =>
    match s.d.step o with
    | .ok d => { s with d := d, strand := s.strand ++ (match o with | .readOk _ => [d.input] | _ => []) }
    | _ => s
  | .deliver =>
    match s.strand with
    | f :: fs => Sys.hear { s with strand := fs } f
    | [] => s
  | .listen => { s with listening := true }
  | .unlisten => { s with listening := false }

/-- a history (canopen_master/include/canopen_master/can_layer.h:18-109) -/
def Sys.run (s : Sys) (es : List Ev) : Sys := es.foldl Sys.step s

/-- the diagnostics of the layer (canopen_master/include/canopen_master/can_layer.h:43-68) -/
def Sys.diag (s : Sys) := CanL.diag s.d.state s.last

end Verif.BErr
