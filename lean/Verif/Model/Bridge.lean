import Verif.Model.Frame

/-!
# ROS bridge
socketcan_bridge: socketcan_to_topic, topic_to_socketcan
-/

namespace Verif.Bridge
open Verif

/-- can_msgs/msg/Frame.msg:1-7 (without the time header, which the bridge sets itself,
socketcan_bridge/src/socketcan_to_topic.cpp:113-114); ROS `bool` is `uint8_t` in C++ -/
structure Msg where
  id : BitVec 32
  isRtr : Byte
  isExtended : Byte
  isError : Byte
  dlc : Byte
  data : Vector Byte 8
  deriving DecidableEq, Repr

/-- bit-field to `uint8_t` (socketcan_bridge/include/socketcan_bridge/socketcan_to_topic.h:63-65) -/
def ofBit (b : Bool) : Byte := if b then 1 else 0
/-- `uint8_t` to a one bit bit-field: the lowest bit (socketcan_bridge/include/socketcan_bridge/topic_to_socketcan.h:57-59) -/
def toBit (x : Byte) : Bool := x.toNat % 2 == 1

/-- socketcan_bridge/include/socketcan_bridge/socketcan_to_topic.h:59-71 `convertSocketCANToMessage` -/
def toMessage (f : Frame) : Msg :=
  { id := f.id.setWidth 32, dlc := f.dlc, isError := ofBit f.isError, isRtr := ofBit f.isRtr,
    isExtended := ofBit f.isExtended, data := f.data }

/-- socketcan_bridge/include/socketcan_bridge/topic_to_socketcan.h:53-65 `convertMessageToSocketCAN` -/
def toSocketCAN (m : Msg) : Frame :=
  { id := m.id.setWidth 29, dlc := m.dlc, isError := toBit m.isError, isRtr := toBit m.isRtr,
    isExtended := toBit m.isExtended, data := m.data }

/-- socketcan_bridge/src/socketcan_to_topic.cpp:90-117 `frameCallback`: the published messages -/
def frameCallback (f : Frame) : List Msg := if !f.isValid then [] else [toMessage f]

/-- socketcan_bridge/src/topic_to_socketcan.cpp:48-74 `msgCallback`: the frames passed to `driver_->send` -/
def msgCallback (m : Msg) : List Frame :=
  let f := toSocketCAN m
  if !f.isValid then [] else [f]

/-- the CAN to ROS direction over a history of received frames (socketcan_bridge/src/socketcan_to_topic.cpp:60-65,90-117) -/
def published (fs : List Frame) : List Msg := fs.flatMap frameCallback

/-- the ROS to CAN direction over a history of messages (socketcan_bridge/src/topic_to_socketcan.cpp:37-38,48-74) -/
def sent (ms : List Msg) : List Frame := ms.flatMap msgCallback

end Verif.Bridge
