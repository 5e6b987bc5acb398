import Verif.Model.Sdo
import Verif.Model.Text

/-!
# What an SDO transfer logs
canopen_master/src/sdo.cpp:234-277, 298-434, socketcan_interface/include/socketcan_interface/logging.h:7-9
-/

namespace Verif.Sdo

/-- canopen_master/src/sdo.cpp:241-276 `AbortData::text` -/
def abortText (r : BitVec 32) : Text :=
  if r = 0x05030000#32 then "Toggle bit not alternated.".toList
  else if r = 0x05040000#32 then "SDO protocol timed out.".toList
  else if r = 0x05040001#32 then "Client/server command specifier not valid or unknown.".toList
  else if r = 0x05040002#32 then "Invalid block size (block mode only).".toList
  else if r = 0x05040003#32 then "Invalid sequence number (block mode only).".toList
  else if r = 0x05040004#32 then "CRC error (block mode only).".toList
  else if r = 0x05040005#32 then "Out of memory.".toList
  else if r = 0x06010000#32 then "Unsupported access to an object.".toList
  else if r = 0x06010001#32 then "Attempt to read a write only object.".toList
  else if r = 0x06010002#32 then "Attempt to write a read only object.".toList
  else if r = 0x06020000#32 then "Object does not exist in the object dictionary.".toList
  else if r = 0x06040041#32 then "Object cannot be mapped to the PDO.".toList
  else if r = 0x06040042#32 then "The number and length of the objects to be mapped would exceed PDO length.".toList
  else if r = 0x06040043#32 then "General parameter incompatibility reason.".toList
  else if r = 0x06040047#32 then "General internal incompatibility in the device.".toList
  else if r = 0x06060000#32 then "Access failed due to an hardware error.".toList
  else if r = 0x06070010#32 then "Data type does not match, length of service parameter does not match".toList
  else if r = 0x06070012#32 then "Data type does not match, length of service parameter too high".toList
  else if r = 0x06070013#32 then "Data type does not match, length of service parameter too low".toList
  else if r = 0x06090011#32 then "Sub-index does not exist.".toList
  else if r = 0x06090030#32 then "Invalid value for parameter (download only).".toList
  else if r = 0x06090031#32 then "Value of parameter written too high (download only).".toList
  else if r = 0x06090032#32 then "Value of parameter written too low (download only).".toList
  else if r = 0x06090036#32 then "Maximum value is less than minimum value.".toList
  else if r = 0x060A0023#32 then "Resource not available: SDO connection".toList
  else if r = 0x08000000#32 then "General error".toList
  else if r = 0x08000020#32 then "Data cannot be transferred or stored to the application.".toList
  else if r = 0x08000021#32 then "Data cannot be transferred or stored to the application because of local control.".toList
  else if r = 0x08000022#32 then "Data cannot be transferred or stored to the application because of the present device state.".toList
  else if r = 0x08000023#32 then
    "Object dictionary dynamic generation fails or no object dictionary is present (e.g.object dictionary is generated from file and generation fails because of an file error).".toList
  else if r = 0x08000024#32 then "No data available".toList
  else "Abort code is reserved".toList

/-- `name << ": " << args` of the macro (socketcan_interface/include/socketcan_interface/logging.h:7) for the name "canopen_master" -/
def logLine (t : Text) : Text := "canopen_master: ".toList ++ t

/-- canopen_master/src/sdo.cpp:359, the line for an abort of the server -/
def abortLine (d : Bytes8) : Text :=
  logLine ("abort".toList ++ Txt.ostreamHex true (index d).toNat ++ "#".toList ++ (toString (subIndex d).toNat).toList ++ ", reason: ".toList ++ abortText (reason d))

/-- canopen_master/src/sdo.cpp:352, the line for a segment with too many bytes -/
def mismatchLine (size n : Nat) : Text :=
  logLine ("abort, size mismatch".toList ++ (toString size).toList ++ " ".toList ++ (toString n).toList)

/-- what `processFrame` logs (canopen_master/src/sdo.cpp:298-371) -/
def Client.frameLog (c : Client) (msg : Frame) : List Text :=
  if msg.dlc != 8 then []
  else if command msg.data = 0 then
    match testUploadSegment msg.data c.lastMsg.data with
    | some _ => []
    | none =>
      match c.readSegment msg.data with
      | .ok (c', false) => [mismatchLine c'.buffer.length (segSize msg.data)]
      | _ => []
  else if command msg.data = 4 then [abortLine msg.data]
  else []

/-- what the loop of `transmitAndWait` logs (canopen_master/src/sdo.cpp:416-427) -/
def Client.loopLog (c : Client) : List Frame → List Text
  | [] => if c.done then [] else [logLine "Did not receive a response message".toList]
  | f :: fs =>
    if c.done then []
    else
      match c.processFrame f with
      | .ok (c', true) => c.frameLog f ++ c'.loopLog fs
      | .ok (_, false) => c.frameLog f ++ [logLine "Could not process message".toList]
      | .throws e => nomatch e
      | .ub => c.frameLog f

/-- what `SDOClient::read` (`up`) and `SDOClient::write` log (canopen_master/src/sdo.cpp:398-451); without the mutex nothing -/
def Client.accessLog (c : Client) (locked up : Bool) (key : Obj) (data : List Byte) (frames : List Frame) : List Text :=
  if locked then
    match c.begin key data up with
    | .ok c1 => c1.loopLog frames
    | .throws e => nomatch e
    | .ub => []
  else []

end Verif.Sdo
