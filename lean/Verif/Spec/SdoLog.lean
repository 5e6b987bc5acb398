import Verif.Spec.Sdo
import Verif.Spec.Can
import Verif.Model.SdoLog

/-!
# What is expected of the log of SDO transfers
-/

namespace Verif.Spec.Sdo
open Verif Verif.Sdo

/-- the abort codes of CiA 301 (table 22) with the texts shown for them -/
def abortTable : List (BitVec 32 × String) := [
  (0x05030000#32, "Toggle bit not alternated."),
  (0x05040000#32, "SDO protocol timed out."),
  (0x05040001#32, "Client/server command specifier not valid or unknown."),
  (0x05040002#32, "Invalid block size (block mode only)."),
  (0x05040003#32, "Invalid sequence number (block mode only)."),
  (0x05040004#32, "CRC error (block mode only)."),
  (0x05040005#32, "Out of memory."),
  (0x06010000#32, "Unsupported access to an object."),
  (0x06010001#32, "Attempt to read a write only object."),
  (0x06010002#32, "Attempt to write a read only object."),
  (0x06020000#32, "Object does not exist in the object dictionary."),
  (0x06040041#32, "Object cannot be mapped to the PDO."),
  (0x06040042#32, "The number and length of the objects to be mapped would exceed PDO length."),
  (0x06040043#32, "General parameter incompatibility reason."),
  (0x06040047#32, "General internal incompatibility in the device."),
  (0x06060000#32, "Access failed due to an hardware error."),
  (0x06070010#32, "Data type does not match, length of service parameter does not match"),
  (0x06070012#32, "Data type does not match, length of service parameter too high"),
  (0x06070013#32, "Data type does not match, length of service parameter too low"),
  (0x06090011#32, "Sub-index does not exist."),
  (0x06090030#32, "Invalid value for parameter (download only)."),
  (0x06090031#32, "Value of parameter written too high (download only)."),
  (0x06090032#32, "Value of parameter written too low (download only)."),
  (0x06090036#32, "Maximum value is less than minimum value."),
  (0x060A0023#32, "Resource not available: SDO connection"),
  (0x08000000#32, "General error"),
  (0x08000020#32, "Data cannot be transferred or stored to the application."),
  (0x08000021#32, "Data cannot be transferred or stored to the application because of local control."),
  (0x08000022#32, "Data cannot be transferred or stored to the application because of the present device state."),
  (0x08000023#32, "Object dictionary dynamic generation fails or no object dictionary is present (e.g.object dictionary is generated from file and generation fails because of an file error)."),
  (0x08000024#32, "No data available")]

/-- the text for a code: that of the table, or a remark that the code has no meaning -/
def meaning (code : BitVec 32) : Text := ((abortTable.lookup code).getD "Abort code is reserved").toList

/-- `line` tells that the server aborted the access to `o` with `code`: index in hexadecimal, sub-index in decimal -/
def TellsAbort (line : Text) (o : Obj) (code : BitVec 32) : Prop :=
  ∃ h, HexNumeral h o.index.toNat ∧
    line = "canopen_master: abort".toList ++ h ++ '#' :: (toString o.sub.toNat).toList ++ ", reason: ".toList ++ meaning code

/-- the transfer was given up because of a frame -/
def failedLine : Text := "canopen_master: Could not process message".toList

/-- the transfer was given up because nothing was heard for a second -/
def silenceLine : Text := "canopen_master: Did not receive a response message".toList

end Verif.Spec.Sdo
