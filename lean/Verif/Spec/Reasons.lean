import Verif.Spec.Command
/-! The reasons given in SESSION_STATUS_NTF. -/

namespace Pica.Spec

/-- The reason given for what a command of a host does to a session: ERROR_INVALID_NUM_OF_CONTROLEES (0x33) when the
last controlee is removed, and otherwise STATE_CHANGE_WITH_SESSION_MANAGEMENT_COMMANDS (0x00). -/
def cmdReason : Cmd → UInt8
  | .sessionUpdateMulticast .. => 0x33
  | _ => 0x00

/-- The reason `r` may be given when the emulator processes the command. -/
inductive Reason : Command → UInt8 → Prop
  | disconnect (h : Nat) : Reason (.disconnect h) 0x00
  /-- SESSION_STOPPED_DUE_TO_INBAND_SIGNAL -/
  | inBand (mac : MacAddress) (sid : UInt32) : Reason (.stopRanging mac sid) 0x05
  | command (h : Nat) (bytes : Bytes) (c : Cmd) : IsCmd bytes c → Reason (.uciPacket h bytes) (cmdReason c)

end Pica.Spec
