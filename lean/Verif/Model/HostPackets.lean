import Verif.Model.Packets
/-!
The parsers of responses and notifications generated from `/repo/src/uci_packets.pdl` on the host
side (`ControlPacket::decode_full` followed by `specialize`). Not used by the emulator. The Python
library checked in at `py/pica/pica/packets/uci.py` differs from them; it is in `Model/PyUci.lean`.
-/

namespace Pica
open Codec

/-- `..Rsp::decode` for the responses the emulator sends; group, opcode and payload of a packet
whose message type is RESPONSE. -/
def Rsp.parse (gid : GroupId) (p : Bytes) : Option Rsp :=
  match gid with
  | .core => (decodeOid CoreOpcodeId p).bind fun (oid, q) =>
    match oid with
    | .deviceReset => (status.decFull q).map .coreDeviceReset
    | .getDeviceInfo =>
      (deviceInfoCodec.decFull q).map (fun (s, a, b, c, d, v) => .coreGetDeviceInfo s a b c d v)
    | .getCapsInfo => ((seq status (counted8 Pdl.capTlv)).decFull q).map (fun (s, t) => .coreGetCapsInfo s t)
    | .setConfig =>
      ((seq status (counted8 Pdl.configParameterStatus)).decFull q).map (fun (s, t) => .coreSetConfig s t)
    | .getConfig =>
      ((seq status (counted8 Pdl.configParameter)).decFull q).map (fun (s, t) => .coreGetConfig s t)
    | _ => none
  | .sessionConfig => (decodeOid SessionConfigOpcodeId p).bind fun (oid, q) =>
    match oid with
    | .init => (status.decFull q).map .sessionInit
    | .deinit => (status.decFull q).map .sessionDeinit
    | .setAppConfig =>
      ((seq status (counted8 Pdl.appConfigStatus)).decFull q).map (fun (s, t) => .sessionSetAppConfig s t)
    | .getAppConfig =>
      ((seq status (counted8 Pdl.appConfigTlv)).decFull q).map (fun (s, t) => .sessionGetAppConfig s t)
    | .getCount => ((seq status u8).decFull q).map (fun (s, t) => .sessionGetCount s t)
    | .getState => ((seq status (enum SessionState)).decFull q).map (fun (s, t) => .sessionGetState s t)
    | .updateControllerMulticastList =>
      ((seq status (counted8 Pdl.controleeStatus)).decFull q).map (fun (s, t) => .sessionUpdateMulticast s t)
    | _ => none
  | .sessionControl => (decodeOid SessionControlOpcodeId p).bind fun (oid, q) =>
    match oid with
    | .start => (status.decFull q).map .sessionStart
    | .stop => (status.decFull q).map .sessionStop
    | .getRangingCount => ((seq status u32).decFull q).map (fun (s, t) => .sessionGetRangingCount s t)
    | _ => none
  | .vendorAndroid => (decodeOid AndroidOpcodeId p).bind fun (oid, q) =>
    match oid with
    | .getPowerStats => (Pdl.powerStats.decFull q).map .androidGetPowerStats
    | .setCountryCode => (status.decFull q).map .androidSetCountryCode
    | _ => none
  | _ => none

/-- `..Ntf::decode` for the notifications the emulator sends. SESSION_INFO_NTF is decoded when it
holds two way measurements of short address peers. -/
def Ntf.parse (gid : GroupId) (p : Bytes) : Option Ntf :=
  match gid with
  | .core => (decodeOid CoreOpcodeId p).bind fun (oid, q) =>
    match oid with
    | .deviceStatus => ((enum DeviceState).decFull q).map .coreDeviceStatus
    | _ => none
  | .sessionConfig => (decodeOid SessionConfigOpcodeId p).bind fun (oid, q) =>
    match oid with
    | .status => ((seq u32 (seq (enum SessionState) u8)).decFull q).map (fun (t, s, r) => .sessionStatus t s r)
    | .updateControllerMulticastList =>
      ((seq u32 (counted8 Pdl.controleeStatus)).decFull q).map (fun (t, c) => .sessionUpdateMulticast t c)
    | _ => none
  | .sessionControl => (decodeOid SessionControlOpcodeId p).bind fun (oid, q) =>
    match oid with
    | .start => (sessionInfoCodec.decFull q).bind (fun (n, t, r, i, mt, _, ind, _, m, v) =>
        if mt = .twoWay ∧ ind = .shortAddress then some (.sessionInfo n t r i m v) else none)
    | .dataCredit => ((seq u32 (enum CreditAvailability)).decFull q).map (fun (t, a) => .sessionDataCredit t a)
    | .dataTransferStatus =>
      ((seq u32 (seq u8 (seq (enum DataTransferNtfStatusCode) u8))).decFull q).map
        (fun (t, n, s, c) => .sessionDataTransferStatus t n s c)
    | _ => none
  | _ => none

/-- A message received by a host. -/
inductive HostMessage where
  | rsp (r : Rsp)
  | ntf (n : Ntf)
  deriving DecidableEq

/-- The host's parser of control packets. -/
def HostMessage.parse (bytes : Bytes) : Option HostMessage :=
  (ControlPacket.decode bytes).bind fun p =>
    match p.mt with
    | .response => (Rsp.parse p.gid p.payload).map .rsp
    | .notification => (Ntf.parse p.gid p.payload).map .ntf
    | _ => none

/-- `DataPacket::decode_full` and `DataMessageRcv::decode` on the host side. -/
def DataMessageRcv.parse (bytes : Bytes) : Option DataMessageRcv :=
  (DataPacket.decode bytes).bind fun p =>
    if p.dpf = .dataRcv ∧ p.mt = .data then Pdl.dataMessageRcv.decFull p.payload else none

end Pica
