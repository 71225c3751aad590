import Verif.Model.Codec
/-!
The packets of `/repo/src/uci_packets.pdl` which the emulator parses or produces, and the parsing
functions generated for them (`decode_full`, `specialize`, `encode_to_vec`).

Packets the emulator neither accepts nor sends (DL-TDoA, OWR-AoA and extended address
notifications, frame reports, `SessionInitRsp_V2`) are left out.
-/

namespace Pica

/-- `struct ConfigParameter`, `src/uci_packets.pdl` 779-783. -/
structure ConfigParameter where
  id : ConfigParameterId
  value : Bytes
  deriving DecidableEq, Repr

/-- `struct ConfigParameterStatus`, `src/uci_packets.pdl` 794-797. -/
structure ConfigParameterStatus where
  id : ConfigParameterId
  status : Status
  deriving DecidableEq, Repr

/-- `struct CapTlv`, `src/uci_packets.pdl` 755-759. -/
structure CapTlv where
  t : CapTlvType
  v : Bytes
  deriving DecidableEq, Repr

/-- `struct AppConfigTlv`, `src/uci_packets.pdl` 913-917. -/
structure AppConfigTlv where
  cfgId : AppConfigTlvType
  v : Bytes
  deriving DecidableEq, Repr

/-- `struct AppConfigStatus`, `src/uci_packets.pdl` 929-932. -/
structure AppConfigStatus where
  cfgId : AppConfigTlvType
  status : Status
  deriving DecidableEq, Repr

/-- `struct Controlee` and its variants with a 16 or 32 byte key, `src/uci_packets.pdl`
1025-1040; `keyLen` is 0, 16 or 32. -/
structure WireControlee (keyLen : Nat) where
  shortAddress : Arr 2
  subsessionId : UInt32
  subsessionKey : Arr keyLen
  deriving DecidableEq, Repr

/-- `struct ControleeStatus`, `src/uci_packets.pdl` 1081-1084. -/
structure ControleeStatus where
  macAddress : Arr 2
  status : MulticastUpdateStatus
  deriving DecidableEq, Repr

/-- `struct ShortAddressTwoWayRangingMeasurement`, `src/uci_packets.pdl` 1151-1172. -/
structure Measurement where
  macAddress : UInt16
  status : Status
  nlos : UInt8
  distance : UInt16
  aoaAzimuth : UInt16
  aoaAzimuthFom : UInt8
  aoaElevation : UInt16
  aoaElevationFom : UInt8
  aoaDestinationAzimuth : UInt16
  aoaDestinationAzimuthFom : UInt8
  aoaDestinationElevation : UInt16
  aoaDestinationElevationFom : UInt8
  slotIndex : UInt8
  rssi : UInt8
  deriving DecidableEq, Repr

/-- `struct PowerStats`, `src/uci_packets.pdl` 1390-1396. -/
structure PowerStats where
  status : Status
  idleTimeMs : UInt32
  txTimeMs : UInt32
  rxTimeMs : UInt32
  totalWakeCount : UInt32
  deriving DecidableEq, Repr

/-- The commands the emulator supports: the match arms of `src/device.rs` 997-1043. -/
inductive Cmd where
  | coreDeviceReset (resetConfig : ResetConfig)
  | coreGetDeviceInfo
  | coreGetCapsInfo
  | coreSetConfig (parameters : List ConfigParameter)
  | coreGetConfig (parameterIds : List ConfigParameterId)
  | sessionInit (sessionId : UInt32) (sessionType : SessionType)
  | sessionDeinit (sessionToken : UInt32)
  | sessionGetCount
  | sessionSetAppConfig (sessionToken : UInt32) (tlvs : List AppConfigTlv)
  | sessionGetAppConfig (sessionToken : UInt32) (appCfg : List AppConfigTlvType)
  | sessionGetState (sessionToken : UInt32)
  | sessionUpdateMulticast (sessionToken : UInt32) (action : UpdateMulticastListAction)
      (payload : Bytes)
  | sessionStart (sessionId : UInt32)
  | sessionStop (sessionId : UInt32)
  | sessionGetRangingCount (sessionId : UInt32)
  | androidGetPowerStats
  | androidSetCountryCode (countryCode : Arr 2)
  deriving DecidableEq, Repr

/-- The responses the emulator sends. -/
inductive Rsp where
  | coreDeviceReset (status : Status)
  | coreGetDeviceInfo (status : Status) (uciVersion macVersion phyVersion testVersion : UInt16)
      (vendorSpecInfo : Bytes)
  | coreGetCapsInfo (status : Status) (tlvs : List CapTlv)
  | coreSetConfig (status : Status) (parameters : List ConfigParameterStatus)
  | coreGetConfig (status : Status) (parameters : List ConfigParameter)
  | sessionInit (status : Status)
  | sessionDeinit (status : Status)
  | sessionGetCount (status : Status) (sessionCount : UInt8)
  | sessionSetAppConfig (status : Status) (cfgStatus : List AppConfigStatus)
  | sessionGetAppConfig (status : Status) (tlvs : List AppConfigTlv)
  | sessionGetState (status : Status) (sessionState : SessionState)
  | sessionUpdateMulticast (status : Status) (controleeStatus : List ControleeStatus)
  | sessionStart (status : Status)
  | sessionStop (status : Status)
  | sessionGetRangingCount (status : Status) (count : UInt32)
  | androidGetPowerStats (stats : PowerStats)
  | androidSetCountryCode (status : Status)
  deriving DecidableEq, Repr

/-- The notifications the emulator sends. -/
inductive Ntf where
  | coreDeviceStatus (deviceState : DeviceState)
  | sessionStatus (sessionToken : UInt32) (sessionState : SessionState) (reasonCode : UInt8)
  | sessionUpdateMulticast (sessionToken : UInt32) (controleeStatus : List ControleeStatus)
  | sessionDataCredit (sessionToken : UInt32) (creditAvailability : CreditAvailability)
  | sessionDataTransferStatus (sessionToken : UInt32) (uciSequenceNumber : UInt8)
      (status : DataTransferNtfStatusCode) (txCount : UInt8)
  | sessionInfo (sequenceNumber sessionToken : UInt32) (rcrIndicator : UInt8)
      (currentRangingInterval : UInt32) (measurements : List Measurement) (vendorData : Bytes)
  deriving DecidableEq, Repr

/-- `packet DataMessageSnd`, `src/uci_packets.pdl` 656-662. -/
structure DataMessageSnd where
  sessionHandle : UInt32
  destinationAddress : UInt64
  dataSequenceNumber : UInt16
  applicationData : Bytes
  deriving DecidableEq, Repr

/-- `packet DataMessageRcv`, `src/uci_packets.pdl` 664-671. -/
structure DataMessageRcv where
  sessionHandle : UInt32
  status : Status
  sourceAddress : UInt64
  dataSequenceNumber : UInt16
  applicationData : Bytes
  deriving DecidableEq, Repr

namespace Pdl
open Codec

/-! ### Payloads -/

def configParameter : Codec ConfigParameter :=
  iso (seq configId bytes8) (fun (a, b) => ⟨a, b⟩) (fun x => (x.id, x.value))
def configParameterStatus : Codec ConfigParameterStatus :=
  iso (seq configId status) (fun (a, b) => ⟨a, b⟩) (fun x => (x.id, x.status))
def capTlv : Codec CapTlv :=
  iso (seq capType bytes8) (fun (a, b) => ⟨a, b⟩) (fun x => (x.t, x.v))
def appConfigTlv : Codec AppConfigTlv :=
  iso (seq tlvType bytes8) (fun (a, b) => ⟨a, b⟩) (fun x => (x.cfgId, x.v))
def appConfigStatus : Codec AppConfigStatus :=
  iso (seq tlvType status) (fun (a, b) => ⟨a, b⟩) (fun x => (x.cfgId, x.status))
def controlee (n : Nat) : Codec (WireControlee n) :=
  iso (seq (arr 2) (seq u32 (arr n))) (fun (a, b, c) => ⟨a, b, c⟩)
    (fun x => (x.shortAddress, x.subsessionId, x.subsessionKey))
/-- `SessionUpdateControllerMulticastListCmdPayload` and its `_2_0_16_Byte_`, `_2_0_32_Byte_`
variants, `src/uci_packets.pdl` 1056-1069. -/
def controleeList (n : Nat) : Codec (List (WireControlee n)) := counted8 (controlee n)
def controleeStatus : Codec ControleeStatus :=
  iso (seq (arr 2) (enum MulticastUpdateStatus)) (fun (a, b) => ⟨a, b⟩)
    (fun x => (x.macAddress, x.status))
def measurement : Codec Measurement :=
  iso (seq u16 (seq status (seq u8 (seq u16 (seq u16 (seq u8 (seq u16 (seq u8 (seq u16 (seq u8
      (seq u16 (seq u8 (seq u8 (seq u8 (seq (reserved 8) (reserved 3))))))))))))))))
    (fun (a, b, c, d, e, f, g, h, i, j, k, l, m, n, _, _) => ⟨a, b, c, d, e, f, g, h, i, j, k, l, m, n⟩)
    (fun x => (x.macAddress, x.status, x.nlos, x.distance, x.aoaAzimuth, x.aoaAzimuthFom,
      x.aoaElevation, x.aoaElevationFom, x.aoaDestinationAzimuth, x.aoaDestinationAzimuthFom,
      x.aoaDestinationElevation, x.aoaDestinationElevationFom, x.slotIndex, x.rssi, (), ()))
def powerStats : Codec PowerStats :=
  iso (seq status (seq u32 (seq u32 (seq u32 u32)))) (fun (a, b, c, d, e) => ⟨a, b, c, d, e⟩)
    (fun x => (x.status, x.idleTimeMs, x.txTimeMs, x.rxTimeMs, x.totalWakeCount))
def dataMessageSnd : Codec DataMessageSnd :=
  iso (seq u32 (seq u64 (seq u16 bytes16))) (fun (a, b, c, d) => ⟨a, b, c, d⟩)
    (fun x => (x.sessionHandle, x.destinationAddress, x.dataSequenceNumber, x.applicationData))
def dataMessageRcv : Codec DataMessageRcv :=
  iso (seq u32 (seq status (seq u64 (seq u16 bytes16)))) (fun (a, b, c, d, e) => ⟨a, b, c, d, e⟩)
    (fun x => (x.sessionHandle, x.status, x.sourceAddress, x.dataSequenceNumber, x.applicationData))

/-! Command payloads, `src/uci_packets.pdl` 703-1408 (the line of each packet is on its definition). -/

/-- `CoreDeviceResetCmd`, 703-705. -/
def coreDeviceResetCmd : Codec ResetConfig := enum ResetConfig
/-- `CoreSetConfigCmd`, 785-788. -/
def coreSetConfigCmd : Codec (List ConfigParameter) := counted8 configParameter
/-- `CoreGetConfigCmd`, 810-813. -/
def coreGetConfigCmd : Codec (List ConfigParameterId) := counted8 configId
/-- `SessionInitCmd`, 856-859. -/
def sessionInitCmd : Codec (UInt32 × SessionType) := seq u32 (enum SessionType)
/-- `SessionSetAppConfigCmd`, 919-923. -/
def sessionSetAppConfigCmd : Codec (UInt32 × List AppConfigTlv) := seq u32 (counted8 appConfigTlv)
/-- `SessionGetAppConfigCmd`, 944-948. -/
def sessionGetAppConfigCmd : Codec (UInt32 × List AppConfigTlvType) := seq u32 (counted8 tlvType)
/-- `SessionUpdateControllerMulticastListCmd`, 1050-1054. -/
def sessionUpdateMulticastCmd : Codec (UInt32 × UpdateMulticastListAction × Bytes) :=
  seq u32 (seq (enum UpdateMulticastListAction) rest)
/-- `SessionUpdateDtTagRangingRoundsCmd`, 1005-1009. -/
def sessionUpdateDtTagCmd : Codec (UInt32 × Bytes) := seq u32 bytes8

end Pdl

/-! ### Control packets -/

/-- `packet ControlPacket`, `src/uci_packets.pdl` 640-645. -/
structure ControlPacket where
  gid : GroupId
  mt : MessageType
  payload : Bytes
  deriving DecidableEq, Repr

namespace ControlPacket

/-- First byte: GID in bits 0-3, bit 4 reserved, MT in bits 5-7. -/
def header (gid : GroupId) (mt : MessageType) : UInt8 := gid.code ||| (mt.code <<< 5)

/-- `ControlPacket::encode_to_vec` -/
def encode (p : ControlPacket) : Bytes := header p.gid p.mt :: p.payload

/-- `ControlPacket::decode_full` -/
def decode : Bytes → Option ControlPacket
  | [] => none
  | b :: r => do
    let gid ← WireEnum.ofU8? (b &&& 0x0f)
    let mt ← WireEnum.ofU8? (b >>> 5)
    pure { gid, mt, payload := r }

end ControlPacket

/-- Header shared by `CorePacket`, `SessionConfigPacket`, `SessionControlPacket` and `AndroidPacket`,
`src/uci_packets.pdl` 673-699: OID in bits 0-5 of the first byte, 18 reserved bits, payload. -/
def decodeOid (E : Type) [WireEnum E] : Bytes → Option (E × Bytes)
  | b :: _ :: _ :: r => (WireEnum.ofU8? (b &&& 0x3f)).map (fun oid => (oid, r))
  | _ => none

namespace Cmd

/-- Group of a command. -/
def gid : Cmd → GroupId
  | coreDeviceReset _ | coreGetDeviceInfo | coreGetCapsInfo | coreSetConfig _ | coreGetConfig _ => .core
  | sessionInit .. | sessionDeinit _ | sessionGetCount | sessionSetAppConfig .. | sessionGetAppConfig ..
  | sessionGetState _ | sessionUpdateMulticast .. => .sessionConfig
  | sessionStart _ | sessionStop _ | sessionGetRangingCount _ => .sessionControl
  | androidGetPowerStats | androidSetCountryCode _ => .vendorAndroid

/-- Opcode of a command. -/
def oid : Cmd → UInt8
  | coreDeviceReset _ => CoreOpcodeId.deviceReset.code
  | coreGetDeviceInfo => CoreOpcodeId.getDeviceInfo.code
  | coreGetCapsInfo => CoreOpcodeId.getCapsInfo.code
  | coreSetConfig _ => CoreOpcodeId.setConfig.code
  | coreGetConfig _ => CoreOpcodeId.getConfig.code
  | sessionInit .. => SessionConfigOpcodeId.init.code
  | sessionDeinit _ => SessionConfigOpcodeId.deinit.code
  | sessionGetCount => SessionConfigOpcodeId.getCount.code
  | sessionSetAppConfig .. => SessionConfigOpcodeId.setAppConfig.code
  | sessionGetAppConfig .. => SessionConfigOpcodeId.getAppConfig.code
  | sessionGetState _ => SessionConfigOpcodeId.getState.code
  | sessionUpdateMulticast .. => SessionConfigOpcodeId.updateControllerMulticastList.code
  | sessionStart _ => SessionControlOpcodeId.start.code
  | sessionStop _ => SessionControlOpcodeId.stop.code
  | sessionGetRangingCount _ => SessionControlOpcodeId.getRangingCount.code
  | androidGetPowerStats => AndroidOpcodeId.getPowerStats.code
  | androidSetCountryCode _ => AndroidOpcodeId.setCountryCode.code

/-- Payload of a command as the packet description prescribes it (what a host sends). -/
def encodePayload : Cmd → Option Bytes
  | coreDeviceReset c => Pdl.coreDeviceResetCmd.enc c
  | coreGetDeviceInfo => Codec.unit.enc ()
  | coreGetCapsInfo => Codec.unit.enc ()
  | coreSetConfig ps => Pdl.coreSetConfigCmd.enc ps
  | coreGetConfig ids => Pdl.coreGetConfigCmd.enc ids
  | sessionInit id ty => Pdl.sessionInitCmd.enc (id, ty)
  | sessionDeinit t => Codec.u32.enc t
  | sessionGetCount => Codec.unit.enc ()
  | sessionSetAppConfig t tlvs => Pdl.sessionSetAppConfigCmd.enc (t, tlvs)
  | sessionGetAppConfig t ids => Pdl.sessionGetAppConfigCmd.enc (t, ids)
  | sessionGetState t => Codec.u32.enc t
  | sessionUpdateMulticast t a p => Pdl.sessionUpdateMulticastCmd.enc (t, a, p)
  | sessionStart id => Codec.u32.enc id
  | sessionStop id => Codec.u32.enc id
  | sessionGetRangingCount id => Codec.u32.enc id
  | androidGetPowerStats => Codec.unit.enc ()
  | androidSetCountryCode c => (Codec.arr 2).enc c

/-- A child that fails to parse is an `expect` panic. -/
def child {α : Type} (c : Codec α) (p : Bytes) (k : α → Cmd) : Except Panic Cmd :=
  match c.decFull p with
  | some x => .ok (k x)
  | none => .error .parseChild

/-- A child that parses but has no match arm is an `unimplemented!` panic. -/
def unsupported {α : Type} (c : Codec α) (p : Bytes) : Except Panic Cmd :=
  match c.decFull p with
  | some _ => .error .unsupportedOid
  | none => .error .parseChild

/-- `CorePacket::specialize` for commands and the match of `src/device.rs` 997-1004. DEVICE_STATUS
and GENERIC_ERROR have no command child (`CorePacketChild::None`). -/
def parseCore (oid : CoreOpcodeId) (p : Bytes) : Except Panic Cmd :=
  match oid with
  | .deviceReset => child Pdl.coreDeviceResetCmd p coreDeviceReset
  | .getDeviceInfo => child Codec.unit p (fun _ => coreGetDeviceInfo)
  | .getCapsInfo => child Codec.unit p (fun _ => coreGetCapsInfo)
  | .setConfig => child Pdl.coreSetConfigCmd p coreSetConfig
  | .getConfig => child Pdl.coreGetConfigCmd p coreGetConfig
  | .queryUwbsTimestamp => unsupported Codec.unit p
  | .deviceStatus | .genericError => .error .unsupportedOid

/-- `SessionConfigPacket::specialize` for commands and the match of `src/device.rs` 1005-1020. -/
def parseSessionConfig (oid : SessionConfigOpcodeId) (p : Bytes) : Except Panic Cmd :=
  match oid with
  | .init => child Pdl.sessionInitCmd p (fun (id, ty) => sessionInit id ty)
  | .deinit => child Codec.u32 p sessionDeinit
  | .getCount => child Codec.unit p (fun _ => sessionGetCount)
  | .setAppConfig => child Pdl.sessionSetAppConfigCmd p (fun (t, tlvs) => sessionSetAppConfig t tlvs)
  | .getAppConfig => child Pdl.sessionGetAppConfigCmd p (fun (t, ids) => sessionGetAppConfig t ids)
  | .getState => child Codec.u32 p sessionGetState
  | .updateControllerMulticastList =>
    child Pdl.sessionUpdateMulticastCmd p (fun (t, a, q) => sessionUpdateMulticast t a q)
  | .updateDtAnchorRangingRounds => unsupported Codec.unit p
  | .updateDtTagRangingRounds => unsupported Pdl.sessionUpdateDtTagCmd p
  | .queryDataSizeInRanging => unsupported Codec.u32 p
  | .status => .error .unsupportedOid

/-- `SessionControlPacket::specialize` for commands and the match of `src/device.rs` 1021-1031. -/
def parseSessionControl (oid : SessionControlOpcodeId) (p : Bytes) : Except Panic Cmd :=
  match oid with
  | .start => child Codec.u32 p sessionStart
  | .stop => child Codec.u32 p sessionStop
  | .getRangingCount => child Codec.u32 p sessionGetRangingCount
  | .dataCredit | .dataTransferStatus => .error .unsupportedOid

/-- `AndroidPacket::specialize` for commands and the match of `src/device.rs` 1032-1043. -/
def parseAndroid (oid : AndroidOpcodeId) (p : Bytes) : Except Panic Cmd :=
  match oid with
  | .getPowerStats => child Codec.unit p (fun _ => androidGetPowerStats)
  | .setCountryCode => child (Codec.arr 2) p androidSetCountryCode
  | .firaRangeDiagnostics => .error .unsupportedOid

/-- The second header byte of the group packets and the dispatch on the OID. -/
def parseGroup {E : Type} [WireEnum E] (f : E → Bytes → Except Panic Cmd) (p : Bytes) :
    Except Panic (Option Cmd) :=
  match decodeOid E p with
  | some (oid, q) => (f oid q).map some
  | none => .error .parseChild

/-- `ControlPacket::specialize` and the whole match of `src/device.rs` 993-1043 up to the handler calls, for a
packet whose message type is COMMAND. `none` is `ControlPacketChild::None`. -/
def parse (gid : GroupId) (p : Bytes) : Except Panic (Option Cmd) :=
  match gid with
  | .core => parseGroup parseCore p
  | .sessionConfig => parseGroup parseSessionConfig p
  | .sessionControl => parseGroup parseSessionControl p
  | .vendorAndroid => parseGroup parseAndroid p
  | _ => .ok none

/-- The packet a host sends for a command: header, OID, two bytes that are reserved once the
framing is removed, payload. -/
def encode (c : Cmd) : Option ControlPacket :=
  c.encodePayload.map (fun p => { gid := c.gid, mt := .command, payload := c.oid :: 0 :: 0 :: p })

end Cmd

namespace Rsp

/-- Group of a response. -/
def gid : Rsp → GroupId
  | coreDeviceReset _ | coreGetDeviceInfo .. | coreGetCapsInfo .. | coreSetConfig .. | coreGetConfig .. => .core
  | sessionInit _ | sessionDeinit _ | sessionGetCount .. | sessionSetAppConfig .. | sessionGetAppConfig ..
  | sessionGetState .. | sessionUpdateMulticast .. => .sessionConfig
  | sessionStart _ | sessionStop _ | sessionGetRangingCount .. => .sessionControl
  | androidGetPowerStats _ | androidSetCountryCode _ => .vendorAndroid

/-- Opcode of a response: the `oid` constraints of the `..Rsp` packets of `src/uci_packets.pdl`. -/
def oid : Rsp → UInt8
  | coreDeviceReset _ => CoreOpcodeId.deviceReset.code
  | coreGetDeviceInfo .. => CoreOpcodeId.getDeviceInfo.code
  | coreGetCapsInfo .. => CoreOpcodeId.getCapsInfo.code
  | coreSetConfig .. => CoreOpcodeId.setConfig.code
  | coreGetConfig .. => CoreOpcodeId.getConfig.code
  | sessionInit _ => SessionConfigOpcodeId.init.code
  | sessionDeinit _ => SessionConfigOpcodeId.deinit.code
  | sessionGetCount .. => SessionConfigOpcodeId.getCount.code
  | sessionSetAppConfig .. => SessionConfigOpcodeId.setAppConfig.code
  | sessionGetAppConfig .. => SessionConfigOpcodeId.getAppConfig.code
  | sessionGetState .. => SessionConfigOpcodeId.getState.code
  | sessionUpdateMulticast .. => SessionConfigOpcodeId.updateControllerMulticastList.code
  | sessionStart _ => SessionControlOpcodeId.start.code
  | sessionStop _ => SessionControlOpcodeId.stop.code
  | sessionGetRangingCount .. => SessionControlOpcodeId.getRangingCount.code
  | androidGetPowerStats _ => AndroidOpcodeId.getPowerStats.code
  | androidSetCountryCode _ => AndroidOpcodeId.setCountryCode.code

open Codec in
/-- `CoreGetDeviceInfoRsp`, `src/uci_packets.pdl` 734-742. -/
def deviceInfoCodec : Codec (Status × UInt16 × UInt16 × UInt16 × UInt16 × Bytes) :=
  seq status (seq u16 (seq u16 (seq u16 (seq u16 bytes8))))

open Codec in
/-- Payload of a response. -/
def encodePayload : Rsp → Option Bytes
  | coreDeviceReset s => status.enc s
  | coreGetDeviceInfo s a b c d v => deviceInfoCodec.enc (s, a, b, c, d, v)
  | coreGetCapsInfo s t => (seq status (counted8 Pdl.capTlv)).enc (s, t)
  | coreSetConfig s p => (seq status (counted8 Pdl.configParameterStatus)).enc (s, p)
  | coreGetConfig s p => (seq status (counted8 Pdl.configParameter)).enc (s, p)
  | sessionInit s => status.enc s
  | sessionDeinit s => status.enc s
  | sessionGetCount s n => (seq status u8).enc (s, n)
  | sessionSetAppConfig s c => (seq status (counted8 Pdl.appConfigStatus)).enc (s, c)
  | sessionGetAppConfig s t => (seq status (counted8 Pdl.appConfigTlv)).enc (s, t)
  | sessionGetState s t => (seq status (enum SessionState)).enc (s, t)
  | sessionUpdateMulticast s c => (seq status (counted8 Pdl.controleeStatus)).enc (s, c)
  | sessionStart s => status.enc s
  | sessionStop s => status.enc s
  | sessionGetRangingCount s n => (seq status u32).enc (s, n)
  | androidGetPowerStats s => Pdl.powerStats.enc s
  | androidSetCountryCode s => status.enc s

/-- `.try_into::<ControlPacket>()`; `none` is the `EncodeError` the callers `unwrap`. -/
def toControlPacket (r : Rsp) : Option ControlPacket :=
  r.encodePayload.map (fun p => { gid := r.gid, mt := .response, payload := r.oid :: 0 :: 0 :: p })

end Rsp

namespace Ntf

/-- Group of a notification. -/
def gid : Ntf → GroupId
  | coreDeviceStatus _ => .core
  | sessionStatus .. | sessionUpdateMulticast .. => .sessionConfig
  | sessionDataCredit .. | sessionDataTransferStatus .. | sessionInfo .. => .sessionControl

/-- Opcode of a notification. -/
def oid : Ntf → UInt8
  | coreDeviceStatus _ => CoreOpcodeId.deviceStatus.code
  | sessionStatus .. => SessionConfigOpcodeId.status.code
  | sessionUpdateMulticast .. => SessionConfigOpcodeId.updateControllerMulticastList.code
  | sessionDataCredit .. => SessionControlOpcodeId.dataCredit.code
  | sessionDataTransferStatus .. => SessionControlOpcodeId.dataTransferStatus.code
  | sessionInfo .. => SessionControlOpcodeId.start.code

open Codec in
/-- `SessionInfoNtf` and `ShortMacTwoWaySessionInfoNtf`, `src/uci_packets.pdl` 1276-1292. -/
def sessionInfoCodec : Codec (UInt32 × UInt32 × UInt8 × UInt32 × RangingMeasurementType × Unit ×
    MacAddressIndicator × Unit × List Measurement × Bytes) :=
  seq u32 (seq u32 (seq u8 (seq u32 (seq (enum RangingMeasurementType) (seq (reserved 1)
    (seq (enum MacAddressIndicator) (seq (reserved 8) (seq (counted8 Pdl.measurement) rest))))))))

open Codec in
/-- Payload of a notification. -/
def encodePayload : Ntf → Option Bytes
  | coreDeviceStatus s => (enum DeviceState).enc s
  | sessionStatus t s r => (seq u32 (seq (enum SessionState) u8)).enc (t, s, r)
  | sessionUpdateMulticast t c => (seq u32 (counted8 Pdl.controleeStatus)).enc (t, c)
  | sessionDataCredit t a => (seq u32 (enum CreditAvailability)).enc (t, a)
  | sessionDataTransferStatus t n s c =>
    (seq u32 (seq u8 (seq (enum DataTransferNtfStatusCode) u8))).enc (t, n, s, c)
  | sessionInfo n t r i m v =>
    sessionInfoCodec.enc (n, t, r, i, .twoWay, (), .shortAddress, (), m, v)

/-- The encoded notification as a control packet. -/
def toControlPacket (n : Ntf) : Option ControlPacket :=
  n.encodePayload.map (fun p => { gid := n.gid, mt := .notification, payload := n.oid :: 0 :: 0 :: p })

end Ntf

/-- `parse_message_type`, `src/packets.rs` 47-49: unknown message types count as COMMAND. -/
def parseMessageType (b : UInt8) : MessageType :=
  (WireEnum.ofU8? ((b >>> 5) &&& 0x7)).getD .command

/-! ### Data packets -/

/-- `packet DataPacket`, `src/uci_packets.pdl` 647-654. The reserved 24 bits are dropped. -/
structure DataPacket where
  dpf : DataPacketFormat
  pbf : PacketBoundaryFlag
  mt : MessageType
  payload : Bytes
  deriving DecidableEq, Repr

namespace DataPacket

/-- First byte: DPF in bits 0-3, PBF in bit 4, MT in bits 5-7. -/
def header (dpf : DataPacketFormat) (pbf : PacketBoundaryFlag) (mt : MessageType) : UInt8 :=
  dpf.code ||| (pbf.code <<< 4) ||| (mt.code <<< 5)

/-- `DataPacket::decode_full` -/
def decode : Bytes → Option DataPacket
  | b :: _ :: _ :: _ :: r => do
    let dpf ← WireEnum.ofU8? (b &&& 0x0f)
    let pbf ← WireEnum.ofU8? ((b >>> 4) &&& 0x01)
    let mt ← WireEnum.ofU8? (b >>> 5)
    pure { dpf, pbf, mt, payload := r }
  | _ => none

/-- `encode_to_vec` of a data packet. -/
def encode (p : DataPacket) : Bytes := header p.dpf p.pbf p.mt :: 0 :: 0 :: 0 :: p.payload

end DataPacket

/-- `DataMessageRcv { pbf: Complete, .. }.encode_to_vec()` -/
def DataMessageRcv.encode (d : DataMessageRcv) : Option Bytes :=
  (Pdl.dataMessageRcv.enc d).map (fun p =>
    DataPacket.encode { dpf := .dataRcv, pbf := .complete, mt := .data, payload := p })

/-! ### Packets sent to a host -/

/-- What the emulator puts on the channel to a host. -/
inductive Packet where
  | rsp (r : Rsp)
  | ntf (n : Ntf)
  /-- a control packet built by hand, `src/device.rs` 1060-1069 -/
  | control (p : ControlPacket)
  /-- raw bytes built by hand, `src/device.rs` 1105-1111 -/
  | raw (b : Bytes)
  | data (d : DataMessageRcv)
  deriving DecidableEq, Repr

/-- `encode_to_vec`; `none` is the error every caller unwraps. -/
def Packet.encode : Packet → Option Bytes
  | .rsp r => r.toControlPacket.map ControlPacket.encode
  | .ntf n => n.toControlPacket.map ControlPacket.encode
  | .control p => some p.encode
  | .raw b => some b
  | .data d => d.encode

end Pica
