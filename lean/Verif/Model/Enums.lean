import Verif.Model.Bytes
/-!
Enumerations of `/repo/src/uci_packets.pdl`, transcribed by `/verif/tools/gen_enums.py`.

A closed enumeration is an inductive type with the wire code of each tag.
`TryFrom<u8>` of the generated Rust code is `WireEnum.ofU8?`: it succeeds exactly on the codes of the tags.
Enumerations with ranges of unnamed values (`Status`, `AppConfigTlvType`, ..) are
represented by their code; the `is..` predicate says which codes are legal.
-/

namespace Pica

/-- A closed enumeration of the packet description: its tags and their codes. -/
class WireEnum (E : Type) where
  /-- `u8::from(tag)` -/
  toU8 : E → UInt8
  /-- the declared tags -/
  all : List E

/-- `E::try_from(u8)`: the tag with that code, if any. -/
def WireEnum.ofU8? {E : Type} [WireEnum E] (b : UInt8) : Option E :=
  (WireEnum.all (E := E)).find? (fun e => WireEnum.toU8 e == b)

/-- `enum PacketBoundaryFlag : 1`, `src/uci_packets.pdl` 17-20. -/
inductive PacketBoundaryFlag where
  | complete
  | notComplete
  deriving DecidableEq, Repr, Inhabited

/-- Codes of `PacketBoundaryFlag`. -/
def PacketBoundaryFlag.code : PacketBoundaryFlag → UInt8
  | .complete => 0x00
  | .notComplete => 0x01

instance : WireEnum PacketBoundaryFlag where
  toU8 := PacketBoundaryFlag.code
  all := [.complete, .notComplete]

/-- `enum MessageType : 3`, `src/uci_packets.pdl` 22-27. -/
inductive MessageType where
  | data
  | command
  | response
  | notification
  deriving DecidableEq, Repr, Inhabited

/-- Codes of `MessageType`. -/
def MessageType.code : MessageType → UInt8
  | .data => 0x00
  | .command => 0x01
  | .response => 0x02
  | .notification => 0x03

instance : WireEnum MessageType where
  toU8 := MessageType.code
  all := [.data, .command, .response, .notification]

/-- `enum GroupId : 4`, `src/uci_packets.pdl` 29-41. -/
inductive GroupId where
  | core
  | sessionConfig
  | sessionControl
  | dataControl
  | vendorReserved9
  | vendorReservedA
  | vendorReservedB
  | vendorAndroid
  | test
  | vendorReservedE
  | vendorReservedF
  deriving DecidableEq, Repr, Inhabited

/-- Codes of `GroupId`. -/
def GroupId.code : GroupId → UInt8
  | .core => 0x00
  | .sessionConfig => 0x01
  | .sessionControl => 0x02
  | .dataControl => 0x03
  | .vendorReserved9 => 0x09
  | .vendorReservedA => 0x0a
  | .vendorReservedB => 0x0b
  | .vendorAndroid => 0x0c
  | .test => 0x0d
  | .vendorReservedE => 0x0e
  | .vendorReservedF => 0x0f

instance : WireEnum GroupId where
  toU8 := GroupId.code
  all := [.core, .sessionConfig, .sessionControl, .dataControl, .vendorReserved9, .vendorReservedA, .vendorReservedB, .vendorAndroid, .test, .vendorReservedE, .vendorReservedF]

/-- `enum DataPacketFormat : 4`, `src/uci_packets.pdl` 43-46. -/
inductive DataPacketFormat where
  | dataSnd
  | dataRcv
  deriving DecidableEq, Repr, Inhabited

/-- Codes of `DataPacketFormat`. -/
def DataPacketFormat.code : DataPacketFormat → UInt8
  | .dataSnd => 0x01
  | .dataRcv => 0x02

instance : WireEnum DataPacketFormat where
  toU8 := DataPacketFormat.code
  all := [.dataSnd, .dataRcv]

/-- `enum CoreOpcodeId : 6`, `src/uci_packets.pdl` 48-57. -/
inductive CoreOpcodeId where
  | deviceReset
  | deviceStatus
  | getDeviceInfo
  | getCapsInfo
  | setConfig
  | getConfig
  | genericError
  | queryUwbsTimestamp
  deriving DecidableEq, Repr, Inhabited

/-- Codes of `CoreOpcodeId`. -/
def CoreOpcodeId.code : CoreOpcodeId → UInt8
  | .deviceReset => 0x00
  | .deviceStatus => 0x01
  | .getDeviceInfo => 0x02
  | .getCapsInfo => 0x03
  | .setConfig => 0x04
  | .getConfig => 0x05
  | .genericError => 0x07
  | .queryUwbsTimestamp => 0x08

instance : WireEnum CoreOpcodeId where
  toU8 := CoreOpcodeId.code
  all := [.deviceReset, .deviceStatus, .getDeviceInfo, .getCapsInfo, .setConfig, .getConfig, .genericError, .queryUwbsTimestamp]

/-- `enum SessionConfigOpcodeId : 6`, `src/uci_packets.pdl` 59-71. -/
inductive SessionConfigOpcodeId where
  | init
  | deinit
  | status
  | setAppConfig
  | getAppConfig
  | getCount
  | getState
  | updateControllerMulticastList
  | updateDtAnchorRangingRounds
  | updateDtTagRangingRounds
  | queryDataSizeInRanging
  deriving DecidableEq, Repr, Inhabited

/-- Codes of `SessionConfigOpcodeId`. -/
def SessionConfigOpcodeId.code : SessionConfigOpcodeId → UInt8
  | .init => 0x00
  | .deinit => 0x01
  | .status => 0x02
  | .setAppConfig => 0x03
  | .getAppConfig => 0x04
  | .getCount => 0x05
  | .getState => 0x06
  | .updateControllerMulticastList => 0x07
  | .updateDtAnchorRangingRounds => 0x08
  | .updateDtTagRangingRounds => 0x09
  | .queryDataSizeInRanging => 0x0b

instance : WireEnum SessionConfigOpcodeId where
  toU8 := SessionConfigOpcodeId.code
  all := [.init, .deinit, .status, .setAppConfig, .getAppConfig, .getCount, .getState, .updateControllerMulticastList, .updateDtAnchorRangingRounds, .updateDtTagRangingRounds, .queryDataSizeInRanging]

/-- `enum SessionControlOpcodeId : 6`, `src/uci_packets.pdl` 73-79. -/
inductive SessionControlOpcodeId where
  | start
  | stop
  | getRangingCount
  | dataCredit
  | dataTransferStatus
  deriving DecidableEq, Repr, Inhabited

/-- Codes of `SessionControlOpcodeId`. -/
def SessionControlOpcodeId.code : SessionControlOpcodeId → UInt8
  | .start => 0x00
  | .stop => 0x01
  | .getRangingCount => 0x03
  | .dataCredit => 0x04
  | .dataTransferStatus => 0x05

instance : WireEnum SessionControlOpcodeId where
  toU8 := SessionControlOpcodeId.code
  all := [.start, .stop, .getRangingCount, .dataCredit, .dataTransferStatus]

/-- `enum AndroidOpcodeId : 6`, `src/uci_packets.pdl` 81-85. -/
inductive AndroidOpcodeId where
  | getPowerStats
  | setCountryCode
  | firaRangeDiagnostics
  deriving DecidableEq, Repr, Inhabited

/-- Codes of `AndroidOpcodeId`. -/
def AndroidOpcodeId.code : AndroidOpcodeId → UInt8
  | .getPowerStats => 0x00
  | .setCountryCode => 0x01
  | .firaRangeDiagnostics => 0x02

instance : WireEnum AndroidOpcodeId where
  toU8 := AndroidOpcodeId.code
  all := [.getPowerStats, .setCountryCode, .firaRangeDiagnostics]

/-- `enum CreditAvailability : 8`, `src/uci_packets.pdl` 148-151. -/
inductive CreditAvailability where
  | creditNotAvailable
  | creditAvailable
  deriving DecidableEq, Repr, Inhabited

/-- Codes of `CreditAvailability`. -/
def CreditAvailability.code : CreditAvailability → UInt8
  | .creditNotAvailable => 0x00
  | .creditAvailable => 0x01

instance : WireEnum CreditAvailability where
  toU8 := CreditAvailability.code
  all := [.creditNotAvailable, .creditAvailable]

/-- `enum DataTransferNtfStatusCode : 8`, `src/uci_packets.pdl` 154-163. -/
inductive DataTransferNtfStatusCode where
  | uciDataTransferStatusRepetitionOk
  | uciDataTransferStatusOk
  | uciDataTransferStatusErrorDataTransfer
  | uciDataTransferStatusErrorNoCreditAvailable
  | uciDataTransferStatusErrorRejected
  | uciDataTransferStatusSessionTypeNotSupported
  | uciDataTransferStatusErrorDataTransferIsOngoing
  | uciDataTransferStatusInvalidFormat
  deriving DecidableEq, Repr, Inhabited

/-- Codes of `DataTransferNtfStatusCode`. -/
def DataTransferNtfStatusCode.code : DataTransferNtfStatusCode → UInt8
  | .uciDataTransferStatusRepetitionOk => 0x00
  | .uciDataTransferStatusOk => 0x01
  | .uciDataTransferStatusErrorDataTransfer => 0x02
  | .uciDataTransferStatusErrorNoCreditAvailable => 0x03
  | .uciDataTransferStatusErrorRejected => 0x04
  | .uciDataTransferStatusSessionTypeNotSupported => 0x05
  | .uciDataTransferStatusErrorDataTransferIsOngoing => 0x06
  | .uciDataTransferStatusInvalidFormat => 0x07

instance : WireEnum DataTransferNtfStatusCode where
  toU8 := DataTransferNtfStatusCode.code
  all := [.uciDataTransferStatusRepetitionOk, .uciDataTransferStatusOk, .uciDataTransferStatusErrorDataTransfer, .uciDataTransferStatusErrorNoCreditAvailable, .uciDataTransferStatusErrorRejected, .uciDataTransferStatusSessionTypeNotSupported, .uciDataTransferStatusErrorDataTransferIsOngoing, .uciDataTransferStatusInvalidFormat]

/-- `enum ResetConfig : 8`, `src/uci_packets.pdl` 165-167. -/
inductive ResetConfig where
  | uwbsReset
  deriving DecidableEq, Repr, Inhabited

/-- Codes of `ResetConfig`. -/
def ResetConfig.code : ResetConfig → UInt8
  | .uwbsReset => 0x00

instance : WireEnum ResetConfig where
  toU8 := ResetConfig.code
  all := [.uwbsReset]

/-- `enum DeviceType : 8`, `src/uci_packets.pdl` 268-275. -/
inductive DeviceType where
  | controlee
  | controller
  deriving DecidableEq, Repr, Inhabited

/-- Codes of `DeviceType`. -/
def DeviceType.code : DeviceType → UInt8
  | .controlee => 0x00
  | .controller => 0x01

instance : WireEnum DeviceType where
  toU8 := DeviceType.code
  all := [.controlee, .controller]

/-- `enum RangingRoundUsage : 8`, `src/uci_packets.pdl` 277-286. -/
inductive RangingRoundUsage where
  | ssTwrDeferredMode
  | dsTwrDeferredMode
  | ssTwrNonDeferredMode
  | dsTwrNonDeferredMode
  | onWayRangingDlTdoa
  | owrAoaMeasurement
  | essTwrNonDeferred
  | adsTwrNonDeferred
  deriving DecidableEq, Repr, Inhabited

/-- Codes of `RangingRoundUsage`. -/
def RangingRoundUsage.code : RangingRoundUsage → UInt8
  | .ssTwrDeferredMode => 0x01
  | .dsTwrDeferredMode => 0x02
  | .ssTwrNonDeferredMode => 0x03
  | .dsTwrNonDeferredMode => 0x04
  | .onWayRangingDlTdoa => 0x05
  | .owrAoaMeasurement => 0x06
  | .essTwrNonDeferred => 0x07
  | .adsTwrNonDeferred => 0x08

instance : WireEnum RangingRoundUsage where
  toU8 := RangingRoundUsage.code
  all := [.ssTwrDeferredMode, .dsTwrDeferredMode, .ssTwrNonDeferredMode, .dsTwrNonDeferredMode, .onWayRangingDlTdoa, .owrAoaMeasurement, .essTwrNonDeferred, .adsTwrNonDeferred]

/-- `enum StsConfig : 8`, `src/uci_packets.pdl` 288-294. -/
inductive StsConfig where
  | static
  | dynamic
  | dynamicForResponderSubSessionKey
  | provisioned
  | provisionedForResponderSubSessionKey
  deriving DecidableEq, Repr, Inhabited

/-- Codes of `StsConfig`. -/
def StsConfig.code : StsConfig → UInt8
  | .static => 0x00
  | .dynamic => 0x01
  | .dynamicForResponderSubSessionKey => 0x02
  | .provisioned => 0x03
  | .provisionedForResponderSubSessionKey => 0x04

instance : WireEnum StsConfig where
  toU8 := StsConfig.code
  all := [.static, .dynamic, .dynamicForResponderSubSessionKey, .provisioned, .provisionedForResponderSubSessionKey]

/-- `enum MultiNodeMode : 8`, `src/uci_packets.pdl` 296-299. -/
inductive MultiNodeMode where
  | oneToOne
  | oneToMany
  deriving DecidableEq, Repr, Inhabited

/-- Codes of `MultiNodeMode`. -/
def MultiNodeMode.code : MultiNodeMode → UInt8
  | .oneToOne => 0x00
  | .oneToMany => 0x01

instance : WireEnum MultiNodeMode where
  toU8 := MultiNodeMode.code
  all := [.oneToOne, .oneToMany]

/-- `enum ChannelNumber : 8`, `src/uci_packets.pdl` 301-310. -/
inductive ChannelNumber where
  | channelNumber5
  | channelNumber6
  | channelNumber8
  | channelNumber9
  | channelNumber10
  | channelNumber12
  | channelNumber13
  | channelNumber14
  deriving DecidableEq, Repr, Inhabited

/-- Codes of `ChannelNumber`. -/
def ChannelNumber.code : ChannelNumber → UInt8
  | .channelNumber5 => 0x05
  | .channelNumber6 => 0x06
  | .channelNumber8 => 0x08
  | .channelNumber9 => 0x09
  | .channelNumber10 => 0x0a
  | .channelNumber12 => 0x0c
  | .channelNumber13 => 0x0d
  | .channelNumber14 => 0x0e

instance : WireEnum ChannelNumber where
  toU8 := ChannelNumber.code
  all := [.channelNumber5, .channelNumber6, .channelNumber8, .channelNumber9, .channelNumber10, .channelNumber12, .channelNumber13, .channelNumber14]

/-- `enum MacFcsType : 8`, `src/uci_packets.pdl` 312-315. -/
inductive MacFcsType where
  | crc16
  | crc32
  deriving DecidableEq, Repr, Inhabited

/-- Codes of `MacFcsType`. -/
def MacFcsType.code : MacFcsType → UInt8
  | .crc16 => 0x00
  | .crc32 => 0x01

instance : WireEnum MacFcsType where
  toU8 := MacFcsType.code
  all := [.crc16, .crc32]

/-- `enum AoaResultReq : 8`, `src/uci_packets.pdl` 326-331. -/
inductive AoaResultReq where
  | aoaDisabled
  | aoaEnabled
  | aoaEnabledAzimuthOnly
  | aoaEnabledElevationOnly
  deriving DecidableEq, Repr, Inhabited

/-- Codes of `AoaResultReq`. -/
def AoaResultReq.code : AoaResultReq → UInt8
  | .aoaDisabled => 0x00
  | .aoaEnabled => 0x01
  | .aoaEnabledAzimuthOnly => 0x02
  | .aoaEnabledElevationOnly => 0x03

instance : WireEnum AoaResultReq where
  toU8 := AoaResultReq.code
  all := [.aoaDisabled, .aoaEnabled, .aoaEnabledAzimuthOnly, .aoaEnabledElevationOnly]

/-- `enum SessionInfoNtfConfig : 8`, `src/uci_packets.pdl` 333-342. -/
inductive SessionInfoNtfConfig where
  | disable
  | enable
  | enableProximityTrigger
  | enableAoaTrigger
  | enableProximityAoaTrigger
  | enableProximityEdgeTrigger
  | enableAoaEdgeTrigger
  | enableProximityAoaEdgeTrigger
  deriving DecidableEq, Repr, Inhabited

/-- Codes of `SessionInfoNtfConfig`. -/
def SessionInfoNtfConfig.code : SessionInfoNtfConfig → UInt8
  | .disable => 0x00
  | .enable => 0x01
  | .enableProximityTrigger => 0x02
  | .enableAoaTrigger => 0x03
  | .enableProximityAoaTrigger => 0x04
  | .enableProximityEdgeTrigger => 0x05
  | .enableAoaEdgeTrigger => 0x06
  | .enableProximityAoaEdgeTrigger => 0x07

instance : WireEnum SessionInfoNtfConfig where
  toU8 := SessionInfoNtfConfig.code
  all := [.disable, .enable, .enableProximityTrigger, .enableAoaTrigger, .enableProximityAoaTrigger, .enableProximityEdgeTrigger, .enableAoaEdgeTrigger, .enableProximityAoaEdgeTrigger]

/-- `enum DeviceRole : 8`, `src/uci_packets.pdl` 344-355. -/
inductive DeviceRole where
  | responder
  | initiator
  | advertiser
  | observer
  | dtAnchor
  | dtTag
  deriving DecidableEq, Repr, Inhabited

/-- Codes of `DeviceRole`. -/
def DeviceRole.code : DeviceRole → UInt8
  | .responder => 0x00
  | .initiator => 0x01
  | .advertiser => 0x05
  | .observer => 0x06
  | .dtAnchor => 0x07
  | .dtTag => 0x08

instance : WireEnum DeviceRole where
  toU8 := DeviceRole.code
  all := [.responder, .initiator, .advertiser, .observer, .dtAnchor, .dtTag]

/-- `enum RframeConfig : 8`, `src/uci_packets.pdl` 357-361. -/
inductive RframeConfig where
  | sp0
  | sp1
  | sp3
  deriving DecidableEq, Repr, Inhabited

/-- Codes of `RframeConfig`. -/
def RframeConfig.code : RframeConfig → UInt8
  | .sp0 => 0x00
  | .sp1 => 0x01
  | .sp3 => 0x03

instance : WireEnum RframeConfig where
  toU8 := RframeConfig.code
  all := [.sp0, .sp1, .sp3]

/-- `enum RssiReporting : 8`, `src/uci_packets.pdl` 363-366. -/
inductive RssiReporting where
  | disable
  | enable
  deriving DecidableEq, Repr, Inhabited

/-- Codes of `RssiReporting`. -/
def RssiReporting.code : RssiReporting → UInt8
  | .disable => 0x00
  | .enable => 0x01

instance : WireEnum RssiReporting where
  toU8 := RssiReporting.code
  all := [.disable, .enable]

/-- `enum PsduDataRate : 8`, `src/uci_packets.pdl` 368-373. -/
inductive PsduDataRate where
  | dataRate6m81
  | dataRate7m80
  | dataRate27m2
  | dataRate31m2
  deriving DecidableEq, Repr, Inhabited

/-- Codes of `PsduDataRate`. -/
def PsduDataRate.code : PsduDataRate → UInt8
  | .dataRate6m81 => 0x00
  | .dataRate7m80 => 0x01
  | .dataRate27m2 => 0x02
  | .dataRate31m2 => 0x03

instance : WireEnum PsduDataRate where
  toU8 := PsduDataRate.code
  all := [.dataRate6m81, .dataRate7m80, .dataRate27m2, .dataRate31m2]

/-- `enum PreambleDuration : 8`, `src/uci_packets.pdl` 375-378. -/
inductive PreambleDuration where
  | duration32Symbols
  | duration64Symbols
  deriving DecidableEq, Repr, Inhabited

/-- Codes of `PreambleDuration`. -/
def PreambleDuration.code : PreambleDuration → UInt8
  | .duration32Symbols => 0x00
  | .duration64Symbols => 0x01

instance : WireEnum PreambleDuration where
  toU8 := PreambleDuration.code
  all := [.duration32Symbols, .duration64Symbols]

/-- `enum LinkLayerMode : 8`, `src/uci_packets.pdl` 380-382. -/
inductive LinkLayerMode where
  | bypassMode
  deriving DecidableEq, Repr, Inhabited

/-- Codes of `LinkLayerMode`. -/
def LinkLayerMode.code : LinkLayerMode → UInt8
  | .bypassMode => 0x00

instance : WireEnum LinkLayerMode where
  toU8 := LinkLayerMode.code
  all := [.bypassMode]

/-- `enum RangingTimeStruct : 8`, `src/uci_packets.pdl` 384-386. -/
inductive RangingTimeStruct where
  | blockBasedScheduling
  deriving DecidableEq, Repr, Inhabited

/-- Codes of `RangingTimeStruct`. -/
def RangingTimeStruct.code : RangingTimeStruct → UInt8
  | .blockBasedScheduling => 0x01

instance : WireEnum RangingTimeStruct where
  toU8 := RangingTimeStruct.code
  all := [.blockBasedScheduling]

/-- `enum PrfMode : 8`, `src/uci_packets.pdl` 388-392. -/
inductive PrfMode where
  | bprfMode
  | hprfMode124m8
  | hprfMode249m6
  deriving DecidableEq, Repr, Inhabited

/-- Codes of `PrfMode`. -/
def PrfMode.code : PrfMode → UInt8
  | .bprfMode => 0x00
  | .hprfMode124m8 => 0x01
  | .hprfMode249m6 => 0x02

instance : WireEnum PrfMode where
  toU8 := PrfMode.code
  all := [.bprfMode, .hprfMode124m8, .hprfMode249m6]

/-- `enum ScheduleMode : 8`, `src/uci_packets.pdl` 394-397. -/
inductive ScheduleMode where
  | contentionBased
  | timeScheduled
  deriving DecidableEq, Repr, Inhabited

/-- Codes of `ScheduleMode`. -/
def ScheduleMode.code : ScheduleMode → UInt8
  | .contentionBased => 0x00
  | .timeScheduled => 0x01

instance : WireEnum ScheduleMode where
  toU8 := ScheduleMode.code
  all := [.contentionBased, .timeScheduled]

/-- `enum KeyRotation : 8`, `src/uci_packets.pdl` 399-402. -/
inductive KeyRotation where
  | disable
  | enable
  deriving DecidableEq, Repr, Inhabited

/-- Codes of `KeyRotation`. -/
def KeyRotation.code : KeyRotation → UInt8
  | .disable => 0x00
  | .enable => 0x01

instance : WireEnum KeyRotation where
  toU8 := KeyRotation.code
  all := [.disable, .enable]

/-- `enum MacAddressMode : 8`, `src/uci_packets.pdl` 404-412. -/
inductive MacAddressMode where
  | mode0
  | mode1
  | mode2
  deriving DecidableEq, Repr, Inhabited

/-- Codes of `MacAddressMode`. -/
def MacAddressMode.code : MacAddressMode → UInt8
  | .mode0 => 0x00
  | .mode1 => 0x01
  | .mode2 => 0x02

instance : WireEnum MacAddressMode where
  toU8 := MacAddressMode.code
  all := [.mode0, .mode1, .mode2]

/-- `enum HoppingMode : 8`, `src/uci_packets.pdl` 414-417. -/
inductive HoppingMode where
  | disable
  | enable
  deriving DecidableEq, Repr, Inhabited

/-- Codes of `HoppingMode`. -/
def HoppingMode.code : HoppingMode → UInt8
  | .disable => 0x00
  | .enable => 0x01

instance : WireEnum HoppingMode where
  toU8 := HoppingMode.code
  all := [.disable, .enable]

/-- `enum BprfPhrDataRate : 8`, `src/uci_packets.pdl` 427-430. -/
inductive BprfPhrDataRate where
  | dataRate850k
  | dataRate6m81
  deriving DecidableEq, Repr, Inhabited

/-- Codes of `BprfPhrDataRate`. -/
def BprfPhrDataRate.code : BprfPhrDataRate → UInt8
  | .dataRate850k => 0x00
  | .dataRate6m81 => 0x01

instance : WireEnum BprfPhrDataRate where
  toU8 := BprfPhrDataRate.code
  all := [.dataRate850k, .dataRate6m81]

/-- `enum StsLength : 8`, `src/uci_packets.pdl` 432-436. -/
inductive StsLength where
  | length32Symbols
  | length64Symbols
  | length128Symbols
  deriving DecidableEq, Repr, Inhabited

/-- Codes of `StsLength`. -/
def StsLength.code : StsLength → UInt8
  | .length32Symbols => 0x00
  | .length64Symbols => 0x01
  | .length128Symbols => 0x02

instance : WireEnum StsLength where
  toU8 := StsLength.code
  all := [.length32Symbols, .length64Symbols, .length128Symbols]

/-- `enum SessionDataTransferStatusNtfConfig : 8`, `src/uci_packets.pdl` 448-451. -/
inductive SessionDataTransferStatusNtfConfig where
  | disable
  | enable
  deriving DecidableEq, Repr, Inhabited

/-- Codes of `SessionDataTransferStatusNtfConfig`. -/
def SessionDataTransferStatusNtfConfig.code : SessionDataTransferStatusNtfConfig → UInt8
  | .disable => 0x00
  | .enable => 0x01

instance : WireEnum SessionDataTransferStatusNtfConfig where
  toU8 := SessionDataTransferStatusNtfConfig.code
  all := [.disable, .enable]

/-- `enum DeviceState : 8`, `src/uci_packets.pdl` 515-519. -/
inductive DeviceState where
  | deviceStateReady
  | deviceStateActive
  | deviceStateError
  deriving DecidableEq, Repr, Inhabited

/-- Codes of `DeviceState`. -/
def DeviceState.code : DeviceState → UInt8
  | .deviceStateReady => 0x01
  | .deviceStateActive => 0x02
  | .deviceStateError => 0xff

instance : WireEnum DeviceState where
  toU8 := DeviceState.code
  all := [.deviceStateReady, .deviceStateActive, .deviceStateError]

/-- `enum SessionState : 8`, `src/uci_packets.pdl` 521-526. -/
inductive SessionState where
  | sessionStateInit
  | sessionStateDeinit
  | sessionStateActive
  | sessionStateIdle
  deriving DecidableEq, Repr, Inhabited

/-- Codes of `SessionState`. -/
def SessionState.code : SessionState → UInt8
  | .sessionStateInit => 0x00
  | .sessionStateDeinit => 0x01
  | .sessionStateActive => 0x02
  | .sessionStateIdle => 0x03

instance : WireEnum SessionState where
  toU8 := SessionState.code
  all := [.sessionStateInit, .sessionStateDeinit, .sessionStateActive, .sessionStateIdle]

/-- `enum MulticastUpdateStatus : 8`, `src/uci_packets.pdl` 584-594. -/
inductive MulticastUpdateStatus where
  | okMulticastListUpdate
  | errorMulticastListFull
  | errorKeyFetchFail
  | errorSubSessionIdNotFound
  | errorSubSessionKeyNotFound
  | errorSubSessionKeyNotApplicable
  | errorSessionKeyNotFound
  | errorAddressNotFound
  | errorAddressAlreadyPresent
  deriving DecidableEq, Repr, Inhabited

/-- Codes of `MulticastUpdateStatus`. -/
def MulticastUpdateStatus.code : MulticastUpdateStatus → UInt8
  | .okMulticastListUpdate => 0x00
  | .errorMulticastListFull => 0x01
  | .errorKeyFetchFail => 0x02
  | .errorSubSessionIdNotFound => 0x03
  | .errorSubSessionKeyNotFound => 0x04
  | .errorSubSessionKeyNotApplicable => 0x05
  | .errorSessionKeyNotFound => 0x06
  | .errorAddressNotFound => 0x07
  | .errorAddressAlreadyPresent => 0x08

instance : WireEnum MulticastUpdateStatus where
  toU8 := MulticastUpdateStatus.code
  all := [.okMulticastListUpdate, .errorMulticastListFull, .errorKeyFetchFail, .errorSubSessionIdNotFound, .errorSubSessionKeyNotFound, .errorSubSessionKeyNotApplicable, .errorSessionKeyNotFound, .errorAddressNotFound, .errorAddressAlreadyPresent]

/-- `enum MacAddressIndicator : 8`, `src/uci_packets.pdl` 596-599. -/
inductive MacAddressIndicator where
  | shortAddress
  | extendedAddress
  deriving DecidableEq, Repr, Inhabited

/-- Codes of `MacAddressIndicator`. -/
def MacAddressIndicator.code : MacAddressIndicator → UInt8
  | .shortAddress => 0x00
  | .extendedAddress => 0x01

instance : WireEnum MacAddressIndicator where
  toU8 := MacAddressIndicator.code
  all := [.shortAddress, .extendedAddress]

/-- `enum SessionType : 8`, `src/uci_packets.pdl` 601-610. -/
inductive SessionType where
  | firaRangingSession
  | firaRangingAndInBandDataSession
  | firaDataTransferSession
  | firaRangingOnlyPhase
  | firaInBandDataPhase
  | firaRangingWithDataPhase
  | ccc
  | deviceTestMode
  deriving DecidableEq, Repr, Inhabited

/-- Codes of `SessionType`. -/
def SessionType.code : SessionType → UInt8
  | .firaRangingSession => 0x00
  | .firaRangingAndInBandDataSession => 0x01
  | .firaDataTransferSession => 0x02
  | .firaRangingOnlyPhase => 0x03
  | .firaInBandDataPhase => 0x04
  | .firaRangingWithDataPhase => 0x05
  | .ccc => 0xa0
  | .deviceTestMode => 0xd0

instance : WireEnum SessionType where
  toU8 := SessionType.code
  all := [.firaRangingSession, .firaRangingAndInBandDataSession, .firaDataTransferSession, .firaRangingOnlyPhase, .firaInBandDataPhase, .firaRangingWithDataPhase, .ccc, .deviceTestMode]

/-- `enum RangingMeasurementType : 8`, `src/uci_packets.pdl` 1269-1274. -/
inductive RangingMeasurementType where
  | oneWay
  | twoWay
  | dlTdoa
  | owrAoa
  deriving DecidableEq, Repr, Inhabited

/-- Codes of `RangingMeasurementType`. -/
def RangingMeasurementType.code : RangingMeasurementType → UInt8
  | .oneWay => 0x00
  | .twoWay => 0x01
  | .dlTdoa => 0x02
  | .owrAoa => 0x03

instance : WireEnum RangingMeasurementType where
  toU8 := RangingMeasurementType.code
  all := [.oneWay, .twoWay, .dlTdoa, .owrAoa]

/-- `enum UpdateMulticastListAction : 8`, `src/uci_packets.pdl` 1043-1048. -/
inductive UpdateMulticastListAction where
  | addControlee
  | removeControlee
  | addControleeWithShortSubSessionKey
  | addControleeWithExtendedSubSessionKey
  deriving DecidableEq, Repr, Inhabited

/-- Codes of `UpdateMulticastListAction`. -/
def UpdateMulticastListAction.code : UpdateMulticastListAction → UInt8
  | .addControlee => 0x00
  | .removeControlee => 0x01
  | .addControleeWithShortSubSessionKey => 0x02
  | .addControleeWithExtendedSubSessionKey => 0x03

instance : WireEnum UpdateMulticastListAction where
  toU8 := UpdateMulticastListAction.code
  all := [.addControlee, .removeControlee, .addControleeWithShortSubSessionKey, .addControleeWithExtendedSubSessionKey]

/-- `enum Status : 8`, `src/uci_packets.pdl` 88-138, represented by its code. -/
structure Status where
  code : UInt8
  deriving DecidableEq, Repr, Inhabited

namespace Status
def ok : Status := ⟨0x00⟩
def rejected : Status := ⟨0x01⟩
def failed : Status := ⟨0x02⟩
def syntaxError : Status := ⟨0x03⟩
def invalidParam : Status := ⟨0x04⟩
def invalidRange : Status := ⟨0x05⟩
def invalidMessageSize : Status := ⟨0x06⟩
def unknownGid : Status := ⟨0x07⟩
def unknownOid : Status := ⟨0x08⟩
def readOnly : Status := ⟨0x09⟩
def uciMessageRetry : Status := ⟨0x0a⟩
def unknown : Status := ⟨0x0b⟩
def notApplicable : Status := ⟨0x0c⟩
def errorSessionNotExist : Status := ⟨0x11⟩
def errorSessionDuplicate : Status := ⟨0x12⟩
def errorSessionActive : Status := ⟨0x13⟩
def errorMaxSessionsExceeded : Status := ⟨0x14⟩
def errorSessionNotConfigured : Status := ⟨0x15⟩
def errorActiveSessionsOngoing : Status := ⟨0x16⟩
def errorMulticastListFull : Status := ⟨0x17⟩
def errorUwbInitiationTimeTooOld : Status := ⟨0x1a⟩
def okNegativeDistanceReport : Status := ⟨0x1b⟩
def rangingTxFailed : Status := ⟨0x20⟩
def rangingRxTimeout : Status := ⟨0x21⟩
def rangingRxPhyDecFailed : Status := ⟨0x22⟩
def rangingRxPhyToaFailed : Status := ⟨0x23⟩
def rangingRxPhyStsFailed : Status := ⟨0x24⟩
def rangingRxMacDecFailed : Status := ⟨0x25⟩
def rangingRxMacIeDecFailed : Status := ⟨0x26⟩
def rangingRxMacIeMissing : Status := ⟨0x27⟩
def errorRoundIndexNotActivated : Status := ⟨0x28⟩
def errorNumberOfActiveRangingRoundsExceeded : Status := ⟨0x29⟩
def errorDlTdoaDeviceAddressNotMatchingInReplyTimeList : Status := ⟨0x2a⟩
def errorCccSeBusy : Status := ⟨0x50⟩
def errorCccLifecycle : Status := ⟨0x51⟩
def errorStoppedDueToOtherSessionConflict : Status := ⟨0x52⟩
def regulationUwbOff : Status := ⟨0x53⟩
/-- The enumeration is open: every code is legal. -/
def isTag (_ : UInt8) : Bool := true
end Status

/-- `enum ReasonCode : 8`, `src/uci_packets.pdl` 528-581, represented by its code. -/
structure ReasonCode where
  code : UInt8
  deriving DecidableEq, Repr, Inhabited

namespace ReasonCode
def stateChangeWithSessionManagementCommands : ReasonCode := ⟨0x00⟩
def maxRangingRoundRetryCountReached : ReasonCode := ⟨0x01⟩
def maxNumberOfMeasurementsReached : ReasonCode := ⟨0x02⟩
def sessionSuspendedDueToInbandSignal : ReasonCode := ⟨0x03⟩
def sessionResumedDueToInbandSignal : ReasonCode := ⟨0x04⟩
def sessionStoppedDueToInbandSignal : ReasonCode := ⟨0x05⟩
def errorInvalidUlTdoaRandomWindow : ReasonCode := ⟨0x1d⟩
def errorMinRframesPerRrNotSupported : ReasonCode := ⟨0x1e⟩
def errorTxDelayNotSupported : ReasonCode := ⟨0x1f⟩
def errorSlotLengthNotSupported : ReasonCode := ⟨0x20⟩
def errorInsufficientSlotsPerRr : ReasonCode := ⟨0x21⟩
def errorMacAddressModeNotSupported : ReasonCode := ⟨0x22⟩
def errorInvalidRangingDuration : ReasonCode := ⟨0x23⟩
def errorInvalidStsConfig : ReasonCode := ⟨0x24⟩
def errorInvalidRframeConfig : ReasonCode := ⟨0x25⟩
def errorHusNotEnoughSlots : ReasonCode := ⟨0x26⟩
def errorHusCfpPhaseTooShort : ReasonCode := ⟨0x27⟩
def errorHusCapPhaseTooShort : ReasonCode := ⟨0x28⟩
def errorHusOthers : ReasonCode := ⟨0x29⟩
def errorStatusSessionKeyNotFound : ReasonCode := ⟨0x2a⟩
def errorStatusSubSessionKeyNotFound : ReasonCode := ⟨0x2b⟩
def errorInvalidPreambleCodeIndex : ReasonCode := ⟨0x2c⟩
def errorInvalidSfdId : ReasonCode := ⟨0x2d⟩
def errorInvalidPsduDataRate : ReasonCode := ⟨0x2e⟩
def errorInvalidPhrDataRate : ReasonCode := ⟨0x2f⟩
def errorInvalidPreambleDuration : ReasonCode := ⟨0x30⟩
def errorInvalidStsLength : ReasonCode := ⟨0x31⟩
def errorInvalidNumOfStsSegments : ReasonCode := ⟨0x32⟩
def errorInvalidNumOfControlees : ReasonCode := ⟨0x33⟩
def errorMaxRangingReplyTimeExceeded : ReasonCode := ⟨0x34⟩
def errorInvalidDstAddressList : ReasonCode := ⟨0x35⟩
def errorInvalidOrNotFoundSubSessionId : ReasonCode := ⟨0x36⟩
def errorInvalidResultReportConfig : ReasonCode := ⟨0x37⟩
def errorInvalidRangingRoundControlConfig : ReasonCode := ⟨0x38⟩
def errorInvalidRangingRoundUsage : ReasonCode := ⟨0x39⟩
def errorInvalidMultiNodeMode : ReasonCode := ⟨0x3a⟩
def errorRdsFetchFailure : ReasonCode := ⟨0x3b⟩
def errorRefUwbSessionDoesNotExist : ReasonCode := ⟨0x3c⟩
def errorRefUwbSessionRangingDurationMismatch : ReasonCode := ⟨0x3d⟩
def errorRefUwbSessionInvalidOffsetTime : ReasonCode := ⟨0x3e⟩
def errorRefUwbSessionLost : ReasonCode := ⟨0x3f⟩
def errorDtAnchorRangingRoundsNotConfigured : ReasonCode := ⟨0x40⟩
def errorDtTagRangingRoundsNotConfigured : ReasonCode := ⟨0x41⟩
def errorInvalidChannelWithAoa : ReasonCode := ⟨0x80⟩
def errorStoppedDueToOtherSessionConflict : ReasonCode := ⟨0x81⟩
def vendorSpecificReasonCode2 : ReasonCode := ⟨0xff⟩
/-- Legal codes: the ranges and the named codes outside of them. -/
def isTag (b : UInt8) : Bool :=
  (0x06 ≤ b && b ≤ 0x1c) ||
  (0x40 ≤ b && b ≤ 0x7f) ||
  (0x80 ≤ b && b ≤ 0xfe) ||
  (0x00 ≤ b && b ≤ 0x05) ||
  (0x1d ≤ b && b ≤ 0x3f) ||
  b == 0xff
end ReasonCode

/-- `enum ConfigParameterId : 8`, `src/uci_packets.pdl` 773-777, represented by its code. -/
structure ConfigParameterId where
  code : UInt8
  deriving DecidableEq, Repr, Inhabited

namespace ConfigParameterId
def deviceState : ConfigParameterId := ⟨0x00⟩
def lowPowerMode : ConfigParameterId := ⟨0x01⟩
/-- The enumeration is open: every code is legal. -/
def isTag (_ : UInt8) : Bool := true
end ConfigParameterId

/-- `enum AppConfigTlvType : 8`, `src/uci_packets.pdl` 170-266, represented by its code. -/
structure AppConfigTlvType where
  code : UInt8
  deriving DecidableEq, Repr, Inhabited

namespace AppConfigTlvType
def deviceType : AppConfigTlvType := ⟨0x00⟩
def rangingRoundUsage : AppConfigTlvType := ⟨0x01⟩
def stsConfig : AppConfigTlvType := ⟨0x02⟩
def multiNodeMode : AppConfigTlvType := ⟨0x03⟩
def channelNumber : AppConfigTlvType := ⟨0x04⟩
def numberOfControlees : AppConfigTlvType := ⟨0x05⟩
def deviceMacAddress : AppConfigTlvType := ⟨0x06⟩
def dstMacAddress : AppConfigTlvType := ⟨0x07⟩
def slotDuration : AppConfigTlvType := ⟨0x08⟩
def rangingDuration : AppConfigTlvType := ⟨0x09⟩
def stsIndex : AppConfigTlvType := ⟨0x0a⟩
def macFcsType : AppConfigTlvType := ⟨0x0b⟩
def rangingRoundControl : AppConfigTlvType := ⟨0x0c⟩
def aoaResultReq : AppConfigTlvType := ⟨0x0d⟩
def sessionInfoNtfConfig : AppConfigTlvType := ⟨0x0e⟩
def nearProximityConfig : AppConfigTlvType := ⟨0x0f⟩
def farProximityConfig : AppConfigTlvType := ⟨0x10⟩
def deviceRole : AppConfigTlvType := ⟨0x11⟩
def rframeConfig : AppConfigTlvType := ⟨0x12⟩
def rssiReporting : AppConfigTlvType := ⟨0x13⟩
def preambleCodeIndex : AppConfigTlvType := ⟨0x14⟩
def sfdId : AppConfigTlvType := ⟨0x15⟩
def psduDataRate : AppConfigTlvType := ⟨0x16⟩
def preambleDuration : AppConfigTlvType := ⟨0x17⟩
def linkLayerMode : AppConfigTlvType := ⟨0x18⟩
def dataRepetitionCount : AppConfigTlvType := ⟨0x19⟩
def rangingTimeStruct : AppConfigTlvType := ⟨0x1a⟩
def slotsPerRr : AppConfigTlvType := ⟨0x1b⟩
def aoaBoundConfig : AppConfigTlvType := ⟨0x1d⟩
def prfMode : AppConfigTlvType := ⟨0x1f⟩
def capSizeRange : AppConfigTlvType := ⟨0x20⟩
def txJitterWindowSize : AppConfigTlvType := ⟨0x21⟩
def scheduleMode : AppConfigTlvType := ⟨0x22⟩
def keyRotation : AppConfigTlvType := ⟨0x23⟩
def keyRotationRate : AppConfigTlvType := ⟨0x24⟩
def sessionPriority : AppConfigTlvType := ⟨0x25⟩
def macAddressMode : AppConfigTlvType := ⟨0x26⟩
def vendorId : AppConfigTlvType := ⟨0x27⟩
def staticStsIv : AppConfigTlvType := ⟨0x28⟩
def numberOfStsSegments : AppConfigTlvType := ⟨0x29⟩
def maxRrRetry : AppConfigTlvType := ⟨0x2a⟩
def uwbInitiationTime : AppConfigTlvType := ⟨0x2b⟩
def hoppingMode : AppConfigTlvType := ⟨0x2c⟩
def blockStrideLength : AppConfigTlvType := ⟨0x2d⟩
def resultReportConfig : AppConfigTlvType := ⟨0x2e⟩
def inBandTerminationAttemptCount : AppConfigTlvType := ⟨0x2f⟩
def subSessionId : AppConfigTlvType := ⟨0x30⟩
def bprfPhrDataRate : AppConfigTlvType := ⟨0x31⟩
def maxNumberOfMeasurements : AppConfigTlvType := ⟨0x32⟩
def stsLength : AppConfigTlvType := ⟨0x35⟩
def minFramesPerRr : AppConfigTlvType := ⟨0x3a⟩
def mtuSize : AppConfigTlvType := ⟨0x3b⟩
def interFrameInterval : AppConfigTlvType := ⟨0x3c⟩
def dlTdoaRangingMethod : AppConfigTlvType := ⟨0x3d⟩
def dlTdoaTxTimestampConf : AppConfigTlvType := ⟨0x3e⟩
def dlTdoaHopCount : AppConfigTlvType := ⟨0x3f⟩
def dlTdoaAnchorCfo : AppConfigTlvType := ⟨0x40⟩
def dlTdoaAnchorLocation : AppConfigTlvType := ⟨0x41⟩
def dlTdoaTxActiveRangingRounds : AppConfigTlvType := ⟨0x42⟩
def dlTdoaBlockSkipping : AppConfigTlvType := ⟨0x43⟩
def dlTdoaTimeReferenceAnchor : AppConfigTlvType := ⟨0x44⟩
def sessionKey : AppConfigTlvType := ⟨0x45⟩
def subSessionKey : AppConfigTlvType := ⟨0x46⟩
def sessionDataTransferStatusNtfConfig : AppConfigTlvType := ⟨0x47⟩
def sessionTimeBase : AppConfigTlvType := ⟨0x48⟩
def dlTdoaResponderTof : AppConfigTlvType := ⟨0x49⟩
def secureRangingNefaLevel : AppConfigTlvType := ⟨0x4a⟩
def secureRangingCswLength : AppConfigTlvType := ⟨0x4b⟩
def applicationDataEndpoint : AppConfigTlvType := ⟨0x4c⟩
def owrAoaMeasurementNtfPeriod : AppConfigTlvType := ⟨0x4d⟩
def cccHopModeKey : AppConfigTlvType := ⟨0xa0⟩
def cccUwbTime0 : AppConfigTlvType := ⟨0xa1⟩
def cccRangingProtocolVer : AppConfigTlvType := ⟨0xa3⟩
def cccUwbConfigId : AppConfigTlvType := ⟨0xa4⟩
def cccPulseshapeCombo : AppConfigTlvType := ⟨0xa5⟩
def cccUrskTtl : AppConfigTlvType := ⟨0xa6⟩
def cccLastIndexUsed : AppConfigTlvType := ⟨0xa8⟩
def nbOfRangeMeasurements : AppConfigTlvType := ⟨0xe3⟩
def nbOfAzimuthMeasurements : AppConfigTlvType := ⟨0xe4⟩
def nbOfElevationMeasurements : AppConfigTlvType := ⟨0xe5⟩
def enableDiagnostics : AppConfigTlvType := ⟨0xe8⟩
def diagramsFrameReportsFields : AppConfigTlvType := ⟨0xe9⟩
/-- Legal codes: the ranges and the named codes outside of them. -/
def isTag (b : UInt8) : Bool :=
  (0x4e ≤ b && b ≤ 0x9f) ||
  (0xa0 ≤ b && b ≤ 0xdf) ||
  (0xe0 ≤ b && b ≤ 0xe2) ||
  (0xe3 ≤ b && b ≤ 0xff) ||
  (0x00 ≤ b && b ≤ 0x1b) ||
  b == 0x1d ||
  (0x1f ≤ b && b ≤ 0x32) ||
  b == 0x35 ||
  (0x3a ≤ b && b ≤ 0x4d)
end AppConfigTlvType

/-- `enum CapTlvType : 8`, `src/uci_packets.pdl` 453-502, represented by its code. -/
structure CapTlvType where
  code : UInt8
  deriving DecidableEq, Repr, Inhabited

namespace CapTlvType
def supportedFiraPhyVersionRange : CapTlvType := ⟨0x00⟩
def supportedFiraMacVersionRange : CapTlvType := ⟨0x01⟩
def supportedDeviceRoles : CapTlvType := ⟨0x02⟩
def supportedRangingMethod : CapTlvType := ⟨0x03⟩
def supportedStsConfig : CapTlvType := ⟨0x04⟩
def supportedMultiNodeModes : CapTlvType := ⟨0x05⟩
def supportedRangingTimeStruct : CapTlvType := ⟨0x06⟩
def supportedScheduledMode : CapTlvType := ⟨0x07⟩
def supportedHoppingMode : CapTlvType := ⟨0x08⟩
def supportedBlockStriding : CapTlvType := ⟨0x09⟩
def supportedUwbInitiationTime : CapTlvType := ⟨0x0a⟩
def supportedChannels : CapTlvType := ⟨0x0b⟩
def supportedRframeConfig : CapTlvType := ⟨0x0c⟩
def supportedCcConstraintLength : CapTlvType := ⟨0x0d⟩
def supportedBprfParameterSets : CapTlvType := ⟨0x0e⟩
def supportedHprfParameterSets : CapTlvType := ⟨0x0f⟩
def supportedAoa : CapTlvType := ⟨0x10⟩
def supportedExtendedMacAddress : CapTlvType := ⟨0x11⟩
def supportedMaxMessageSize : CapTlvType := ⟨0x12⟩
def supportedMaxDataPacketPayloadSize : CapTlvType := ⟨0x13⟩
def cccSupportedChapsPerSlot : CapTlvType := ⟨0xa0⟩
def cccSupportedSyncCodes : CapTlvType := ⟨0xa1⟩
def cccSupportedHoppingConfigModesAndSequences : CapTlvType := ⟨0xa2⟩
def cccSupportedChannels : CapTlvType := ⟨0xa3⟩
def cccSupportedVersions : CapTlvType := ⟨0xa4⟩
def cccSupportedUwbConfigs : CapTlvType := ⟨0xa5⟩
def cccSupportedPulseShapeCombos : CapTlvType := ⟨0xa6⟩
def cccSupportedRanMultiplier : CapTlvType := ⟨0xa7⟩
def cccSupportedMaxRangingSessionNumber : CapTlvType := ⟨0xa8⟩
def supportedPowerStats : CapTlvType := ⟨0xc0⟩
def supportedAoaResultReqAntennaInterleaving : CapTlvType := ⟨0xe3⟩
def supportedMinRangingIntervalMs : CapTlvType := ⟨0xe4⟩
def supportedRangeDataNtfConfig : CapTlvType := ⟨0xe5⟩
def supportedRssiReporting : CapTlvType := ⟨0xe6⟩
def supportedDiagnostics : CapTlvType := ⟨0xe7⟩
def supportedMinSlotDurationRstu : CapTlvType := ⟨0xe8⟩
def supportedMaxRangingSessionNumber : CapTlvType := ⟨0xe9⟩
/-- Legal codes: the ranges and the named codes outside of them. -/
def isTag (b : UInt8) : Bool :=
  (0x14 ≤ b && b ≤ 0x9f) ||
  (0xa0 ≤ b && b ≤ 0xbf) ||
  (0xc1 ≤ b && b ≤ 0xdf) ||
  (0xe0 ≤ b && b ≤ 0xe2) ||
  (0xe3 ≤ b && b ≤ 0xff) ||
  (0x00 ≤ b && b ≤ 0x13) ||
  b == 0xc0
end CapTlvType

end Pica
