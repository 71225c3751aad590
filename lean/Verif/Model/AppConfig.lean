import Verif.Model.Enums
import Verif.Model.MacAddress
/-! `src/app_config.rs`: the APP configuration of a session. -/

namespace Pica

/-- `enum SubSessionKey`, `src/app_config.rs` 8-13. -/
inductive SubSessionKey where
  | none
  | short (key : Arr 16)
  | extended (key : Arr 32)
  deriving DecidableEq, Repr

/-- The parameters `AppConfig::set` and `AppConfig::get` support: the match arms of
`src/app_config.rs` 188-340 and 368-475. Every other tag of `AppConfigTlvType` ends in the error
arms 342-360 and 477-495. -/
inductive Param where
  | deviceType
  | rangingRoundUsage
  | stsConfig
  | multiNodeMode
  | channelNumber
  | numberOfControlees
  | deviceMacAddress
  | dstMacAddress
  | slotDuration
  | rangingDuration
  | stsIndex
  | macFcsType
  | rangingRoundControl
  | aoaResultReq
  | sessionInfoNtfConfig
  | nearProximityConfig
  | farProximityConfig
  | deviceRole
  | rframeConfig
  | rssiReporting
  | preambleCodeIndex
  | sfdId
  | psduDataRate
  | preambleDuration
  | linkLayerMode
  | dataRepetitionCount
  | rangingTimeStruct
  | slotsPerRr
  | aoaBoundConfig
  | prfMode
  | capSizeRange
  | txJitterWindowSize
  | scheduleMode
  | keyRotation
  | keyRotationRate
  | sessionPriority
  | macAddressMode
  | vendorId
  | staticStsIv
  | numberOfStsSegments
  | maxRrRetry
  | uwbInitiationTime
  | hoppingMode
  | blockStrideLength
  | resultReportConfig
  | inBandTerminationAttemptCount
  | subSessionId
  | bprfPhrDataRate
  | maxNumberOfMeasurements
  | stsLength
  | minFramesPerRr
  | mtuSize
  | interFrameInterval
  | sessionKey
  | subSessionKey
  | sessionDataTransferStatusNtfConfig
  | sessionTimeBase
  | applicationDataEndpoint
  deriving DecidableEq, Repr, Inhabited

/-- The tag each match arm names. -/
def Param.tag : Param → AppConfigTlvType
  | .deviceType => .deviceType
  | .rangingRoundUsage => .rangingRoundUsage
  | .stsConfig => .stsConfig
  | .multiNodeMode => .multiNodeMode
  | .channelNumber => .channelNumber
  | .numberOfControlees => .numberOfControlees
  | .deviceMacAddress => .deviceMacAddress
  | .dstMacAddress => .dstMacAddress
  | .slotDuration => .slotDuration
  | .rangingDuration => .rangingDuration
  | .stsIndex => .stsIndex
  | .macFcsType => .macFcsType
  | .rangingRoundControl => .rangingRoundControl
  | .aoaResultReq => .aoaResultReq
  | .sessionInfoNtfConfig => .sessionInfoNtfConfig
  | .nearProximityConfig => .nearProximityConfig
  | .farProximityConfig => .farProximityConfig
  | .deviceRole => .deviceRole
  | .rframeConfig => .rframeConfig
  | .rssiReporting => .rssiReporting
  | .preambleCodeIndex => .preambleCodeIndex
  | .sfdId => .sfdId
  | .psduDataRate => .psduDataRate
  | .preambleDuration => .preambleDuration
  | .linkLayerMode => .linkLayerMode
  | .dataRepetitionCount => .dataRepetitionCount
  | .rangingTimeStruct => .rangingTimeStruct
  | .slotsPerRr => .slotsPerRr
  | .aoaBoundConfig => .aoaBoundConfig
  | .prfMode => .prfMode
  | .capSizeRange => .capSizeRange
  | .txJitterWindowSize => .txJitterWindowSize
  | .scheduleMode => .scheduleMode
  | .keyRotation => .keyRotation
  | .keyRotationRate => .keyRotationRate
  | .sessionPriority => .sessionPriority
  | .macAddressMode => .macAddressMode
  | .vendorId => .vendorId
  | .staticStsIv => .staticStsIv
  | .numberOfStsSegments => .numberOfStsSegments
  | .maxRrRetry => .maxRrRetry
  | .uwbInitiationTime => .uwbInitiationTime
  | .hoppingMode => .hoppingMode
  | .blockStrideLength => .blockStrideLength
  | .resultReportConfig => .resultReportConfig
  | .inBandTerminationAttemptCount => .inBandTerminationAttemptCount
  | .subSessionId => .subSessionId
  | .bprfPhrDataRate => .bprfPhrDataRate
  | .maxNumberOfMeasurements => .maxNumberOfMeasurements
  | .stsLength => .stsLength
  | .minFramesPerRr => .minFramesPerRr
  | .mtuSize => .mtuSize
  | .interFrameInterval => .interFrameInterval
  | .sessionKey => .sessionKey
  | .subSessionKey => .subSessionKey
  | .sessionDataTransferStatusNtfConfig => .sessionDataTransferStatusNtfConfig
  | .sessionTimeBase => .sessionTimeBase
  | .applicationDataEndpoint => .applicationDataEndpoint

/-- All match arms, in source order. -/
def Param.all : List Param := [
  .deviceType, .rangingRoundUsage, .stsConfig, .multiNodeMode,
  .channelNumber, .numberOfControlees, .deviceMacAddress, .dstMacAddress,
  .slotDuration, .rangingDuration, .stsIndex, .macFcsType,
  .rangingRoundControl, .aoaResultReq, .sessionInfoNtfConfig, .nearProximityConfig,
  .farProximityConfig, .deviceRole, .rframeConfig, .rssiReporting,
  .preambleCodeIndex, .sfdId, .psduDataRate, .preambleDuration,
  .linkLayerMode, .dataRepetitionCount, .rangingTimeStruct, .slotsPerRr,
  .aoaBoundConfig, .prfMode, .capSizeRange, .txJitterWindowSize,
  .scheduleMode, .keyRotation, .keyRotationRate, .sessionPriority,
  .macAddressMode, .vendorId, .staticStsIv, .numberOfStsSegments,
  .maxRrRetry, .uwbInitiationTime, .hoppingMode, .blockStrideLength,
  .resultReportConfig, .inBandTerminationAttemptCount, .subSessionId, .bprfPhrDataRate,
  .maxNumberOfMeasurements, .stsLength, .minFramesPerRr, .mtuSize,
  .interFrameInterval, .sessionKey, .subSessionKey, .sessionDataTransferStatusNtfConfig,
  .sessionTimeBase, .applicationDataEndpoint]

/-- The match arm selected by a tag, if any. -/
def Param.ofTag? (id : AppConfigTlvType) : Option Param := Param.all.find? (fun p => p.tag == id)

/-- `struct AppConfig`, `src/app_config.rs` 23-92. -/
structure AppConfig where
  deviceType : Option DeviceType
  rangingRoundUsage : Option RangingRoundUsage
  stsConfig : StsConfig
  multiNodeMode : Option MultiNodeMode
  channelNumber : ChannelNumber
  numberOfControlees : UInt8
  deviceMacAddress : Option MacAddress
  dstMacAddress : List MacAddress
  slotDuration : UInt16
  rangingDuration : UInt32
  stsIndex : UInt32
  macFcsType : MacFcsType
  rangingRoundControl : UInt8
  aoaResultReq : AoaResultReq
  sessionInfoNtfConfig : SessionInfoNtfConfig
  nearProximityConfig : UInt16
  farProximityConfig : UInt16
  deviceRole : Option DeviceRole
  rframeConfig : RframeConfig
  rssiReporting : RssiReporting
  preambleCodeIndex : UInt8
  sfdId : UInt8
  psduDataRate : PsduDataRate
  preambleDuration : PreambleDuration
  linkLayerMode : LinkLayerMode
  dataRepetitionCount : UInt8
  rangingTimeStruct : RangingTimeStruct
  slotsPerRr : UInt8
  aoaBoundConfig : UInt16 × UInt16 × UInt16 × UInt16
  prfMode : PrfMode
  capSizeRange : Arr 2
  txJitterWindowSize : UInt8
  scheduleMode : Option ScheduleMode
  keyRotation : KeyRotation
  keyRotationRate : UInt8
  sessionPriority : UInt8
  macAddressMode : MacAddressMode
  vendorId : UInt16
  staticStsIv : Arr 6
  numberOfStsSegments : UInt8
  maxRrRetry : UInt16
  uwbInitiationTime : UInt64
  hoppingMode : HoppingMode
  blockStrideLength : UInt8
  resultReportConfig : UInt8
  inBandTerminationAttemptCount : UInt8
  subSessionId : UInt32
  bprfPhrDataRate : BprfPhrDataRate
  maxNumberOfMeasurements : UInt16
  stsLength : StsLength
  minFramesPerRr : UInt8
  mtuSize : UInt16
  interFrameInterval : UInt8
  sessionKey : Bytes
  subSessionKey : SubSessionKey
  sessionDataTransferStatusNtfConfig : SessionDataTransferStatusNtfConfig
  sessionTimeBase : Arr 9
  applicationDataEndpoint : UInt8
  deriving DecidableEq

namespace AppConfig

/-- `impl Default for AppConfig`, `src/app_config.rs` 94-161. -/
def default : AppConfig where
  deviceType := none
  rangingRoundUsage := none
  stsConfig := .static
  multiNodeMode := none
  channelNumber := .channelNumber9
  numberOfControlees := 1
  deviceMacAddress := none
  dstMacAddress := []
  slotDuration := 2400
  rangingDuration := 200
  stsIndex := 0
  macFcsType := .crc16
  rangingRoundControl := 0x06
  aoaResultReq := .aoaEnabled
  sessionInfoNtfConfig := .enable
  nearProximityConfig := 0
  farProximityConfig := 20000
  deviceRole := none
  rframeConfig := .sp3
  rssiReporting := .disable
  preambleCodeIndex := 10
  sfdId := 2
  psduDataRate := .dataRate6m81
  preambleDuration := .duration64Symbols
  linkLayerMode := .bypassMode
  dataRepetitionCount := 0
  rangingTimeStruct := .blockBasedScheduling
  slotsPerRr := 25
  aoaBoundConfig := (0, 0, 0, 0)
  prfMode := .bprfMode
  capSizeRange := ⟨[24, 5], rfl⟩
  txJitterWindowSize := 0
  scheduleMode := none
  keyRotation := .disable
  keyRotationRate := 0
  sessionPriority := 50
  macAddressMode := .mode0
  vendorId := 0
  staticStsIv := Arr.zero 6
  numberOfStsSegments := 1
  maxRrRetry := 0
  uwbInitiationTime := 0
  hoppingMode := .disable
  blockStrideLength := 0
  resultReportConfig := 0x01
  inBandTerminationAttemptCount := 1
  subSessionId := 0
  bprfPhrDataRate := .dataRate850k
  maxNumberOfMeasurements := 0
  stsLength := .length64Symbols
  minFramesPerRr := 4
  mtuSize := 0
  interFrameInterval := 1
  sessionKey := []
  subSessionKey := .none
  sessionDataTransferStatusNtfConfig := .disable
  sessionTimeBase := Arr.zero 9
  applicationDataEndpoint := 0

/-- `try_parse_u8` and friends, `src/app_config.rs` 172-186: the slice must have the exact size. -/
def parseU8 : Bytes → Option UInt8
  | [b] => some b
  | _ => none
/-- `try_parse_u16`, `src/app_config.rs` 176-178. -/
def parseU16 (v : Bytes) : Option UInt16 := if v.length = 2 then some (UInt16.ofNat (ofLe v)) else none
/-- `try_parse_u32`, `src/app_config.rs` 180-182. -/
def parseU32 (v : Bytes) : Option UInt32 := if v.length = 4 then some (UInt32.ofNat (ofLe v)) else none
/-- `try_parse_u64`, `src/app_config.rs` 184-186. -/
def parseU64 (v : Bytes) : Option UInt64 := if v.length = 8 then some (UInt64.ofNat (ofLe v)) else none
/-- `try_parse::<E>`, `src/app_config.rs` 168-170. -/
def parseEnum (E : Type) [WireEnum E] (v : Bytes) : Option E := (parseU8 v).bind WireEnum.ofU8?

/-- `slice::chunks(n)`. -/
def chunks (n : Nat) (v : Bytes) : List Bytes :=
  if n = 0 ∨ v = [] then [] else v.take n :: chunks n (v.drop n)
termination_by v.length
decreasing_by
  rename_i h
  rw [not_or] at h
  have : v.length ≠ 0 := fun e => h.2 (List.length_eq_zero_iff.mp e)
  simp only [List.length_drop]; omega

/-- The result of an assignment `self.field = parsed?`: on error nothing is assigned. The
flag is `true` for `Ok(())`. -/
def assign {α : Type} (c : AppConfig) (parsed : Option α) (f : α → AppConfig) :
    Except Panic (AppConfig × Bool) :=
  match parsed with
  | some x => .ok (f x, true)
  | none => .ok (c, false)

/-- A MAC address of the format selected by MAC_ADDRESS_MODE, `src/app_config.rs` 200-204. -/
def parseMac (mode : MacAddressMode) (v : Bytes) : Except Panic (Option MacAddress) :=
  match mode with
  | .mode0 => .ok ((Arr.ofBytes? 2 v).map .short)
  | .mode1 => .error .macMode1
  | .mode2 => .ok ((Arr.ofBytes? 8 v).map .extended)

/-- DST_MAC_ADDRESS, `src/app_config.rs` 206-231. The `unwrap`s of 224 and 227 cannot fail
because of the length check; the model turns a failure into the error result. -/
def parseDst (mode : MacAddressMode) (n : UInt8) (v : Bytes) : Except Panic (Option (List MacAddress)) :=
  match mode with
  | .mode0 =>
    .ok (if v.length = n.toNat * 2 then
      (chunks 2 v).mapM (fun m => (Arr.ofBytes? 2 m).map .short) else none)
  | .mode1 => .error .macMode1
  | .mode2 =>
    .ok (if v.length = n.toNat * 8 then
      (chunks 8 v).mapM (fun m => (Arr.ofBytes? 8 m).map .extended) else none)

/-- AOA_BOUND_CONFIG, `src/app_config.rs` 266-280. -/
def parseAoaBound : Bytes → Option (UInt16 × UInt16 × UInt16 × UInt16)
  | [a, b, c, d, e, f, g, h] =>
    some (UInt16.ofNat (ofLe [a, b]), UInt16.ofNat (ofLe [c, d]), UInt16.ofNat (ofLe [e, f]),
      UInt16.ofNat (ofLe [g, h]))
  | _ => none

/-- UWB_INITIATION_TIME, `src/app_config.rs` 297-304: 4 bytes (UCI 1.0) or 8 bytes. -/
def parseInitiationTime (v : Bytes) : Option UInt64 :=
  if v.length = 4 then (parseU32 v).map (fun x => x.toUInt64) else parseU64 v

/-- SUB_SESSION_KEY, `src/app_config.rs` 327-333. -/
def parseSubSessionKey (v : Bytes) : Option SubSessionKey :=
  if v.length = 16 then (Arr.ofBytes? 16 v).map .short
  else if v.length = 32 then (Arr.ofBytes? 32 v).map .extended
  else none

/-- The match of `AppConfig::set`, `src/app_config.rs` 188-340. -/
def setParam (c : AppConfig) (p : Param) (v : Bytes) : Except Panic (AppConfig × Bool) :=
  match p with
  | .deviceType => assign c (parseEnum DeviceType v) (fun x => { c with deviceType := some x })
  | .rangingRoundUsage => assign c (parseEnum RangingRoundUsage v) (fun x => { c with rangingRoundUsage := some x })
  | .stsConfig => assign c (parseEnum StsConfig v) (fun x => { c with stsConfig := x })
  | .multiNodeMode => assign c (parseEnum MultiNodeMode v) (fun x => { c with multiNodeMode := some x })
  | .channelNumber => assign c (parseEnum ChannelNumber v) (fun x => { c with channelNumber := x })
  | .numberOfControlees => assign c (parseU8 v) (fun x => { c with numberOfControlees := x })
  | .deviceMacAddress => do assign c (← parseMac c.macAddressMode v) (fun x => { c with deviceMacAddress := some x })
  | .dstMacAddress => do assign c (← parseDst c.macAddressMode c.numberOfControlees v) (fun x => { c with dstMacAddress := x })
  | .slotDuration => assign c (parseU16 v) (fun x => { c with slotDuration := x })
  | .rangingDuration => assign c (parseU32 v) (fun x => { c with rangingDuration := x })
  | .stsIndex => assign c (parseU32 v) (fun x => { c with stsIndex := x })
  | .macFcsType => assign c (parseEnum MacFcsType v) (fun x => { c with macFcsType := x })
  | .rangingRoundControl => assign c (parseU8 v) (fun x => { c with rangingRoundControl := x })
  | .aoaResultReq => assign c (parseEnum AoaResultReq v) (fun x => { c with aoaResultReq := x })
  | .sessionInfoNtfConfig => assign c (parseEnum SessionInfoNtfConfig v) (fun x => { c with sessionInfoNtfConfig := x })
  | .nearProximityConfig => assign c (parseU16 v) (fun x => { c with nearProximityConfig := x })
  | .farProximityConfig => assign c (parseU16 v) (fun x => { c with farProximityConfig := x })
  | .deviceRole => assign c (parseEnum DeviceRole v) (fun x => { c with deviceRole := some x })
  | .rframeConfig => assign c (parseEnum RframeConfig v) (fun x => { c with rframeConfig := x })
  | .rssiReporting => assign c (parseEnum RssiReporting v) (fun x => { c with rssiReporting := x })
  | .preambleCodeIndex => assign c (parseU8 v) (fun x => { c with preambleCodeIndex := x })
  | .sfdId => assign c (parseU8 v) (fun x => { c with sfdId := x })
  | .psduDataRate => assign c (parseEnum PsduDataRate v) (fun x => { c with psduDataRate := x })
  | .preambleDuration => assign c (parseEnum PreambleDuration v) (fun x => { c with preambleDuration := x })
  | .linkLayerMode => assign c (parseEnum LinkLayerMode v) (fun x => { c with linkLayerMode := x })
  | .dataRepetitionCount => assign c (parseU8 v) (fun x => { c with dataRepetitionCount := x })
  | .rangingTimeStruct => assign c (parseEnum RangingTimeStruct v) (fun x => { c with rangingTimeStruct := x })
  | .slotsPerRr => assign c (parseU8 v) (fun x => { c with slotsPerRr := x })
  | .aoaBoundConfig => assign c (parseAoaBound v) (fun x => { c with aoaBoundConfig := x })
  | .prfMode => assign c (parseEnum PrfMode v) (fun x => { c with prfMode := x })
  | .capSizeRange => assign c (Arr.ofBytes? 2 v) (fun x => { c with capSizeRange := x })
  | .txJitterWindowSize => assign c (parseU8 v) (fun x => { c with txJitterWindowSize := x })
  | .scheduleMode => assign c (parseEnum ScheduleMode v) (fun x => { c with scheduleMode := some x })
  | .keyRotation => assign c (parseEnum KeyRotation v) (fun x => { c with keyRotation := x })
  | .keyRotationRate => assign c (parseU8 v) (fun x => { c with keyRotationRate := x })
  | .sessionPriority => assign c (parseU8 v) (fun x => { c with sessionPriority := x })
  | .macAddressMode => assign c (parseEnum MacAddressMode v) (fun x => { c with macAddressMode := x })
  | .vendorId => assign c (parseU16 v) (fun x => { c with vendorId := x })
  | .staticStsIv => assign c (Arr.ofBytes? 6 v) (fun x => { c with staticStsIv := x })
  | .numberOfStsSegments => assign c (parseU8 v) (fun x => { c with numberOfStsSegments := x })
  | .maxRrRetry => assign c (parseU16 v) (fun x => { c with maxRrRetry := x })
  | .uwbInitiationTime => assign c (parseInitiationTime v) (fun x => { c with uwbInitiationTime := x })
  | .hoppingMode => assign c (parseEnum HoppingMode v) (fun x => { c with hoppingMode := x })
  | .blockStrideLength => assign c (parseU8 v) (fun x => { c with blockStrideLength := x })
  | .resultReportConfig => assign c (parseU8 v) (fun x => { c with resultReportConfig := x })
  | .inBandTerminationAttemptCount => assign c (parseU8 v) (fun x => { c with inBandTerminationAttemptCount := x })
  | .subSessionId => assign c (parseU32 v) (fun x => { c with subSessionId := x })
  | .bprfPhrDataRate => assign c (parseEnum BprfPhrDataRate v) (fun x => { c with bprfPhrDataRate := x })
  | .maxNumberOfMeasurements => assign c (parseU16 v) (fun x => { c with maxNumberOfMeasurements := x })
  | .stsLength => assign c (parseEnum StsLength v) (fun x => { c with stsLength := x })
  | .minFramesPerRr => assign c (parseU8 v) (fun x => { c with minFramesPerRr := x })
  | .mtuSize => assign c (parseU16 v) (fun x => { c with mtuSize := x })
  | .interFrameInterval => assign c (parseU8 v) (fun x => { c with interFrameInterval := x })
  | .sessionKey => assign c (some v) (fun x => { c with sessionKey := x })
  | .subSessionKey => assign c (parseSubSessionKey v) (fun x => { c with subSessionKey := x })
  | .sessionDataTransferStatusNtfConfig => assign c (parseEnum SessionDataTransferStatusNtfConfig v) (fun x => { c with sessionDataTransferStatusNtfConfig := x })
  | .sessionTimeBase => assign c (Arr.ofBytes? 9 v) (fun x => { c with sessionTimeBase := x })
  | .applicationDataEndpoint => assign c (parseU8 v) (fun x => { c with applicationDataEndpoint := x })

/-- `AppConfig::set`, `src/app_config.rs` 167-363. Returns the configuration afterwards and
whether the result is `Ok(())`. -/
def set (c : AppConfig) (id : AppConfigTlvType) (v : Bytes) : Except Panic (AppConfig × Bool) :=
  match Param.ofTag? id with
  | some p => setParam c p v
  | none => .ok (c, false)

/-- The match of `AppConfig::get`, `src/app_config.rs` 368-475. -/
def getParam (c : AppConfig) (p : Param) : Option Bytes :=
  match p with
  | .deviceType => c.deviceType.map (fun x => [x.code])
  | .rangingRoundUsage => c.rangingRoundUsage.map (fun x => [x.code])
  | .stsConfig => some ([c.stsConfig.code])
  | .multiNodeMode => c.multiNodeMode.map (fun x => [x.code])
  | .channelNumber => some ([c.channelNumber.code])
  | .numberOfControlees => some ([c.numberOfControlees])
  | .deviceMacAddress => c.deviceMacAddress.map (fun x => x.toBytes)
  | .dstMacAddress => some (c.dstMacAddress.flatMap MacAddress.toBytes)
  | .slotDuration => some (u16le c.slotDuration)
  | .rangingDuration => some (u32le c.rangingDuration)
  | .stsIndex => some (u32le c.stsIndex)
  | .macFcsType => some ([c.macFcsType.code])
  | .rangingRoundControl => some ([c.rangingRoundControl])
  | .aoaResultReq => some ([c.aoaResultReq.code])
  | .sessionInfoNtfConfig => some ([c.sessionInfoNtfConfig.code])
  | .nearProximityConfig => some (u16le c.nearProximityConfig)
  | .farProximityConfig => some (u16le c.farProximityConfig)
  | .deviceRole => c.deviceRole.map (fun x => [x.code])
  | .rframeConfig => some ([c.rframeConfig.code])
  | .rssiReporting => some ([c.rssiReporting.code])
  | .preambleCodeIndex => some ([c.preambleCodeIndex])
  | .sfdId => some ([c.sfdId])
  | .psduDataRate => some ([c.psduDataRate.code])
  | .preambleDuration => some ([c.preambleDuration.code])
  | .linkLayerMode => some ([c.linkLayerMode.code])
  | .dataRepetitionCount => some ([c.dataRepetitionCount])
  | .rangingTimeStruct => some ([c.rangingTimeStruct.code])
  | .slotsPerRr => some ([c.slotsPerRr])
  | .aoaBoundConfig =>
    let (a, b, d, e) := c.aoaBoundConfig
    some (u16le a ++ u16le b ++ u16le d ++ u16le e)
  | .prfMode => some ([c.prfMode.code])
  | .capSizeRange => some (c.capSizeRange.1)
  | .txJitterWindowSize => some ([c.txJitterWindowSize])
  | .scheduleMode => c.scheduleMode.map (fun x => [x.code])
  | .keyRotation => some ([c.keyRotation.code])
  | .keyRotationRate => some ([c.keyRotationRate])
  | .sessionPriority => some ([c.sessionPriority])
  | .macAddressMode => some ([c.macAddressMode.code])
  | .vendorId => some (u16le c.vendorId)
  | .staticStsIv => some (c.staticStsIv.1)
  | .numberOfStsSegments => some ([c.numberOfStsSegments])
  | .maxRrRetry => some (u16le c.maxRrRetry)
  | .uwbInitiationTime => some (u64le c.uwbInitiationTime)
  | .hoppingMode => some ([c.hoppingMode.code])
  | .blockStrideLength => some ([c.blockStrideLength])
  | .resultReportConfig => some ([c.resultReportConfig])
  | .inBandTerminationAttemptCount => some ([c.inBandTerminationAttemptCount])
  | .subSessionId => some (u32le c.subSessionId)
  | .bprfPhrDataRate => some ([c.bprfPhrDataRate.code])
  | .maxNumberOfMeasurements => some (u16le c.maxNumberOfMeasurements)
  | .stsLength => some ([c.stsLength.code])
  | .minFramesPerRr => some ([c.minFramesPerRr])
  | .mtuSize => some (u16le c.mtuSize)
  | .interFrameInterval => some ([c.interFrameInterval])
  | .sessionKey => some (c.sessionKey)
  | .subSessionKey => some (match c.subSessionKey with
    | .none => []
    | .short key => key.1
    | .extended key => key.1)
  | .sessionDataTransferStatusNtfConfig => some ([c.sessionDataTransferStatusNtfConfig.code])
  | .sessionTimeBase => some (c.sessionTimeBase.1)
  | .applicationDataEndpoint => some ([c.applicationDataEndpoint])

/-- `AppConfig::get`, `src/app_config.rs` 367-497; `none` is `Err`. -/
def get (c : AppConfig) (id : AppConfigTlvType) : Option Bytes :=
  match Param.ofTag? id with
  | some p => getParam c p
  | none => none

/-- `AppConfig::is_compatible_for_ranging`, `src/app_config.rs` 499-508. `&&` evaluates left to
right, so the `unwrap`s are reached only when the roles and types differ. -/
def isCompatibleForRanging (self peer : AppConfig) : Except Panic Bool :=
  if self.deviceRole ≠ peer.deviceRole ∧ self.deviceType ≠ peer.deviceType then
    match self.deviceMacAddress with
    | none => .error .noMacAddress
    | some mac =>
      if mac ∈ peer.dstMacAddress then
        match peer.deviceMacAddress with
        | none => .error .noMacAddress
        | some peerMac => .ok (decide (peerMac ∈ self.dstMacAddress))
      else .ok false
  else .ok false

/-- `AppConfig::can_start_data_transfer`, `src/app_config.rs` 510-512. -/
def canStartDataTransfer (c : AppConfig) : Bool := decide (c.deviceRole = some .initiator)

/-- `AppConfig::can_receive_data_transfer`, `src/app_config.rs` 514-516. -/
def canReceiveDataTransfer (c : AppConfig) : Bool := decide (c.deviceRole = some .responder)

end AppConfig
end Pica
