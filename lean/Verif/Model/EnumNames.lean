import Verif.Model.Enums
/-!
The names of the tags of `/repo/src/uci_packets.pdl`, transcribed by `/verif/tools/gen_names.py`.
-/

namespace Pica

/-- The name of a tag in the packet description. -/
class NamedEnum (E : Type) where
  name : E → String

/-- `src/uci_packets.pdl` 17-20. -/
instance : NamedEnum PacketBoundaryFlag where
  name
    | .complete => "COMPLETE"
    | .notComplete => "NOT_COMPLETE"

/-- `src/uci_packets.pdl` 22-27. -/
instance : NamedEnum MessageType where
  name
    | .data => "DATA"
    | .command => "COMMAND"
    | .response => "RESPONSE"
    | .notification => "NOTIFICATION"

/-- `src/uci_packets.pdl` 29-41. -/
instance : NamedEnum GroupId where
  name
    | .core => "CORE"
    | .sessionConfig => "SESSION_CONFIG"
    | .sessionControl => "SESSION_CONTROL"
    | .dataControl => "DATA_CONTROL"
    | .vendorReserved9 => "VENDOR_RESERVED_9"
    | .vendorReservedA => "VENDOR_RESERVED_A"
    | .vendorReservedB => "VENDOR_RESERVED_B"
    | .vendorAndroid => "VENDOR_ANDROID"
    | .test => "TEST"
    | .vendorReservedE => "VENDOR_RESERVED_E"
    | .vendorReservedF => "VENDOR_RESERVED_F"

/-- `src/uci_packets.pdl` 43-46. -/
instance : NamedEnum DataPacketFormat where
  name
    | .dataSnd => "DATA_SND"
    | .dataRcv => "DATA_RCV"

/-- `src/uci_packets.pdl` 48-57. -/
instance : NamedEnum CoreOpcodeId where
  name
    | .deviceReset => "DEVICE_RESET"
    | .deviceStatus => "DEVICE_STATUS"
    | .getDeviceInfo => "GET_DEVICE_INFO"
    | .getCapsInfo => "GET_CAPS_INFO"
    | .setConfig => "SET_CONFIG"
    | .getConfig => "GET_CONFIG"
    | .genericError => "GENERIC_ERROR"
    | .queryUwbsTimestamp => "QUERY_UWBS_TIMESTAMP"

/-- `src/uci_packets.pdl` 59-71. -/
instance : NamedEnum SessionConfigOpcodeId where
  name
    | .init => "INIT"
    | .deinit => "DEINIT"
    | .status => "STATUS"
    | .setAppConfig => "SET_APP_CONFIG"
    | .getAppConfig => "GET_APP_CONFIG"
    | .getCount => "GET_COUNT"
    | .getState => "GET_STATE"
    | .updateControllerMulticastList => "UPDATE_CONTROLLER_MULTICAST_LIST"
    | .updateDtAnchorRangingRounds => "UPDATE_DT_ANCHOR_RANGING_ROUNDS"
    | .updateDtTagRangingRounds => "UPDATE_DT_TAG_RANGING_ROUNDS"
    | .queryDataSizeInRanging => "QUERY_DATA_SIZE_IN_RANGING"

/-- `src/uci_packets.pdl` 73-79. -/
instance : NamedEnum SessionControlOpcodeId where
  name
    | .start => "START"
    | .stop => "STOP"
    | .getRangingCount => "GET_RANGING_COUNT"
    | .dataCredit => "DATA_CREDIT"
    | .dataTransferStatus => "DATA_TRANSFER_STATUS"

/-- `src/uci_packets.pdl` 81-85. -/
instance : NamedEnum AndroidOpcodeId where
  name
    | .getPowerStats => "GET_POWER_STATS"
    | .setCountryCode => "SET_COUNTRY_CODE"
    | .firaRangeDiagnostics => "FIRA_RANGE_DIAGNOSTICS"

/-- `src/uci_packets.pdl` 148-151. -/
instance : NamedEnum CreditAvailability where
  name
    | .creditNotAvailable => "CREDIT_NOT_AVAILABLE"
    | .creditAvailable => "CREDIT_AVAILABLE"

/-- `src/uci_packets.pdl` 154-163. -/
instance : NamedEnum DataTransferNtfStatusCode where
  name
    | .uciDataTransferStatusRepetitionOk => "UCI_DATA_TRANSFER_STATUS_REPETITION_OK"
    | .uciDataTransferStatusOk => "UCI_DATA_TRANSFER_STATUS_OK"
    | .uciDataTransferStatusErrorDataTransfer => "UCI_DATA_TRANSFER_STATUS_ERROR_DATA_TRANSFER"
    | .uciDataTransferStatusErrorNoCreditAvailable => "UCI_DATA_TRANSFER_STATUS_ERROR_NO_CREDIT_AVAILABLE"
    | .uciDataTransferStatusErrorRejected => "UCI_DATA_TRANSFER_STATUS_ERROR_REJECTED"
    | .uciDataTransferStatusSessionTypeNotSupported => "UCI_DATA_TRANSFER_STATUS_SESSION_TYPE_NOT_SUPPORTED"
    | .uciDataTransferStatusErrorDataTransferIsOngoing => "UCI_DATA_TRANSFER_STATUS_ERROR_DATA_TRANSFER_IS_ONGOING"
    | .uciDataTransferStatusInvalidFormat => "UCI_DATA_TRANSFER_STATUS_INVALID_FORMAT"

/-- `src/uci_packets.pdl` 165-167. -/
instance : NamedEnum ResetConfig where
  name
    | .uwbsReset => "UWBS_RESET"

/-- `src/uci_packets.pdl` 268-275. -/
instance : NamedEnum DeviceType where
  name
    | .controlee => "CONTROLEE"
    | .controller => "CONTROLLER"

/-- `src/uci_packets.pdl` 277-286. -/
instance : NamedEnum RangingRoundUsage where
  name
    | .ssTwrDeferredMode => "SS_TWR_DEFERRED_MODE"
    | .dsTwrDeferredMode => "DS_TWR_DEFERRED_MODE"
    | .ssTwrNonDeferredMode => "SS_TWR_NON_DEFERRED_MODE"
    | .dsTwrNonDeferredMode => "DS_TWR_NON_DEFERRED_MODE"
    | .onWayRangingDlTdoa => "ON_WAY_RANGING_DL_TDOA"
    | .owrAoaMeasurement => "OWR_AOA_MEASUREMENT"
    | .essTwrNonDeferred => "ESS_TWR_NON_DEFERRED"
    | .adsTwrNonDeferred => "ADS_TWR_NON_DEFERRED"

/-- `src/uci_packets.pdl` 288-294. -/
instance : NamedEnum StsConfig where
  name
    | .static => "STATIC"
    | .dynamic => "DYNAMIC"
    | .dynamicForResponderSubSessionKey => "DYNAMIC_FOR_RESPONDER_SUB_SESSION_KEY"
    | .provisioned => "PROVISIONED"
    | .provisionedForResponderSubSessionKey => "PROVISIONED_FOR_RESPONDER_SUB_SESSION_KEY"

/-- `src/uci_packets.pdl` 296-299. -/
instance : NamedEnum MultiNodeMode where
  name
    | .oneToOne => "ONE_TO_ONE"
    | .oneToMany => "ONE_TO_MANY"

/-- `src/uci_packets.pdl` 301-310. -/
instance : NamedEnum ChannelNumber where
  name
    | .channelNumber5 => "CHANNEL_NUMBER_5"
    | .channelNumber6 => "CHANNEL_NUMBER_6"
    | .channelNumber8 => "CHANNEL_NUMBER_8"
    | .channelNumber9 => "CHANNEL_NUMBER_9"
    | .channelNumber10 => "CHANNEL_NUMBER_10"
    | .channelNumber12 => "CHANNEL_NUMBER_12"
    | .channelNumber13 => "CHANNEL_NUMBER_13"
    | .channelNumber14 => "CHANNEL_NUMBER_14"

/-- `src/uci_packets.pdl` 312-315. -/
instance : NamedEnum MacFcsType where
  name
    | .crc16 => "CRC_16"
    | .crc32 => "CRC_32"

/-- `src/uci_packets.pdl` 326-331. -/
instance : NamedEnum AoaResultReq where
  name
    | .aoaDisabled => "AOA_DISABLED"
    | .aoaEnabled => "AOA_ENABLED"
    | .aoaEnabledAzimuthOnly => "AOA_ENABLED_AZIMUTH_ONLY"
    | .aoaEnabledElevationOnly => "AOA_ENABLED_ELEVATION_ONLY"

/-- `src/uci_packets.pdl` 333-342. -/
instance : NamedEnum SessionInfoNtfConfig where
  name
    | .disable => "DISABLE"
    | .enable => "ENABLE"
    | .enableProximityTrigger => "ENABLE_PROXIMITY_TRIGGER"
    | .enableAoaTrigger => "ENABLE_AOA_TRIGGER"
    | .enableProximityAoaTrigger => "ENABLE_PROXIMITY_AOA_TRIGGER"
    | .enableProximityEdgeTrigger => "ENABLE_PROXIMITY_EDGE_TRIGGER"
    | .enableAoaEdgeTrigger => "ENABLE_AOA_EDGE_TRIGGER"
    | .enableProximityAoaEdgeTrigger => "ENABLE_PROXIMITY_AOA_EDGE_TRIGGER"

/-- `src/uci_packets.pdl` 344-355. -/
instance : NamedEnum DeviceRole where
  name
    | .responder => "RESPONDER"
    | .initiator => "INITIATOR"
    | .advertiser => "ADVERTISER"
    | .observer => "OBSERVER"
    | .dtAnchor => "DT_ANCHOR"
    | .dtTag => "DT_TAG"

/-- `src/uci_packets.pdl` 357-361. -/
instance : NamedEnum RframeConfig where
  name
    | .sp0 => "SP0"
    | .sp1 => "SP1"
    | .sp3 => "SP3"

/-- `src/uci_packets.pdl` 363-366. -/
instance : NamedEnum RssiReporting where
  name
    | .disable => "DISABLE"
    | .enable => "ENABLE"

/-- `src/uci_packets.pdl` 368-373. -/
instance : NamedEnum PsduDataRate where
  name
    | .dataRate6m81 => "DATA_RATE_6M81"
    | .dataRate7m80 => "DATA_RATE_7M80"
    | .dataRate27m2 => "DATA_RATE_27M2"
    | .dataRate31m2 => "DATA_RATE_31M2"

/-- `src/uci_packets.pdl` 375-378. -/
instance : NamedEnum PreambleDuration where
  name
    | .duration32Symbols => "DURATION_32_SYMBOLS"
    | .duration64Symbols => "DURATION_64_SYMBOLS"

/-- `src/uci_packets.pdl` 380-382. -/
instance : NamedEnum LinkLayerMode where
  name
    | .bypassMode => "BYPASS_MODE"

/-- `src/uci_packets.pdl` 384-386. -/
instance : NamedEnum RangingTimeStruct where
  name
    | .blockBasedScheduling => "BLOCK_BASED_SCHEDULING"

/-- `src/uci_packets.pdl` 388-392. -/
instance : NamedEnum PrfMode where
  name
    | .bprfMode => "BPRF_MODE"
    | .hprfMode124m8 => "HPRF_MODE_124M8"
    | .hprfMode249m6 => "HPRF_MODE_249M6"

/-- `src/uci_packets.pdl` 394-397. -/
instance : NamedEnum ScheduleMode where
  name
    | .contentionBased => "CONTENTION_BASED"
    | .timeScheduled => "TIME_SCHEDULED"

/-- `src/uci_packets.pdl` 399-402. -/
instance : NamedEnum KeyRotation where
  name
    | .disable => "DISABLE"
    | .enable => "ENABLE"

/-- `src/uci_packets.pdl` 404-412. -/
instance : NamedEnum MacAddressMode where
  name
    | .mode0 => "MODE_0"
    | .mode1 => "MODE_1"
    | .mode2 => "MODE_2"

/-- `src/uci_packets.pdl` 414-417. -/
instance : NamedEnum HoppingMode where
  name
    | .disable => "DISABLE"
    | .enable => "ENABLE"

/-- `src/uci_packets.pdl` 427-430. -/
instance : NamedEnum BprfPhrDataRate where
  name
    | .dataRate850k => "DATA_RATE_850K"
    | .dataRate6m81 => "DATA_RATE_6M81"

/-- `src/uci_packets.pdl` 432-436. -/
instance : NamedEnum StsLength where
  name
    | .length32Symbols => "LENGTH_32_SYMBOLS"
    | .length64Symbols => "LENGTH_64_SYMBOLS"
    | .length128Symbols => "LENGTH_128_SYMBOLS"

/-- `src/uci_packets.pdl` 448-451. -/
instance : NamedEnum SessionDataTransferStatusNtfConfig where
  name
    | .disable => "DISABLE"
    | .enable => "ENABLE"

/-- `src/uci_packets.pdl` 515-519. -/
instance : NamedEnum DeviceState where
  name
    | .deviceStateReady => "DEVICE_STATE_READY"
    | .deviceStateActive => "DEVICE_STATE_ACTIVE"
    | .deviceStateError => "DEVICE_STATE_ERROR"

/-- `src/uci_packets.pdl` 521-526. -/
instance : NamedEnum SessionState where
  name
    | .sessionStateInit => "SESSION_STATE_INIT"
    | .sessionStateDeinit => "SESSION_STATE_DEINIT"
    | .sessionStateActive => "SESSION_STATE_ACTIVE"
    | .sessionStateIdle => "SESSION_STATE_IDLE"

/-- `src/uci_packets.pdl` 584-594. -/
instance : NamedEnum MulticastUpdateStatus where
  name
    | .okMulticastListUpdate => "OK_MULTICAST_LIST_UPDATE"
    | .errorMulticastListFull => "ERROR_MULTICAST_LIST_FULL"
    | .errorKeyFetchFail => "ERROR_KEY_FETCH_FAIL"
    | .errorSubSessionIdNotFound => "ERROR_SUB_SESSION_ID_NOT_FOUND"
    | .errorSubSessionKeyNotFound => "ERROR_SUB_SESSION_KEY_NOT_FOUND"
    | .errorSubSessionKeyNotApplicable => "ERROR_SUB_SESSION_KEY_NOT_APPLICABLE"
    | .errorSessionKeyNotFound => "ERROR_SESSION_KEY_NOT_FOUND"
    | .errorAddressNotFound => "ERROR_ADDRESS_NOT_FOUND"
    | .errorAddressAlreadyPresent => "ERROR_ADDRESS_ALREADY_PRESENT"

/-- `src/uci_packets.pdl` 596-599. -/
instance : NamedEnum MacAddressIndicator where
  name
    | .shortAddress => "SHORT_ADDRESS"
    | .extendedAddress => "EXTENDED_ADDRESS"

/-- `src/uci_packets.pdl` 601-610. -/
instance : NamedEnum SessionType where
  name
    | .firaRangingSession => "FIRA_RANGING_SESSION"
    | .firaRangingAndInBandDataSession => "FIRA_RANGING_AND_IN_BAND_DATA_SESSION"
    | .firaDataTransferSession => "FIRA_DATA_TRANSFER_SESSION"
    | .firaRangingOnlyPhase => "FIRA_RANGING_ONLY_PHASE"
    | .firaInBandDataPhase => "FIRA_IN_BAND_DATA_PHASE"
    | .firaRangingWithDataPhase => "FIRA_RANGING_WITH_DATA_PHASE"
    | .ccc => "CCC"
    | .deviceTestMode => "DEVICE_TEST_MODE"

/-- `src/uci_packets.pdl` 1269-1274. -/
instance : NamedEnum RangingMeasurementType where
  name
    | .oneWay => "ONE_WAY"
    | .twoWay => "TWO_WAY"
    | .dlTdoa => "DL_TDOA"
    | .owrAoa => "OWR_AOA"

/-- `src/uci_packets.pdl` 1043-1048. -/
instance : NamedEnum UpdateMulticastListAction where
  name
    | .addControlee => "ADD_CONTROLEE"
    | .removeControlee => "REMOVE_CONTROLEE"
    | .addControleeWithShortSubSessionKey => "ADD_CONTROLEE_WITH_SHORT_SUB_SESSION_KEY"
    | .addControleeWithExtendedSubSessionKey => "ADD_CONTROLEE_WITH_EXTENDED_SUB_SESSION_KEY"

/-- The named tags of `Status` outside of its ranges, `src/uci_packets.pdl` 88-138. -/
def Status.named : List (String × Status) := [
  ("OK", .ok),
  ("REJECTED", .rejected),
  ("FAILED", .failed),
  ("SYNTAX_ERROR", .syntaxError),
  ("INVALID_PARAM", .invalidParam),
  ("INVALID_RANGE", .invalidRange),
  ("INVALID_MESSAGE_SIZE", .invalidMessageSize),
  ("UNKNOWN_GID", .unknownGid),
  ("UNKNOWN_OID", .unknownOid),
  ("READ_ONLY", .readOnly),
  ("UCI_MESSAGE_RETRY", .uciMessageRetry),
  ("UNKNOWN", .unknown),
  ("NOT_APPLICABLE", .notApplicable),
  ("ERROR_SESSION_NOT_EXIST", .errorSessionNotExist),
  ("ERROR_SESSION_DUPLICATE", .errorSessionDuplicate),
  ("ERROR_SESSION_ACTIVE", .errorSessionActive),
  ("ERROR_MAX_SESSIONS_EXCEEDED", .errorMaxSessionsExceeded),
  ("ERROR_SESSION_NOT_CONFIGURED", .errorSessionNotConfigured),
  ("ERROR_ACTIVE_SESSIONS_ONGOING", .errorActiveSessionsOngoing),
  ("ERROR_MULTICAST_LIST_FULL", .errorMulticastListFull),
  ("ERROR_UWB_INITIATION_TIME_TOO_OLD", .errorUwbInitiationTimeTooOld),
  ("OK_NEGATIVE_DISTANCE_REPORT", .okNegativeDistanceReport),
  ("RANGING_TX_FAILED", .rangingTxFailed),
  ("RANGING_RX_TIMEOUT", .rangingRxTimeout),
  ("RANGING_RX_PHY_DEC_FAILED", .rangingRxPhyDecFailed),
  ("RANGING_RX_PHY_TOA_FAILED", .rangingRxPhyToaFailed),
  ("RANGING_RX_PHY_STS_FAILED", .rangingRxPhyStsFailed),
  ("RANGING_RX_MAC_DEC_FAILED", .rangingRxMacDecFailed),
  ("RANGING_RX_MAC_IE_DEC_FAILED", .rangingRxMacIeDecFailed),
  ("RANGING_RX_MAC_IE_MISSING", .rangingRxMacIeMissing),
  ("ERROR_ROUND_INDEX_NOT_ACTIVATED", .errorRoundIndexNotActivated),
  ("ERROR_NUMBER_OF_ACTIVE_RANGING_ROUNDS_EXCEEDED", .errorNumberOfActiveRangingRoundsExceeded),
  ("ERROR_DL_TDOA_DEVICE_ADDRESS_NOT_MATCHING_IN_REPLY_TIME_LIST", .errorDlTdoaDeviceAddressNotMatchingInReplyTimeList)]

/-- The named tags of `Status` within its ranges, `src/uci_packets.pdl` 88-138. -/
def Status.nested : List (String × Status) := [
  ("ERROR_CCC_SE_BUSY", .errorCccSeBusy),
  ("ERROR_CCC_LIFECYCLE", .errorCccLifecycle),
  ("ERROR_STOPPED_DUE_TO_OTHER_SESSION_CONFLICT", .errorStoppedDueToOtherSessionConflict),
  ("REGULATION_UWB_OFF", .regulationUwbOff)]

/-- The named tags of `ReasonCode` outside of its ranges, `src/uci_packets.pdl` 528-581. -/
def ReasonCode.named : List (String × ReasonCode) := [
  ("STATE_CHANGE_WITH_SESSION_MANAGEMENT_COMMANDS", .stateChangeWithSessionManagementCommands),
  ("MAX_RANGING_ROUND_RETRY_COUNT_REACHED", .maxRangingRoundRetryCountReached),
  ("MAX_NUMBER_OF_MEASUREMENTS_REACHED", .maxNumberOfMeasurementsReached),
  ("SESSION_SUSPENDED_DUE_TO_INBAND_SIGNAL", .sessionSuspendedDueToInbandSignal),
  ("SESSION_RESUMED_DUE_TO_INBAND_SIGNAL", .sessionResumedDueToInbandSignal),
  ("SESSION_STOPPED_DUE_TO_INBAND_SIGNAL", .sessionStoppedDueToInbandSignal),
  ("ERROR_INVALID_UL_TDOA_RANDOM_WINDOW", .errorInvalidUlTdoaRandomWindow),
  ("ERROR_MIN_RFRAMES_PER_RR_NOT_SUPPORTED", .errorMinRframesPerRrNotSupported),
  ("ERROR_TX_DELAY_NOT_SUPPORTED", .errorTxDelayNotSupported),
  ("ERROR_SLOT_LENGTH_NOT_SUPPORTED", .errorSlotLengthNotSupported),
  ("ERROR_INSUFFICIENT_SLOTS_PER_RR", .errorInsufficientSlotsPerRr),
  ("ERROR_MAC_ADDRESS_MODE_NOT_SUPPORTED", .errorMacAddressModeNotSupported),
  ("ERROR_INVALID_RANGING_DURATION", .errorInvalidRangingDuration),
  ("ERROR_INVALID_STS_CONFIG", .errorInvalidStsConfig),
  ("ERROR_INVALID_RFRAME_CONFIG", .errorInvalidRframeConfig),
  ("ERROR_HUS_NOT_ENOUGH_SLOTS", .errorHusNotEnoughSlots),
  ("ERROR_HUS_CFP_PHASE_TOO_SHORT", .errorHusCfpPhaseTooShort),
  ("ERROR_HUS_CAP_PHASE_TOO_SHORT", .errorHusCapPhaseTooShort),
  ("ERROR_HUS_OTHERS", .errorHusOthers),
  ("ERROR_STATUS_SESSION_KEY_NOT_FOUND", .errorStatusSessionKeyNotFound),
  ("ERROR_STATUS_SUB_SESSION_KEY_NOT_FOUND", .errorStatusSubSessionKeyNotFound),
  ("ERROR_INVALID_PREAMBLE_CODE_INDEX", .errorInvalidPreambleCodeIndex),
  ("ERROR_INVALID_SFD_ID", .errorInvalidSfdId),
  ("ERROR_INVALID_PSDU_DATA_RATE", .errorInvalidPsduDataRate),
  ("ERROR_INVALID_PHR_DATA_RATE", .errorInvalidPhrDataRate),
  ("ERROR_INVALID_PREAMBLE_DURATION", .errorInvalidPreambleDuration),
  ("ERROR_INVALID_STS_LENGTH", .errorInvalidStsLength),
  ("ERROR_INVALID_NUM_OF_STS_SEGMENTS", .errorInvalidNumOfStsSegments),
  ("ERROR_INVALID_NUM_OF_CONTROLEES", .errorInvalidNumOfControlees),
  ("ERROR_MAX_RANGING_REPLY_TIME_EXCEEDED", .errorMaxRangingReplyTimeExceeded),
  ("ERROR_INVALID_DST_ADDRESS_LIST", .errorInvalidDstAddressList),
  ("ERROR_INVALID_OR_NOT_FOUND_SUB_SESSION_ID", .errorInvalidOrNotFoundSubSessionId),
  ("ERROR_INVALID_RESULT_REPORT_CONFIG", .errorInvalidResultReportConfig),
  ("ERROR_INVALID_RANGING_ROUND_CONTROL_CONFIG", .errorInvalidRangingRoundControlConfig),
  ("ERROR_INVALID_RANGING_ROUND_USAGE", .errorInvalidRangingRoundUsage),
  ("ERROR_INVALID_MULTI_NODE_MODE", .errorInvalidMultiNodeMode),
  ("ERROR_RDS_FETCH_FAILURE", .errorRdsFetchFailure),
  ("ERROR_REF_UWB_SESSION_DOES_NOT_EXIST", .errorRefUwbSessionDoesNotExist),
  ("ERROR_REF_UWB_SESSION_RANGING_DURATION_MISMATCH", .errorRefUwbSessionRangingDurationMismatch),
  ("ERROR_REF_UWB_SESSION_INVALID_OFFSET_TIME", .errorRefUwbSessionInvalidOffsetTime),
  ("ERROR_REF_UWB_SESSION_LOST", .errorRefUwbSessionLost),
  ("VENDOR_SPECIFIC_REASON_CODE_2", .vendorSpecificReasonCode2)]

/-- The named tags of `ReasonCode` within its ranges, `src/uci_packets.pdl` 528-581. -/
def ReasonCode.nested : List (String × ReasonCode) := [
  ("ERROR_DT_ANCHOR_RANGING_ROUNDS_NOT_CONFIGURED", .errorDtAnchorRangingRoundsNotConfigured),
  ("ERROR_DT_TAG_RANGING_ROUNDS_NOT_CONFIGURED", .errorDtTagRangingRoundsNotConfigured),
  ("ERROR_INVALID_CHANNEL_WITH_AOA", .errorInvalidChannelWithAoa),
  ("ERROR_STOPPED_DUE_TO_OTHER_SESSION_CONFLICT", .errorStoppedDueToOtherSessionConflict)]

/-- The named tags of `ConfigParameterId` outside of its ranges, `src/uci_packets.pdl` 773-777. -/
def ConfigParameterId.named : List (String × ConfigParameterId) := [
  ("DEVICE_STATE", .deviceState),
  ("LOW_POWER_MODE", .lowPowerMode)]

/-- The named tags of `ConfigParameterId` within its ranges, `src/uci_packets.pdl` 773-777. -/
def ConfigParameterId.nested : List (String × ConfigParameterId) := [
]

/-- The named tags of `AppConfigTlvType` outside of its ranges, `src/uci_packets.pdl` 170-266. -/
def AppConfigTlvType.named : List (String × AppConfigTlvType) := [
  ("DEVICE_TYPE", .deviceType),
  ("RANGING_ROUND_USAGE", .rangingRoundUsage),
  ("STS_CONFIG", .stsConfig),
  ("MULTI_NODE_MODE", .multiNodeMode),
  ("CHANNEL_NUMBER", .channelNumber),
  ("NUMBER_OF_CONTROLEES", .numberOfControlees),
  ("DEVICE_MAC_ADDRESS", .deviceMacAddress),
  ("DST_MAC_ADDRESS", .dstMacAddress),
  ("SLOT_DURATION", .slotDuration),
  ("RANGING_DURATION", .rangingDuration),
  ("STS_INDEX", .stsIndex),
  ("MAC_FCS_TYPE", .macFcsType),
  ("RANGING_ROUND_CONTROL", .rangingRoundControl),
  ("AOA_RESULT_REQ", .aoaResultReq),
  ("SESSION_INFO_NTF_CONFIG", .sessionInfoNtfConfig),
  ("NEAR_PROXIMITY_CONFIG", .nearProximityConfig),
  ("FAR_PROXIMITY_CONFIG", .farProximityConfig),
  ("DEVICE_ROLE", .deviceRole),
  ("RFRAME_CONFIG", .rframeConfig),
  ("RSSI_REPORTING", .rssiReporting),
  ("PREAMBLE_CODE_INDEX", .preambleCodeIndex),
  ("SFD_ID", .sfdId),
  ("PSDU_DATA_RATE", .psduDataRate),
  ("PREAMBLE_DURATION", .preambleDuration),
  ("LINK_LAYER_MODE", .linkLayerMode),
  ("DATA_REPETITION_COUNT", .dataRepetitionCount),
  ("RANGING_TIME_STRUCT", .rangingTimeStruct),
  ("SLOTS_PER_RR", .slotsPerRr),
  ("AOA_BOUND_CONFIG", .aoaBoundConfig),
  ("PRF_MODE", .prfMode),
  ("CAP_SIZE_RANGE", .capSizeRange),
  ("TX_JITTER_WINDOW_SIZE", .txJitterWindowSize),
  ("SCHEDULE_MODE", .scheduleMode),
  ("KEY_ROTATION", .keyRotation),
  ("KEY_ROTATION_RATE", .keyRotationRate),
  ("SESSION_PRIORITY", .sessionPriority),
  ("MAC_ADDRESS_MODE", .macAddressMode),
  ("VENDOR_ID", .vendorId),
  ("STATIC_STS_IV", .staticStsIv),
  ("NUMBER_OF_STS_SEGMENTS", .numberOfStsSegments),
  ("MAX_RR_RETRY", .maxRrRetry),
  ("UWB_INITIATION_TIME", .uwbInitiationTime),
  ("HOPPING_MODE", .hoppingMode),
  ("BLOCK_STRIDE_LENGTH", .blockStrideLength),
  ("RESULT_REPORT_CONFIG", .resultReportConfig),
  ("IN_BAND_TERMINATION_ATTEMPT_COUNT", .inBandTerminationAttemptCount),
  ("SUB_SESSION_ID", .subSessionId),
  ("BPRF_PHR_DATA_RATE", .bprfPhrDataRate),
  ("MAX_NUMBER_OF_MEASUREMENTS", .maxNumberOfMeasurements),
  ("STS_LENGTH", .stsLength),
  ("MIN_FRAMES_PER_RR", .minFramesPerRr),
  ("MTU_SIZE", .mtuSize),
  ("INTER_FRAME_INTERVAL", .interFrameInterval),
  ("DL_TDOA_RANGING_METHOD", .dlTdoaRangingMethod),
  ("DL_TDOA_TX_TIMESTAMP_CONF", .dlTdoaTxTimestampConf),
  ("DL_TDOA_HOP_COUNT", .dlTdoaHopCount),
  ("DL_TDOA_ANCHOR_CFO", .dlTdoaAnchorCfo),
  ("DL_TDOA_ANCHOR_LOCATION", .dlTdoaAnchorLocation),
  ("DL_TDOA_TX_ACTIVE_RANGING_ROUNDS", .dlTdoaTxActiveRangingRounds),
  ("DL_TDOA_BLOCK_SKIPPING", .dlTdoaBlockSkipping),
  ("DL_TDOA_TIME_REFERENCE_ANCHOR", .dlTdoaTimeReferenceAnchor),
  ("SESSION_KEY", .sessionKey),
  ("SUB_SESSION_KEY", .subSessionKey),
  ("SESSION_DATA_TRANSFER_STATUS_NTF_CONFIG", .sessionDataTransferStatusNtfConfig),
  ("SESSION_TIME_BASE", .sessionTimeBase),
  ("DL_TDOA_RESPONDER_TOF", .dlTdoaResponderTof),
  ("SECURE_RANGING_NEFA_LEVEL", .secureRangingNefaLevel),
  ("SECURE_RANGING_CSW_LENGTH", .secureRangingCswLength),
  ("APPLICATION_DATA_ENDPOINT", .applicationDataEndpoint),
  ("OWR_AOA_MEASUREMENT_NTF_PERIOD", .owrAoaMeasurementNtfPeriod)]

/-- The named tags of `AppConfigTlvType` within its ranges, `src/uci_packets.pdl` 170-266. -/
def AppConfigTlvType.nested : List (String × AppConfigTlvType) := [
  ("CCC_HOP_MODE_KEY", .cccHopModeKey),
  ("CCC_UWB_TIME0", .cccUwbTime0),
  ("CCC_RANGING_PROTOCOL_VER", .cccRangingProtocolVer),
  ("CCC_UWB_CONFIG_ID", .cccUwbConfigId),
  ("CCC_PULSESHAPE_COMBO", .cccPulseshapeCombo),
  ("CCC_URSK_TTL", .cccUrskTtl),
  ("CCC_LAST_INDEX_USED", .cccLastIndexUsed),
  ("NB_OF_RANGE_MEASUREMENTS", .nbOfRangeMeasurements),
  ("NB_OF_AZIMUTH_MEASUREMENTS", .nbOfAzimuthMeasurements),
  ("NB_OF_ELEVATION_MEASUREMENTS", .nbOfElevationMeasurements),
  ("ENABLE_DIAGNOSTICS", .enableDiagnostics),
  ("DIAGRAMS_FRAME_REPORTS_FIELDS", .diagramsFrameReportsFields)]

/-- The named tags of `CapTlvType` outside of its ranges, `src/uci_packets.pdl` 453-502. -/
def CapTlvType.named : List (String × CapTlvType) := [
  ("SUPPORTED_FIRA_PHY_VERSION_RANGE", .supportedFiraPhyVersionRange),
  ("SUPPORTED_FIRA_MAC_VERSION_RANGE", .supportedFiraMacVersionRange),
  ("SUPPORTED_DEVICE_ROLES", .supportedDeviceRoles),
  ("SUPPORTED_RANGING_METHOD", .supportedRangingMethod),
  ("SUPPORTED_STS_CONFIG", .supportedStsConfig),
  ("SUPPORTED_MULTI_NODE_MODES", .supportedMultiNodeModes),
  ("SUPPORTED_RANGING_TIME_STRUCT", .supportedRangingTimeStruct),
  ("SUPPORTED_SCHEDULED_MODE", .supportedScheduledMode),
  ("SUPPORTED_HOPPING_MODE", .supportedHoppingMode),
  ("SUPPORTED_BLOCK_STRIDING", .supportedBlockStriding),
  ("SUPPORTED_UWB_INITIATION_TIME", .supportedUwbInitiationTime),
  ("SUPPORTED_CHANNELS", .supportedChannels),
  ("SUPPORTED_RFRAME_CONFIG", .supportedRframeConfig),
  ("SUPPORTED_CC_CONSTRAINT_LENGTH", .supportedCcConstraintLength),
  ("SUPPORTED_BPRF_PARAMETER_SETS", .supportedBprfParameterSets),
  ("SUPPORTED_HPRF_PARAMETER_SETS", .supportedHprfParameterSets),
  ("SUPPORTED_AOA", .supportedAoa),
  ("SUPPORTED_EXTENDED_MAC_ADDRESS", .supportedExtendedMacAddress),
  ("SUPPORTED_MAX_MESSAGE_SIZE", .supportedMaxMessageSize),
  ("SUPPORTED_MAX_DATA_PACKET_PAYLOAD_SIZE", .supportedMaxDataPacketPayloadSize),
  ("SUPPORTED_POWER_STATS", .supportedPowerStats)]

/-- The named tags of `CapTlvType` within its ranges, `src/uci_packets.pdl` 453-502. -/
def CapTlvType.nested : List (String × CapTlvType) := [
  ("CCC_SUPPORTED_CHAPS_PER_SLOT", .cccSupportedChapsPerSlot),
  ("CCC_SUPPORTED_SYNC_CODES", .cccSupportedSyncCodes),
  ("CCC_SUPPORTED_HOPPING_CONFIG_MODES_AND_SEQUENCES", .cccSupportedHoppingConfigModesAndSequences),
  ("CCC_SUPPORTED_CHANNELS", .cccSupportedChannels),
  ("CCC_SUPPORTED_VERSIONS", .cccSupportedVersions),
  ("CCC_SUPPORTED_UWB_CONFIGS", .cccSupportedUwbConfigs),
  ("CCC_SUPPORTED_PULSE_SHAPE_COMBOS", .cccSupportedPulseShapeCombos),
  ("CCC_SUPPORTED_RAN_MULTIPLIER", .cccSupportedRanMultiplier),
  ("CCC_SUPPORTED_MAX_RANGING_SESSION_NUMBER", .cccSupportedMaxRangingSessionNumber),
  ("SUPPORTED_AOA_RESULT_REQ_ANTENNA_INTERLEAVING", .supportedAoaResultReqAntennaInterleaving),
  ("SUPPORTED_MIN_RANGING_INTERVAL_MS", .supportedMinRangingIntervalMs),
  ("SUPPORTED_RANGE_DATA_NTF_CONFIG", .supportedRangeDataNtfConfig),
  ("SUPPORTED_RSSI_REPORTING", .supportedRssiReporting),
  ("SUPPORTED_DIAGNOSTICS", .supportedDiagnostics),
  ("SUPPORTED_MIN_SLOT_DURATION_RSTU", .supportedMinSlotDurationRstu),
  ("SUPPORTED_MAX_RANGING_SESSION_NUMBER", .supportedMaxRangingSessionNumber)]

end Pica
