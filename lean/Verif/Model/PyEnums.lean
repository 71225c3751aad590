/-!
The enumerations of `/repo/py/pica/pica/packets/uci.py`, transcribed by `/verif/tools/gen_names.py`.
-/

namespace Pica.Py

/-- A class derived from `enum.IntEnum`. -/
structure IntEnum where
  name : String
  members : List (String × Nat)
  /-- `from_int` raises for other values than those of the members; otherwise it returns them -/
  closed : Bool
  deriving DecidableEq

/-- `E.from_int(v)`; `none` is an exception. -/
def IntEnum.fromInt (c : IntEnum) (v : Nat) : Option Nat :=
  if v ∈ c.members.map Prod.snd then some v else if c.closed then none else some v

/-- The classes, in their order. -/
def classes : List IntEnum := [
  -- 85-94
  ⟨"PacketBoundaryFlag", [
    ("COMPLETE", 0x00),
    ("NOT_COMPLETE", 0x01)],
    true⟩,
  -- 97-108
  ⟨"MessageType", [
    ("DATA", 0x00),
    ("COMMAND", 0x01),
    ("RESPONSE", 0x02),
    ("NOTIFICATION", 0x03)],
    true⟩,
  -- 111-129
  ⟨"GroupId", [
    ("CORE", 0x00),
    ("SESSION_CONFIG", 0x01),
    ("SESSION_CONTROL", 0x02),
    ("DATA_CONTROL", 0x03),
    ("VENDOR_RESERVED_9", 0x09),
    ("VENDOR_RESERVED_A", 0x0a),
    ("VENDOR_RESERVED_B", 0x0b),
    ("VENDOR_ANDROID", 0x0c),
    ("TEST", 0x0d),
    ("VENDOR_RESERVED_E", 0x0e),
    ("VENDOR_RESERVED_F", 0x0f)],
    true⟩,
  -- 132-141
  ⟨"DataPacketFormat", [
    ("DATA_SND", 0x01),
    ("DATA_RCV", 0x02)],
    true⟩,
  -- 144-159
  ⟨"CoreOpcodeId", [
    ("DEVICE_RESET", 0x00),
    ("DEVICE_STATUS", 0x01),
    ("GET_DEVICE_INFO", 0x02),
    ("GET_CAPS_INFO", 0x03),
    ("SET_CONFIG", 0x04),
    ("GET_CONFIG", 0x05),
    ("GENERIC_ERROR", 0x07),
    ("QUERY_UWBS_TIMESTAMP", 0x08)],
    true⟩,
  -- 162-180
  ⟨"SessionConfigOpcodeId", [
    ("INIT", 0x00),
    ("DEINIT", 0x01),
    ("STATUS", 0x02),
    ("SET_APP_CONFIG", 0x03),
    ("GET_APP_CONFIG", 0x04),
    ("GET_COUNT", 0x05),
    ("GET_STATE", 0x06),
    ("UPDATE_CONTROLLER_MULTICAST_LIST", 0x07),
    ("UPDATE_DT_ANCHOR_RANGING_ROUNDS", 0x08),
    ("UPDATE_DT_TAG_RANGING_ROUNDS", 0x09),
    ("QUERY_DATA_SIZE_IN_RANGING", 0x0b)],
    true⟩,
  -- 183-195
  ⟨"SessionControlOpcodeId", [
    ("START", 0x00),
    ("STOP", 0x01),
    ("GET_RANGING_COUNT", 0x03),
    ("DATA_CREDIT", 0x04),
    ("DATA_TRANSFER_STATUS", 0x05)],
    true⟩,
  -- 198-208
  ⟨"AndroidOpcodeId", [
    ("GET_POWER_STATS", 0x00),
    ("SET_COUNTRY_CODE", 0x01),
    ("FIRA_RANGE_DIAGNOSTICS", 0x02)],
    true⟩,
  -- 211-251
  ⟨"Status", [
    ("OK", 0x00),
    ("REJECTED", 0x01),
    ("FAILED", 0x02),
    ("SYNTAX_ERROR", 0x03),
    ("INVALID_PARAM", 0x04),
    ("INVALID_RANGE", 0x05),
    ("INVALID_MESSAGE_SIZE", 0x06),
    ("UNKNOWN_GID", 0x07),
    ("UNKNOWN_OID", 0x08),
    ("READ_ONLY", 0x09),
    ("UCI_MESSAGE_RETRY", 0x0a),
    ("UNKNOWN", 0x0b),
    ("NOT_APPLICABLE", 0x0c),
    ("ERROR_SESSION_NOT_EXIST", 0x11),
    ("ERROR_SESSION_DUPLICATE", 0x12),
    ("ERROR_SESSION_ACTIVE", 0x13),
    ("ERROR_MAX_SESSIONS_EXCEEDED", 0x14),
    ("ERROR_SESSION_NOT_CONFIGURED", 0x15),
    ("ERROR_ACTIVE_SESSIONS_ONGOING", 0x16),
    ("ERROR_MULTICAST_LIST_FULL", 0x17),
    ("ERROR_UWB_INITIATION_TIME_TOO_OLD", 0x1a),
    ("OK_NEGATIVE_DISTANCE_REPORT", 0x1b),
    ("RANGING_TX_FAILED", 0x20),
    ("RANGING_RX_TIMEOUT", 0x21),
    ("RANGING_RX_PHY_DEC_FAILED", 0x22),
    ("RANGING_RX_PHY_TOA_FAILED", 0x23),
    ("RANGING_RX_PHY_STS_FAILED", 0x24),
    ("RANGING_RX_MAC_DEC_FAILED", 0x25),
    ("RANGING_RX_MAC_IE_DEC_FAILED", 0x26),
    ("RANGING_RX_MAC_IE_MISSING", 0x27),
    ("ERROR_ROUND_INDEX_NOT_ACTIVATED", 0x28),
    ("ERROR_NUMBER_OF_ACTIVE_RANGING_ROUNDS_EXCEEDED", 0x29),
    ("ERROR_DL_TDOA_DEVICE_ADDRESS_NOT_MATCHING_IN_REPLY_TIME_LIST", 0x2a)],
    false⟩,
  -- 254-264
  ⟨"DataRcvStatusCode", [
    ("UCI_STATUS_SUCCESS", 0x00),
    ("UCI_STATUS_ERROR", 0x01),
    ("UCI_STATUS_UNKNOWN", 0x02)],
    true⟩,
  -- 267-276
  ⟨"CreditAvailability", [
    ("CREDIT_NOT_AVAILABLE", 0x00),
    ("CREDIT_AVAILABLE", 0x01)],
    true⟩,
  -- 279-294
  ⟨"DataTransferNtfStatusCode", [
    ("UCI_DATA_TRANSFER_STATUS_REPETITION_OK", 0x00),
    ("UCI_DATA_TRANSFER_STATUS_OK", 0x01),
    ("UCI_DATA_TRANSFER_STATUS_ERROR_DATA_TRANSFER", 0x02),
    ("UCI_DATA_TRANSFER_STATUS_ERROR_NO_CREDIT_AVAILABLE", 0x03),
    ("UCI_DATA_TRANSFER_STATUS_ERROR_REJECTED", 0x04),
    ("UCI_DATA_TRANSFER_STATUS_SESSION_TYPE_NOT_SUPPORTED", 0x05),
    ("UCI_DATA_TRANSFER_STATUS_ERROR_DATA_TRANSFER_IS_ONGOING", 0x06),
    ("UCI_DATA_TRANSFER_STATUS_INVALID_FORMAT", 0x07)],
    true⟩,
  -- 297-305
  ⟨"ResetConfig", [
    ("UWBS_RESET", 0x00)],
    true⟩,
  -- 308-385
  ⟨"AppConfigTlvType", [
    ("DEVICE_TYPE", 0x00),
    ("RANGING_ROUND_USAGE", 0x01),
    ("STS_CONFIG", 0x02),
    ("MULTI_NODE_MODE", 0x03),
    ("CHANNEL_NUMBER", 0x04),
    ("NUMBER_OF_CONTROLEES", 0x05),
    ("DEVICE_MAC_ADDRESS", 0x06),
    ("DST_MAC_ADDRESS", 0x07),
    ("SLOT_DURATION", 0x08),
    ("RANGING_DURATION", 0x09),
    ("STS_INDEX", 0x0a),
    ("MAC_FCS_TYPE", 0x0b),
    ("RANGING_ROUND_CONTROL", 0x0c),
    ("AOA_RESULT_REQ", 0x0d),
    ("SESSION_INFO_NTF_CONFIG", 0x0e),
    ("NEAR_PROXIMITY_CONFIG", 0x0f),
    ("FAR_PROXIMITY_CONFIG", 0x10),
    ("DEVICE_ROLE", 0x11),
    ("RFRAME_CONFIG", 0x12),
    ("RSSI_REPORTING", 0x13),
    ("PREAMBLE_CODE_INDEX", 0x14),
    ("SFD_ID", 0x15),
    ("PSDU_DATA_RATE", 0x16),
    ("PREAMBLE_DURATION", 0x17),
    ("LINK_LAYER_MODE", 0x18),
    ("DATA_REPETITION_COUNT", 0x19),
    ("RANGING_TIME_STRUCT", 0x1a),
    ("SLOTS_PER_RR", 0x1b),
    ("AOA_BOUND_CONFIG", 0x1d),
    ("PRF_MODE", 0x1f),
    ("CAP_SIZE_RANGE", 0x20),
    ("TX_JITTER_WINDOW_SIZE", 0x21),
    ("SCHEDULE_MODE", 0x22),
    ("KEY_ROTATION", 0x23),
    ("KEY_ROTATION_RATE", 0x24),
    ("SESSION_PRIORITY", 0x25),
    ("MAC_ADDRESS_MODE", 0x26),
    ("VENDOR_ID", 0x27),
    ("STATIC_STS_IV", 0x28),
    ("NUMBER_OF_STS_SEGMENTS", 0x29),
    ("MAX_RR_RETRY", 0x2a),
    ("UWB_INITIATION_TIME", 0x2b),
    ("HOPPING_MODE", 0x2c),
    ("BLOCK_STRIDE_LENGTH", 0x2d),
    ("RESULT_REPORT_CONFIG", 0x2e),
    ("IN_BAND_TERMINATION_ATTEMPT_COUNT", 0x2f),
    ("SUB_SESSION_ID", 0x30),
    ("BPRF_PHR_DATA_RATE", 0x31),
    ("MAX_NUMBER_OF_MEASUREMENTS", 0x32),
    ("STS_LENGTH", 0x35),
    ("MIN_FRAMES_PER_RR", 0x3a),
    ("MTU_SIZE", 0x3b),
    ("INTER_FRAME_INTERVAL", 0x3c),
    ("DL_TDOA_RANGING_METHOD", 0x3d),
    ("DL_TDOA_TX_TIMESTAMP_CONF", 0x3e),
    ("DL_TDOA_HOP_COUNT", 0x3f),
    ("DL_TDOA_ANCHOR_CFO", 0x40),
    ("DL_TDOA_ANCHOR_LOCATION", 0x41),
    ("DL_TDOA_TX_ACTIVE_RANGING_ROUNDS", 0x42),
    ("DL_TDOA_BLOCK_SKIPPING", 0x43),
    ("DL_TDOA_TIME_REFERENCE_ANCHOR", 0x44),
    ("SESSION_KEY", 0x45),
    ("SUB_SESSION_KEY", 0x46),
    ("SESSION_DATA_TRANSFER_STATUS_NTF_CONFIG", 0x47),
    ("SESSION_TIME_BASE", 0x48),
    ("DL_TDOA_RESPONDER_TOF", 0x49),
    ("SECURE_RANGING_NEFA_LEVEL", 0x4a),
    ("SECURE_RANGING_CSW_LENGTH", 0x4b),
    ("APPLICATION_DATA_ENDPOINT", 0x4c),
    ("OWR_AOA_MEASUREMENT_NTF_PERIOD", 0x4d)],
    false⟩,
  -- 388-397
  ⟨"DeviceType", [
    ("CONTROLEE", 0x00),
    ("CONTROLLER", 0x01)],
    true⟩,
  -- 400-415
  ⟨"RangingRoundUsage", [
    ("SS_TWR_DEFERRED_MODE", 0x01),
    ("DS_TWR_DEFERRED_MODE", 0x02),
    ("SS_TWR_NON_DEFERRED_MODE", 0x03),
    ("DS_TWR_NON_DEFERRED_MODE", 0x04),
    ("ON_WAY_RANGING_DL_TDOA", 0x05),
    ("OWR_AOA_MEASUREMENT", 0x06),
    ("ESS_TWR_NON_DEFERRED", 0x07),
    ("ADS_TWR_NON_DEFERRED", 0x08)],
    true⟩,
  -- 418-430
  ⟨"StsConfig", [
    ("STATIC", 0x00),
    ("DYNAMIC", 0x01),
    ("DYNAMIC_FOR_RESPONDER_SUB_SESSION_KEY", 0x02),
    ("PROVISIONED", 0x03),
    ("PROVISIONED_FOR_RESPONDER_SUB_SESSION_KEY", 0x04)],
    true⟩,
  -- 433-442
  ⟨"MultiNodeMode", [
    ("ONE_TO_ONE", 0x00),
    ("ONE_TO_MANY", 0x01)],
    true⟩,
  -- 445-460
  ⟨"ChannelNumber", [
    ("CHANNEL_NUMBER_5", 0x05),
    ("CHANNEL_NUMBER_6", 0x06),
    ("CHANNEL_NUMBER_8", 0x08),
    ("CHANNEL_NUMBER_9", 0x09),
    ("CHANNEL_NUMBER_10", 0x0a),
    ("CHANNEL_NUMBER_12", 0x0c),
    ("CHANNEL_NUMBER_13", 0x0d),
    ("CHANNEL_NUMBER_14", 0x0e)],
    true⟩,
  -- 463-472
  ⟨"MacFcsType", [
    ("CRC_16", 0x00),
    ("CRC_32", 0x01)],
    true⟩,
  -- 527-538
  ⟨"AoaResultReq", [
    ("AOA_DISABLED", 0x00),
    ("AOA_ENABLED", 0x01),
    ("AOA_ENABLED_AZIMUTH_ONLY", 0x02),
    ("AOA_ENABLED_ELEVATION_ONLY", 0x03)],
    true⟩,
  -- 541-556
  ⟨"SessionInfoNtfConfig", [
    ("DISABLE", 0x00),
    ("ENABLE", 0x01),
    ("ENABLE_PROXIMITY_TRIGGER", 0x02),
    ("ENABLE_AOA_TRIGGER", 0x03),
    ("ENABLE_PROXIMITY_AOA_TRIGGER", 0x04),
    ("ENABLE_PROXIMITY_EDGE_TRIGGER", 0x05),
    ("ENABLE_AOA_EDGE_TRIGGER", 0x06),
    ("ENABLE_PROXIMITY_AOA_EDGE_TRIGGER", 0x07)],
    true⟩,
  -- 559-572
  ⟨"DeviceRole", [
    ("RESPONDER", 0x00),
    ("INITIATOR", 0x01),
    ("ADVERTISER", 0x05),
    ("OBSERVER", 0x06),
    ("DT_ANCHOR", 0x07),
    ("DT_TAG", 0x08)],
    true⟩,
  -- 575-585
  ⟨"RframeConfig", [
    ("SP0", 0x00),
    ("SP1", 0x01),
    ("SP3", 0x03)],
    true⟩,
  -- 588-597
  ⟨"RssiReporting", [
    ("DISABLE", 0x00),
    ("ENABLE", 0x01)],
    true⟩,
  -- 600-611
  ⟨"PsduDataRate", [
    ("DATA_RATE_6M81", 0x00),
    ("DATA_RATE_7M80", 0x01),
    ("DATA_RATE_27M2", 0x02),
    ("DATA_RATE_31M2", 0x03)],
    true⟩,
  -- 614-623
  ⟨"PreambleDuration", [
    ("DURATION_32_SYMBOLS", 0x00),
    ("DURATION_64_SYMBOLS", 0x01)],
    true⟩,
  -- 626-634
  ⟨"LinkLayerMode", [
    ("BYPASS_MODE", 0x00)],
    true⟩,
  -- 637-645
  ⟨"RangingTimeStruct", [
    ("BLOCK_BASED_SCHEDULING", 0x01)],
    true⟩,
  -- 648-658
  ⟨"PrfMode", [
    ("BPRF_MODE", 0x00),
    ("HPRF_MODE_124M8", 0x01),
    ("HPRF_MODE_249M6", 0x02)],
    true⟩,
  -- 661-670
  ⟨"ScheduleMode", [
    ("CONTENTION_BASED", 0x00),
    ("TIME_SCHEDULED", 0x01)],
    true⟩,
  -- 673-682
  ⟨"KeyRotation", [
    ("DISABLE", 0x00),
    ("ENABLE", 0x01)],
    true⟩,
  -- 685-695
  ⟨"MacAddressMode", [
    ("MODE_0", 0x00),
    ("MODE_1", 0x01),
    ("MODE_2", 0x02)],
    true⟩,
  -- 698-707
  ⟨"HoppingMode", [
    ("DISABLE", 0x00),
    ("ENABLE", 0x01)],
    true⟩,
  -- 759-768
  ⟨"BprfPhrDataRate", [
    ("DATA_RATE_850K", 0x00),
    ("DATA_RATE_6M81", 0x01)],
    true⟩,
  -- 771-781
  ⟨"StsLength", [
    ("LENGTH_32_SYMBOLS", 0x00),
    ("LENGTH_64_SYMBOLS", 0x01),
    ("LENGTH_128_SYMBOLS", 0x02)],
    true⟩,
  -- 784-793
  ⟨"DlTdoaRangingMethod", [
    ("SS_TWR", 0x00),
    ("DS_TWR", 0x01)],
    true⟩,
  -- 796-805
  ⟨"DlTdoaAnchorCfo", [
    ("ANCHOR_CFO_NOT_INCLUDED", 0x00),
    ("ANCHOR_CFO_INCLUDED", 0x01)],
    true⟩,
  -- 808-817
  ⟨"SessionDataTransferStatusNtfConfig", [
    ("DISABLE", 0x00),
    ("ENABLE", 0x01)],
    true⟩,
  -- 820-848
  ⟨"CapTlvType", [
    ("SUPPORTED_FIRA_PHY_VERSION_RANGE", 0x00),
    ("SUPPORTED_FIRA_MAC_VERSION_RANGE", 0x01),
    ("SUPPORTED_DEVICE_ROLES", 0x02),
    ("SUPPORTED_RANGING_METHOD", 0x03),
    ("SUPPORTED_STS_CONFIG", 0x04),
    ("SUPPORTED_MULTI_NODE_MODES", 0x05),
    ("SUPPORTED_RANGING_TIME_STRUCT", 0x06),
    ("SUPPORTED_SCHEDULED_MODE", 0x07),
    ("SUPPORTED_HOPPING_MODE", 0x08),
    ("SUPPORTED_BLOCK_STRIDING", 0x09),
    ("SUPPORTED_UWB_INITIATION_TIME", 0x0a),
    ("SUPPORTED_CHANNELS", 0x0b),
    ("SUPPORTED_RFRAME_CONFIG", 0x0c),
    ("SUPPORTED_CC_CONSTRAINT_LENGTH", 0x0d),
    ("SUPPORTED_BPRF_PARAMETER_SETS", 0x0e),
    ("SUPPORTED_HPRF_PARAMETER_SETS", 0x0f),
    ("SUPPORTED_AOA", 0x10),
    ("SUPPORTED_EXTENDED_MAC_ADDRESS", 0x11),
    ("SUPPORTED_MAX_MESSAGE_SIZE", 0x12),
    ("SUPPORTED_MAX_DATA_PACKET_PAYLOAD_SIZE", 0x13),
    ("SUPPORTED_POWER_STATS", 0xc0)],
    false⟩,
  -- 851-863
  ⟨"AoaResultReqType", [
    ("AOA_DISABLE", 0x00),
    ("AOA_ENABLE", 0x01),
    ("AOA_ENABLE_AZIMUTH", 0x02),
    ("AOA_ENABLE_ELEVATION", 0x03),
    ("AOA_ENABLE_INTERLEAVED", 0xf0)],
    true⟩,
  -- 866-876
  ⟨"DeviceState", [
    ("DEVICE_STATE_READY", 0x01),
    ("DEVICE_STATE_ACTIVE", 0x02),
    ("DEVICE_STATE_ERROR", 0xff)],
    true⟩,
  -- 879-890
  ⟨"SessionState", [
    ("SESSION_STATE_INIT", 0x00),
    ("SESSION_STATE_DEINIT", 0x01),
    ("SESSION_STATE_ACTIVE", 0x02),
    ("SESSION_STATE_IDLE", 0x03)],
    true⟩,
  -- 893-942
  ⟨"ReasonCode", [
    ("STATE_CHANGE_WITH_SESSION_MANAGEMENT_COMMANDS", 0x00),
    ("MAX_RANGING_ROUND_RETRY_COUNT_REACHED", 0x01),
    ("MAX_NUMBER_OF_MEASUREMENTS_REACHED", 0x02),
    ("SESSION_SUSPENDED_DUE_TO_INBAND_SIGNAL", 0x03),
    ("SESSION_RESUMED_DUE_TO_INBAND_SIGNAL", 0x04),
    ("SESSION_STOPPED_DUE_TO_INBAND_SIGNAL", 0x05),
    ("ERROR_INVALID_UL_TDOA_RANDOM_WINDOW", 0x1d),
    ("ERROR_MIN_RFRAMES_PER_RR_NOT_SUPPORTED", 0x1e),
    ("ERROR_TX_DELAY_NOT_SUPPORTED", 0x1f),
    ("ERROR_SLOT_LENGTH_NOT_SUPPORTED", 0x20),
    ("ERROR_INSUFFICIENT_SLOTS_PER_RR", 0x21),
    ("ERROR_MAC_ADDRESS_MODE_NOT_SUPPORTED", 0x22),
    ("ERROR_INVALID_RANGING_DURATION", 0x23),
    ("ERROR_INVALID_STS_CONFIG", 0x24),
    ("ERROR_INVALID_RFRAME_CONFIG", 0x25),
    ("ERROR_HUS_NOT_ENOUGH_SLOTS", 0x26),
    ("ERROR_HUS_CFP_PHASE_TOO_SHORT", 0x27),
    ("ERROR_HUS_CAP_PHASE_TOO_SHORT", 0x28),
    ("ERROR_HUS_OTHERS", 0x29),
    ("ERROR_STATUS_SESSION_KEY_NOT_FOUND", 0x2a),
    ("ERROR_STATUS_SUB_SESSION_KEY_NOT_FOUND", 0x2b),
    ("ERROR_INVALID_PREAMBLE_CODE_INDEX", 0x2c),
    ("ERROR_INVALID_SFD_ID", 0x2d),
    ("ERROR_INVALID_PSDU_DATA_RATE", 0x2e),
    ("ERROR_INVALID_PHR_DATA_RATE", 0x2f),
    ("ERROR_INVALID_PREAMBLE_DURATION", 0x30),
    ("ERROR_INVALID_STS_LENGTH", 0x31),
    ("ERROR_INVALID_NUM_OF_STS_SEGMENTS", 0x32),
    ("ERROR_INVALID_NUM_OF_CONTROLEES", 0x33),
    ("ERROR_MAX_RANGING_REPLY_TIME_EXCEEDED", 0x34),
    ("ERROR_INVALID_DST_ADDRESS_LIST", 0x35),
    ("ERROR_INVALID_OR_NOT_FOUND_SUB_SESSION_ID", 0x36),
    ("ERROR_INVALID_RESULT_REPORT_CONFIG", 0x37),
    ("ERROR_INVALID_RANGING_ROUND_CONTROL_CONFIG", 0x38),
    ("ERROR_INVALID_RANGING_ROUND_USAGE", 0x39),
    ("ERROR_INVALID_MULTI_NODE_MODE", 0x3a),
    ("ERROR_RDS_FETCH_FAILURE", 0x3b),
    ("ERROR_REF_UWB_SESSION_DOES_NOT_EXIST", 0x3c),
    ("ERROR_REF_UWB_SESSION_RANGING_DURATION_MISMATCH", 0x3d),
    ("ERROR_REF_UWB_SESSION_INVALID_OFFSET_TIME", 0x3e),
    ("ERROR_REF_UWB_SESSION_LOST", 0x3f),
    ("VENDOR_SPECIFIC_REASON_CODE_2", 0xff)],
    false⟩,
  -- 945-961
  ⟨"MulticastUpdateStatus", [
    ("OK_MULTICAST_LIST_UPDATE", 0x00),
    ("ERROR_MULTICAST_LIST_FULL", 0x01),
    ("ERROR_KEY_FETCH_FAIL", 0x02),
    ("ERROR_SUB_SESSION_ID_NOT_FOUND", 0x03),
    ("ERROR_SUB_SESSION_KEY_NOT_FOUND", 0x04),
    ("ERROR_SUB_SESSION_KEY_NOT_APPLICABLE", 0x05),
    ("ERROR_SESSION_KEY_NOT_FOUND", 0x06),
    ("ERROR_ADDRESS_NOT_FOUND", 0x07),
    ("ERROR_ADDRESS_ALREADY_PRESENT", 0x08)],
    true⟩,
  -- 964-973
  ⟨"MacAddressIndicator", [
    ("SHORT_ADDRESS", 0x00),
    ("EXTENDED_ADDRESS", 0x01)],
    true⟩,
  -- 976-991
  ⟨"SessionType", [
    ("FIRA_RANGING_SESSION", 0x00),
    ("FIRA_RANGING_AND_IN_BAND_DATA_SESSION", 0x01),
    ("FIRA_DATA_TRANSFER_SESSION", 0x02),
    ("FIRA_RANGING_ONLY_PHASE", 0x03),
    ("FIRA_IN_BAND_DATA_PHASE", 0x04),
    ("FIRA_RANGING_WITH_DATA_PHASE", 0x05),
    ("CCC", 0xa0),
    ("DEVICE_TEST_MODE", 0xd0)],
    true⟩,
  -- 2091-2100
  ⟨"ConfigParameterId", [
    ("DEVICE_STATE", 0x00),
    ("LOW_POWER_MODE", 0x01)],
    false⟩,
  -- 3216-3227
  ⟨"UpdateMulticastListAction", [
    ("ADD_CONTROLEE", 0x00),
    ("REMOVE_CONTROLEE", 0x01),
    ("ADD_CONTROLEE_WITH_SHORT_SUB_SESSION_KEY", 0x02),
    ("ADD_CONTROLEE_WITH_EXTENDED_SUB_SESSION_KEY", 0x03)],
    true⟩,
  -- 4436-4447
  ⟨"RangingMeasurementType", [
    ("ONE_WAY", 0x00),
    ("TWO_WAY", 0x01),
    ("DL_TDOA", 0x02),
    ("OWR_AOA", 0x03)],
    true⟩,
  -- 5120-5130
  ⟨"FrameReportTlvType", [
    ("RSSI", 0x00),
    ("AOA", 0x01),
    ("CIR", 0x02)],
    true⟩]

end Pica.Py
