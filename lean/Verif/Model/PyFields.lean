/-!
The fields of the packets of `/repo/py/pica/pica/packets/uci.py`, transcribed by `/verif/tools/gen_fields.py`.
-/

namespace Pica.Py

/-- The classes derived from `Packet`. -/
inductive Class where
  | rangingRoundControl
  | resultReportConfig
  | commonPacketHeader
  | controlPacketHeader
  | dataPacketHeader
  | controlPacket
  | dataPacket
  | dataMessageSnd
  | dataMessageRcv
  | corePacket
  | sessionConfigPacket
  | sessionControlPacket
  | androidPacket
  | coreDeviceResetCmd
  | coreDeviceResetRsp
  | coreDeviceStatusNtf
  | coreGetDeviceInfoCmd
  | coreGetDeviceInfoRsp
  | coreGetCapsInfoCmd
  | capTlv
  | coreGetCapsInfoRsp
  | configParameter
  | coreSetConfigCmd
  | configParameterStatus
  | coreSetConfigRsp
  | coreGetConfigCmd
  | coreGetConfigRsp
  | coreGenericErrorNtf
  | coreQueryTimeStampCmd
  | coreQueryTimeStampRsp
  | sessionInitCmd
  | sessionInitRsp_V2
  | sessionInitRsp
  | sessionDeinitCmd
  | sessionDeinitRsp
  | sessionStatusNtf
  | appConfigTlv
  | sessionSetAppConfigCmd
  | appConfigStatus
  | sessionSetAppConfigRsp
  | sessionGetAppConfigCmd
  | sessionGetAppConfigRsp
  | sessionGetCountCmd
  | sessionGetCountRsp
  | sessionGetStateCmd
  | sessionGetStateRsp
  | sessionUpdateDtAnchorRangingRoundsCmd
  | sessionUpdateDtAnchorRangingRoundsRsp
  | sessionUpdateDtTagRangingRoundsCmd
  | sessionUpdateDtTagRangingRoundsRsp
  | controlee
  | controlee_V2_0_16_Byte_Version
  | controlee_V2_0_32_Byte_Version
  | sessionUpdateControllerMulticastListCmd
  | sessionUpdateControllerMulticastListCmdPayload
  | sessionUpdateControllerMulticastListCmd_2_0_16_Byte_Payload
  | sessionUpdateControllerMulticastListCmd_2_0_32_Byte_Payload
  | sessionUpdateControllerMulticastListRsp
  | controleeStatus
  | sessionUpdateControllerMulticastListNtf
  | sessionDataCreditNtf
  | sessionDataTransferStatusNtf
  | sessionQueryMaxDataSizeInRangingCmd
  | sessionQueryMaxDataSizeInRangingRsp
  | sessionStartCmd
  | sessionStartRsp
  | shortAddressTwoWayRangingMeasurement
  | extendedAddressTwoWayRangingMeasurement
  | shortAddressOwrAoaRangingMeasurement
  | extendedAddressOwrAoaRangingMeasurement
  | wgs84Location
  | relativeLocation
  | dlTdoaRangingMeasurement
  | shortAddressDlTdoaRangingMeasurement
  | extendedAddressDlTdoaRangingMeasurement
  | sessionInfoNtf
  | shortMacTwoWaySessionInfoNtf
  | extendedMacTwoWaySessionInfoNtf
  | shortMacDlTDoASessionInfoNtf
  | extendedMacDlTDoASessionInfoNtf
  | shortMacOwrAoaSessionInfoNtf
  | extendedMacOwrAoaSessionInfoNtf
  | sessionStopCmd
  | sessionStopRsp
  | sessionGetRangingCountCmd
  | sessionGetRangingCountRsp
  | androidGetPowerStatsCmd
  | powerStats
  | androidGetPowerStatsRsp
  | androidSetCountryCodeCmd
  | androidSetCountryCodeRsp
  | frameReportTlv
  | frameReportTlvPacket
  | rssi
  | aoaMeasurement
  | aoa
  | cirValue
  | cir
  | frameReport
  | androidRangeDiagnosticsNtf
  deriving DecidableEq, Repr

/-- `__name__`. -/
def Class.name : Class → String
  | .rangingRoundControl => "RangingRoundControl"
  | .resultReportConfig => "ResultReportConfig"
  | .commonPacketHeader => "CommonPacketHeader"
  | .controlPacketHeader => "ControlPacketHeader"
  | .dataPacketHeader => "DataPacketHeader"
  | .controlPacket => "ControlPacket"
  | .dataPacket => "DataPacket"
  | .dataMessageSnd => "DataMessageSnd"
  | .dataMessageRcv => "DataMessageRcv"
  | .corePacket => "CorePacket"
  | .sessionConfigPacket => "SessionConfigPacket"
  | .sessionControlPacket => "SessionControlPacket"
  | .androidPacket => "AndroidPacket"
  | .coreDeviceResetCmd => "CoreDeviceResetCmd"
  | .coreDeviceResetRsp => "CoreDeviceResetRsp"
  | .coreDeviceStatusNtf => "CoreDeviceStatusNtf"
  | .coreGetDeviceInfoCmd => "CoreGetDeviceInfoCmd"
  | .coreGetDeviceInfoRsp => "CoreGetDeviceInfoRsp"
  | .coreGetCapsInfoCmd => "CoreGetCapsInfoCmd"
  | .capTlv => "CapTlv"
  | .coreGetCapsInfoRsp => "CoreGetCapsInfoRsp"
  | .configParameter => "ConfigParameter"
  | .coreSetConfigCmd => "CoreSetConfigCmd"
  | .configParameterStatus => "ConfigParameterStatus"
  | .coreSetConfigRsp => "CoreSetConfigRsp"
  | .coreGetConfigCmd => "CoreGetConfigCmd"
  | .coreGetConfigRsp => "CoreGetConfigRsp"
  | .coreGenericErrorNtf => "CoreGenericErrorNtf"
  | .coreQueryTimeStampCmd => "CoreQueryTimeStampCmd"
  | .coreQueryTimeStampRsp => "CoreQueryTimeStampRsp"
  | .sessionInitCmd => "SessionInitCmd"
  | .sessionInitRsp_V2 => "SessionInitRsp_V2"
  | .sessionInitRsp => "SessionInitRsp"
  | .sessionDeinitCmd => "SessionDeinitCmd"
  | .sessionDeinitRsp => "SessionDeinitRsp"
  | .sessionStatusNtf => "SessionStatusNtf"
  | .appConfigTlv => "AppConfigTlv"
  | .sessionSetAppConfigCmd => "SessionSetAppConfigCmd"
  | .appConfigStatus => "AppConfigStatus"
  | .sessionSetAppConfigRsp => "SessionSetAppConfigRsp"
  | .sessionGetAppConfigCmd => "SessionGetAppConfigCmd"
  | .sessionGetAppConfigRsp => "SessionGetAppConfigRsp"
  | .sessionGetCountCmd => "SessionGetCountCmd"
  | .sessionGetCountRsp => "SessionGetCountRsp"
  | .sessionGetStateCmd => "SessionGetStateCmd"
  | .sessionGetStateRsp => "SessionGetStateRsp"
  | .sessionUpdateDtAnchorRangingRoundsCmd => "SessionUpdateDtAnchorRangingRoundsCmd"
  | .sessionUpdateDtAnchorRangingRoundsRsp => "SessionUpdateDtAnchorRangingRoundsRsp"
  | .sessionUpdateDtTagRangingRoundsCmd => "SessionUpdateDtTagRangingRoundsCmd"
  | .sessionUpdateDtTagRangingRoundsRsp => "SessionUpdateDtTagRangingRoundsRsp"
  | .controlee => "Controlee"
  | .controlee_V2_0_16_Byte_Version => "Controlee_V2_0_16_Byte_Version"
  | .controlee_V2_0_32_Byte_Version => "Controlee_V2_0_32_Byte_Version"
  | .sessionUpdateControllerMulticastListCmd => "SessionUpdateControllerMulticastListCmd"
  | .sessionUpdateControllerMulticastListCmdPayload => "SessionUpdateControllerMulticastListCmdPayload"
  | .sessionUpdateControllerMulticastListCmd_2_0_16_Byte_Payload => "SessionUpdateControllerMulticastListCmd_2_0_16_Byte_Payload"
  | .sessionUpdateControllerMulticastListCmd_2_0_32_Byte_Payload => "SessionUpdateControllerMulticastListCmd_2_0_32_Byte_Payload"
  | .sessionUpdateControllerMulticastListRsp => "SessionUpdateControllerMulticastListRsp"
  | .controleeStatus => "ControleeStatus"
  | .sessionUpdateControllerMulticastListNtf => "SessionUpdateControllerMulticastListNtf"
  | .sessionDataCreditNtf => "SessionDataCreditNtf"
  | .sessionDataTransferStatusNtf => "SessionDataTransferStatusNtf"
  | .sessionQueryMaxDataSizeInRangingCmd => "SessionQueryMaxDataSizeInRangingCmd"
  | .sessionQueryMaxDataSizeInRangingRsp => "SessionQueryMaxDataSizeInRangingRsp"
  | .sessionStartCmd => "SessionStartCmd"
  | .sessionStartRsp => "SessionStartRsp"
  | .shortAddressTwoWayRangingMeasurement => "ShortAddressTwoWayRangingMeasurement"
  | .extendedAddressTwoWayRangingMeasurement => "ExtendedAddressTwoWayRangingMeasurement"
  | .shortAddressOwrAoaRangingMeasurement => "ShortAddressOwrAoaRangingMeasurement"
  | .extendedAddressOwrAoaRangingMeasurement => "ExtendedAddressOwrAoaRangingMeasurement"
  | .wgs84Location => "Wgs84Location"
  | .relativeLocation => "RelativeLocation"
  | .dlTdoaRangingMeasurement => "DlTdoaRangingMeasurement"
  | .shortAddressDlTdoaRangingMeasurement => "ShortAddressDlTdoaRangingMeasurement"
  | .extendedAddressDlTdoaRangingMeasurement => "ExtendedAddressDlTdoaRangingMeasurement"
  | .sessionInfoNtf => "SessionInfoNtf"
  | .shortMacTwoWaySessionInfoNtf => "ShortMacTwoWaySessionInfoNtf"
  | .extendedMacTwoWaySessionInfoNtf => "ExtendedMacTwoWaySessionInfoNtf"
  | .shortMacDlTDoASessionInfoNtf => "ShortMacDlTDoASessionInfoNtf"
  | .extendedMacDlTDoASessionInfoNtf => "ExtendedMacDlTDoASessionInfoNtf"
  | .shortMacOwrAoaSessionInfoNtf => "ShortMacOwrAoaSessionInfoNtf"
  | .extendedMacOwrAoaSessionInfoNtf => "ExtendedMacOwrAoaSessionInfoNtf"
  | .sessionStopCmd => "SessionStopCmd"
  | .sessionStopRsp => "SessionStopRsp"
  | .sessionGetRangingCountCmd => "SessionGetRangingCountCmd"
  | .sessionGetRangingCountRsp => "SessionGetRangingCountRsp"
  | .androidGetPowerStatsCmd => "AndroidGetPowerStatsCmd"
  | .powerStats => "PowerStats"
  | .androidGetPowerStatsRsp => "AndroidGetPowerStatsRsp"
  | .androidSetCountryCodeCmd => "AndroidSetCountryCodeCmd"
  | .androidSetCountryCodeRsp => "AndroidSetCountryCodeRsp"
  | .frameReportTlv => "FrameReportTlv"
  | .frameReportTlvPacket => "FrameReportTlvPacket"
  | .rssi => "Rssi"
  | .aoaMeasurement => "AoaMeasurement"
  | .aoa => "Aoa"
  | .cirValue => "CirValue"
  | .cir => "Cir"
  | .frameReport => "FrameReport"
  | .androidRangeDiagnosticsNtf => "AndroidRangeDiagnosticsNtf"

/-- The type of a field, as `Packet.show` (26-83) tells them apart. `bytes` is not among them: no field has it. -/
inductive FieldType where
  | int
  /-- a class derived from `enum.IntEnum` -/
  | enum (name : String)
  /-- a class derived from `Packet` -/
  | struct (c : Class)
  | list (element : FieldType)
  /-- another class; this is `bytearray` -/
  | custom
  /-- what is no class; its text -/
  | other (text : String)
  deriving DecidableEq, Repr

/-- The name and the type of a field. -/
abbrev Field := String × FieldType

/-- The fields of `Packet`, 12-12. -/
def packetFields : List Field :=
  [("payload", .other "typing.Optional[bytes]")]

/-- The fields of `ControlPacket`, 1105-1106. -/
def controlPacketFields : List Field :=
  packetFields ++ [("gid", .enum "GroupId"), ("mt", .enum "MessageType")]

/-- The fields of `DataPacket`, 1168-1170. -/
def dataPacketFields : List Field :=
  packetFields ++
      [("dpf", .enum "DataPacketFormat"), ("pbf", .enum "PacketBoundaryFlag"), ("mt", .enum "MessageType")]

/-- The fields of `CorePacket`, 1334-1334. -/
def corePacketFields : List Field :=
  controlPacketFields ++ [("oid", .enum "CoreOpcodeId")]

/-- The fields of `SessionConfigPacket`, 1464-1464. -/
def sessionConfigPacketFields : List Field :=
  controlPacketFields ++ [("oid", .enum "SessionConfigOpcodeId")]

/-- The fields of `SessionControlPacket`, 1657-1657. -/
def sessionControlPacketFields : List Field :=
  controlPacketFields ++ [("oid", .enum "SessionControlOpcodeId")]

/-- The fields of `AndroidPacket`, 1752-1752. -/
def androidPacketFields : List Field :=
  controlPacketFields ++ [("oid", .enum "AndroidOpcodeId")]

/-- The fields of `SessionInfoNtf`, 4452-4457. -/
def sessionInfoNtfFields : List Field :=
  sessionControlPacketFields ++
      [("sequence_number", .int), ("session_token", .int), ("rcr_indicator", .int), ("current_ranging_interval", .int),
      ("ranging_measurement_type", .enum "RangingMeasurementType"),
      ("mac_address_indicator", .enum "MacAddressIndicator")]

/-- The fields of `FrameReportTlvPacket`, 5169-5169. -/
def frameReportTlvPacketFields : List Field :=
  packetFields ++ [("t", .enum "FrameReportTlvType")]

/-- `dataclasses.fields` of a class: its fields in their order, those of the class it is derived from first. -/
def Class.fields : Class → List Field
  -- 477-480
  | .rangingRoundControl =>
    packetFields ++
      [("rrrm", .int), ("rcp", .int), ("mrp", .int), ("mrm", .int)]
  -- 712-715
  | .resultReportConfig =>
    packetFields ++
      [("tof", .int), ("aoa_azimuth", .int), ("aoa_elevation", .int), ("aoa_fom", .int)]
  -- 996-997
  | .commonPacketHeader =>
    packetFields ++
      [("pbf", .enum "PacketBoundaryFlag"), ("mt", .enum "MessageType")]
  -- 1027-1029
  | .controlPacketHeader =>
    packetFields ++
      [("pbf", .enum "PacketBoundaryFlag"), ("mt", .enum "MessageType"), ("payload_length", .int)]
  -- 1066-1068
  | .dataPacketHeader =>
    packetFields ++
      [("pbf", .enum "PacketBoundaryFlag"), ("mt", .enum "MessageType"), ("payload_length", .int)]
  -- 1105-1106
  | .controlPacket =>
    controlPacketFields
  -- 1168-1170
  | .dataPacket =>
    dataPacketFields
  -- 1223-1226
  | .dataMessageSnd =>
    dataPacketFields ++
      [("session_handle", .int), ("destination_address", .int), ("data_sequence_number", .int),
      ("application_data", .custom)]
  -- 1277-1281
  | .dataMessageRcv =>
    dataPacketFields ++
      [("session_handle", .int), ("status", .enum "Status"), ("source_address", .int), ("data_sequence_number", .int),
      ("application_data", .custom)]
  -- 1334-1334
  | .corePacket =>
    corePacketFields
  -- 1464-1464
  | .sessionConfigPacket =>
    sessionConfigPacketFields
  -- 1657-1657
  | .sessionControlPacket =>
    sessionControlPacketFields
  -- 1752-1752
  | .androidPacket =>
    androidPacketFields
  -- 1819-1819
  | .coreDeviceResetCmd =>
    corePacketFields ++ [("reset_config", .enum "ResetConfig")]
  -- 1847-1847
  | .coreDeviceResetRsp =>
    corePacketFields ++ [("status", .enum "Status")]
  -- 1875-1875
  | .coreDeviceStatusNtf =>
    corePacketFields ++ [("device_state", .enum "DeviceState")]
  -- 1902-1902
  | .coreGetDeviceInfoCmd =>
    corePacketFields
  -- 1926-1931
  | .coreGetDeviceInfoRsp =>
    corePacketFields ++
      [("status", .enum "Status"), ("uci_version", .int), ("mac_version", .int), ("phy_version", .int),
      ("uci_test_version", .int), ("vendor_spec_info", .custom)]
  -- 1992-1992
  | .coreGetCapsInfoCmd =>
    corePacketFields
  -- 2016-2017
  | .capTlv =>
    packetFields ++ [("t", .enum "CapTlvType"), ("v", .custom)]
  -- 2052-2053
  | .coreGetCapsInfoRsp =>
    corePacketFields ++
      [("status", .enum "Status"), ("tlvs", .list (.struct .capTlv))]
  -- 2105-2106
  | .configParameter =>
    packetFields ++ [("id", .enum "ConfigParameterId"), ("value", .custom)]
  -- 2138-2138
  | .coreSetConfigCmd =>
    corePacketFields ++ [("parameters", .list (.struct .configParameter))]
  -- 2176-2177
  | .configParameterStatus =>
    packetFields ++
      [("id", .enum "ConfigParameterId"), ("status", .enum "Status")]
  -- 2204-2205
  | .coreSetConfigRsp =>
    corePacketFields ++
      [("status", .enum "Status"), ("parameters", .list (.struct .configParameterStatus))]
  -- 2247-2247
  | .coreGetConfigCmd =>
    corePacketFields ++ [("parameter_ids", .list (.enum "ConfigParameterId"))]
  -- 2287-2288
  | .coreGetConfigRsp =>
    corePacketFields ++
      [("status", .enum "Status"), ("parameters", .list (.struct .configParameter))]
  -- 2328-2328
  | .coreGenericErrorNtf =>
    corePacketFields ++ [("status", .enum "Status")]
  -- 2355-2355
  | .coreQueryTimeStampCmd =>
    corePacketFields
  -- 2379-2380
  | .coreQueryTimeStampRsp =>
    corePacketFields ++ [("status", .enum "Status"), ("timeStamp", .int)]
  -- 2414-2415
  | .sessionInitCmd =>
    sessionConfigPacketFields ++
      [("session_id", .int), ("session_type", .enum "SessionType")]
  -- 2449-2450
  | .sessionInitRsp_V2 =>
    sessionConfigPacketFields ++ [("status", .enum "Status"), ("session_handle", .int)]
  -- 2484-2484
  | .sessionInitRsp =>
    sessionConfigPacketFields ++ [("status", .enum "Status")]
  -- 2512-2512
  | .sessionDeinitCmd =>
    sessionConfigPacketFields ++ [("session_token", .int)]
  -- 2544-2544
  | .sessionDeinitRsp =>
    sessionConfigPacketFields ++ [("status", .enum "Status")]
  -- 2572-2574
  | .sessionStatusNtf =>
    sessionConfigPacketFields ++
      [("session_token", .int), ("session_state", .enum "SessionState"), ("reason_code", .int)]
  -- 2613-2614
  | .appConfigTlv =>
    packetFields ++ [("cfg_id", .enum "AppConfigTlvType"), ("v", .custom)]
  -- 2649-2650
  | .sessionSetAppConfigCmd =>
    sessionConfigPacketFields ++
      [("session_token", .int), ("tlvs", .list (.struct .appConfigTlv))]
  -- 2694-2695
  | .appConfigStatus =>
    packetFields ++
      [("cfg_id", .enum "AppConfigTlvType"), ("status", .enum "Status")]
  -- 2722-2723
  | .sessionSetAppConfigRsp =>
    sessionConfigPacketFields ++
      [("status", .enum "Status"), ("cfg_status", .list (.struct .appConfigStatus))]
  -- 2765-2766
  | .sessionGetAppConfigCmd =>
    sessionConfigPacketFields ++
      [("session_token", .int), ("app_cfg", .list (.enum "AppConfigTlvType"))]
  -- 2812-2813
  | .sessionGetAppConfigRsp =>
    sessionConfigPacketFields ++
      [("status", .enum "Status"), ("tlvs", .list (.struct .appConfigTlv))]
  -- 2852-2852
  | .sessionGetCountCmd =>
    sessionConfigPacketFields
  -- 2876-2877
  | .sessionGetCountRsp =>
    sessionConfigPacketFields ++ [("status", .enum "Status"), ("session_count", .int)]
  -- 2910-2910
  | .sessionGetStateCmd =>
    sessionConfigPacketFields ++ [("session_token", .int)]
  -- 2942-2943
  | .sessionGetStateRsp =>
    sessionConfigPacketFields ++
      [("status", .enum "Status"), ("session_state", .enum "SessionState")]
  -- 2972-2972
  | .sessionUpdateDtAnchorRangingRoundsCmd =>
    sessionConfigPacketFields
  -- 2995-2995
  | .sessionUpdateDtAnchorRangingRoundsRsp =>
    sessionConfigPacketFields
  -- 3019-3020
  | .sessionUpdateDtTagRangingRoundsCmd =>
    sessionConfigPacketFields ++
      [("session_token", .int), ("ranging_round_indexes", .custom)]
  -- 3062-3063
  | .sessionUpdateDtTagRangingRoundsRsp =>
    sessionConfigPacketFields ++
      [("status", .enum "Status"), ("ranging_round_indexes", .custom)]
  -- 3101-3102
  | .controlee =>
    packetFields ++ [("short_address", .custom), ("subsession_id", .int)]
  -- 3136-3138
  | .controlee_V2_0_16_Byte_Version =>
    packetFields ++
      [("short_address", .custom), ("subsession_id", .int), ("subsession_key", .custom)]
  -- 3177-3179
  | .controlee_V2_0_32_Byte_Version =>
    packetFields ++
      [("short_address", .custom), ("subsession_id", .int), ("subsession_key", .custom)]
  -- 3232-3233
  | .sessionUpdateControllerMulticastListCmd =>
    sessionConfigPacketFields ++
      [("session_token", .int), ("action", .enum "UpdateMulticastListAction")]
  -- 3271-3271
  | .sessionUpdateControllerMulticastListCmdPayload =>
    packetFields ++ [("controlees", .list (.struct .controlee))]
  -- 3308-3308
  | .sessionUpdateControllerMulticastListCmd_2_0_16_Byte_Payload =>
    packetFields ++
      [("controlees", .list (.struct .controlee_V2_0_16_Byte_Version))]
  -- 3345-3345
  | .sessionUpdateControllerMulticastListCmd_2_0_32_Byte_Payload =>
    packetFields ++
      [("controlees", .list (.struct .controlee_V2_0_32_Byte_Version))]
  -- 3382-3382
  | .sessionUpdateControllerMulticastListRsp =>
    sessionConfigPacketFields ++ [("status", .enum "Status")]
  -- 3410-3411
  | .controleeStatus =>
    packetFields ++
      [("mac_address", .custom), ("status", .enum "MulticastUpdateStatus")]
  -- 3441-3442
  | .sessionUpdateControllerMulticastListNtf =>
    sessionConfigPacketFields ++
      [("session_token", .int), ("controlee_status", .list (.struct .controleeStatus))]
  -- 3488-3489
  | .sessionDataCreditNtf =>
    sessionControlPacketFields ++
      [("session_token", .int), ("credit_availability", .enum "CreditAvailability")]
  -- 3523-3526
  | .sessionDataTransferStatusNtf =>
    sessionControlPacketFields ++
      [("session_token", .int), ("uci_sequence_number", .int), ("status", .enum "DataTransferNtfStatusCode"),
      ("tx_count", .int)]
  -- 3570-3570
  | .sessionQueryMaxDataSizeInRangingCmd =>
    sessionConfigPacketFields ++ [("session_token", .int)]
  -- 3602-3603
  | .sessionQueryMaxDataSizeInRangingRsp =>
    sessionConfigPacketFields ++ [("session_token", .int), ("max_data_size", .int)]
  -- 3641-3641
  | .sessionStartCmd =>
    sessionControlPacketFields ++ [("session_id", .int)]
  -- 3673-3673
  | .sessionStartRsp =>
    sessionControlPacketFields ++ [("status", .enum "Status")]
  -- 3701-3714
  | .shortAddressTwoWayRangingMeasurement =>
    packetFields ++
      [("mac_address", .int), ("status", .enum "Status"), ("nlos", .int), ("distance", .int), ("aoa_azimuth", .int),
      ("aoa_azimuth_fom", .int), ("aoa_elevation", .int), ("aoa_elevation_fom", .int),
      ("aoa_destination_azimuth", .int), ("aoa_destination_azimuth_fom", .int), ("aoa_destination_elevation", .int),
      ("aoa_destination_elevation_fom", .int), ("slot_index", .int), ("rssi", .int)]
  -- 3814-3827
  | .extendedAddressTwoWayRangingMeasurement =>
    packetFields ++
      [("mac_address", .int), ("status", .enum "Status"), ("nlos", .int), ("distance", .int), ("aoa_azimuth", .int),
      ("aoa_azimuth_fom", .int), ("aoa_elevation", .int), ("aoa_elevation_fom", .int),
      ("aoa_destination_azimuth", .int), ("aoa_destination_azimuth_fom", .int), ("aoa_destination_elevation", .int),
      ("aoa_destination_elevation_fom", .int), ("slot_index", .int), ("rssi", .int)]
  -- 3925-3933
  | .shortAddressOwrAoaRangingMeasurement =>
    packetFields ++
      [("mac_address", .int), ("status", .enum "Status"), ("nlos", .int), ("frame_sequence_number", .int),
      ("block_index", .int), ("aoa_azimuth", .int), ("aoa_azimuth_fom", .int), ("aoa_elevation", .int),
      ("aoa_elevation_fom", .int)]
  -- 4002-4010
  | .extendedAddressOwrAoaRangingMeasurement =>
    packetFields ++
      [("mac_address", .int), ("status", .enum "Status"), ("nlos", .int), ("frame_sequence_number", .int),
      ("block_index", .int), ("aoa_azimuth", .int), ("aoa_azimuth_fom", .int), ("aoa_elevation", .int),
      ("aoa_elevation_fom", .int)]
  -- 4079-4079
  | .wgs84Location =>
    packetFields ++ [("data", .custom)]
  -- 4104-4106
  | .relativeLocation =>
    packetFields ++ [("x", .int), ("y", .int), ("z", .int)]
  -- 4149-4171
  | .dlTdoaRangingMeasurement =>
    packetFields ++
      [("status", .enum "Status"), ("message_type", .int), ("tx_timestamp_type", .int), ("block_index", .int),
      ("round_index", .int), ("nlos", .int), ("aoa_azimuth", .int), ("aoa_azimuth_fom", .int),
      ("aoa_elevation", .int), ("aoa_elevation_fom", .int), ("rssi", .int),
      ("tx_timestamp_40", .other "typing.Optional[int]"), ("tx_timestamp_64", .other "typing.Optional[int]"),
      ("rx_timestamp_40", .other "typing.Optional[int]"), ("rx_timestamp_64", .other "typing.Optional[int]"),
      ("anchor_cfo", .int), ("cfo", .int), ("initiator_reply_time", .int), ("responder_reply_time", .int),
      ("initiator_responder_tof", .int), ("wgs84_location", .list (.struct .wgs84Location)),
      ("relative_location", .list (.struct .relativeLocation)), ("active_ranging_rounds", .custom)]
  -- 4372-4373
  | .shortAddressDlTdoaRangingMeasurement =>
    packetFields ++
      [("mac_address", .int), ("measurement", .struct .dlTdoaRangingMeasurement)]
  -- 4405-4406
  | .extendedAddressDlTdoaRangingMeasurement =>
    packetFields ++
      [("mac_address", .int), ("measurement", .struct .dlTdoaRangingMeasurement)]
  -- 4452-4457
  | .sessionInfoNtf =>
    sessionInfoNtfFields
  -- 4559-4560
  | .shortMacTwoWaySessionInfoNtf =>
    sessionInfoNtfFields ++
      [("two_way_ranging_measurements", .list (.struct .shortAddressTwoWayRangingMeasurement)),
      ("vendor_data", .custom)]
  -- 4608-4609
  | .extendedMacTwoWaySessionInfoNtf =>
    sessionInfoNtfFields ++
      [("two_way_ranging_measurements", .list (.struct .extendedAddressTwoWayRangingMeasurement)),
      ("vendor_data", .custom)]
  -- 4657-4657
  | .shortMacDlTDoASessionInfoNtf =>
    sessionInfoNtfFields ++
      [("dl_tdoa_measurements", .list (.struct .shortAddressDlTdoaRangingMeasurement))]
  -- 4697-4697
  | .extendedMacDlTDoASessionInfoNtf =>
    sessionInfoNtfFields ++
      [("dl_tdoa_measurements", .list (.struct .extendedAddressDlTdoaRangingMeasurement))]
  -- 4737-4738
  | .shortMacOwrAoaSessionInfoNtf =>
    sessionInfoNtfFields ++
      [("owr_aoa_ranging_measurements", .list (.struct .shortAddressOwrAoaRangingMeasurement)),
      ("vendor_data", .custom)]
  -- 4786-4787
  | .extendedMacOwrAoaSessionInfoNtf =>
    sessionInfoNtfFields ++
      [("owr_aoa_ranging_measurements", .list (.struct .extendedAddressOwrAoaRangingMeasurement)),
      ("vendor_data", .custom)]
  -- 4835-4835
  | .sessionStopCmd =>
    sessionControlPacketFields ++ [("session_id", .int)]
  -- 4867-4867
  | .sessionStopRsp =>
    sessionControlPacketFields ++ [("status", .enum "Status")]
  -- 4895-4895
  | .sessionGetRangingCountCmd =>
    sessionControlPacketFields ++ [("session_id", .int)]
  -- 4927-4928
  | .sessionGetRangingCountRsp =>
    sessionControlPacketFields ++ [("status", .enum "Status"), ("count", .int)]
  -- 4961-4961
  | .androidGetPowerStatsCmd =>
    androidPacketFields
  -- 4985-4989
  | .powerStats =>
    packetFields ++
      [("status", .enum "Status"), ("idle_time_ms", .int), ("tx_time_ms", .int), ("rx_time_ms", .int),
      ("total_wake_count", .int)]
  -- 5038-5038
  | .androidGetPowerStatsRsp =>
    androidPacketFields ++ [("stats", .struct .powerStats)]
  -- 5066-5066
  | .androidSetCountryCodeCmd =>
    androidPacketFields ++ [("country_code", .custom)]
  -- 5094-5094
  | .androidSetCountryCodeRsp =>
    androidPacketFields ++ [("status", .enum "Status")]
  -- 5135-5136
  | .frameReportTlv =>
    packetFields ++ [("t", .enum "FrameReportTlvType"), ("v", .custom)]
  -- 5169-5169
  | .frameReportTlvPacket =>
    frameReportTlvPacketFields
  -- 5228-5228
  | .rssi =>
    frameReportTlvPacketFields ++ [("rssi", .custom)]
  -- 5252-5256
  | .aoaMeasurement =>
    packetFields ++
      [("tdoa", .int), ("pdoa", .int), ("aoa", .int), ("fom", .int), ("t", .int)]
  -- 5307-5307
  | .aoa =>
    frameReportTlvPacketFields ++ [("aoa", .list (.struct .aoaMeasurement))]
  -- 5338-5346
  | .cirValue =>
    packetFields ++
      [("first_path_index", .int), ("first_path_snr", .int), ("first_path_ns", .int), ("peak_path_index", .int),
      ("peak_path_snr", .int), ("peak_path_ns", .int), ("first_path_sample_offset", .int), ("samples_number", .int),
      ("sample_window", .custom)]
  -- 5423-5423
  | .cir =>
    frameReportTlvPacketFields ++ [("cir_value", .list (.struct .cirValue))]
  -- 5459-5462
  | .frameReport =>
    packetFields ++
      [("uwb_msg_id", .int), ("action", .int), ("antenna_set", .int),
      ("frame_report_tlvs", .list (.struct .frameReportTlv))]
  -- 5512-5514
  | .androidRangeDiagnosticsNtf =>
    androidPacketFields ++
      [("session_token", .int), ("sequence_number", .int), ("frame_reports", .list (.struct .frameReport))]

end Pica.Py
