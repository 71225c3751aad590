import Verif.Spec.Pdl
/-!
The structures and packets of `src/uci_packets.pdl`, 613-1499, field by field, in the order of the file (a structure moved before
its first use). Enumerations are scalars of their width; the values of the constraints are those of the enumerations, which C94
compares with the model.
-/

namespace Pica.Spec.Pdl

/-- 317-324 -/
def rangingRoundControl : List Field := [.scalar "rrrm" 1, .fixed 1 1, .scalar "rcp" 1, .reserved 3, .scalar "mrp" 1,
    .scalar "mrm" 1]

/-- 419-425 -/
def resultReportConfig : List Field := [.scalar "tof" 1, .scalar "aoa_azimuth" 1, .scalar "aoa_elevation" 1,
    .scalar "aoa_fom" 1, .reserved 4]

/-- 613-617 -/
def commonPacketHeader : List Field := [.reserved 4, .scalar "pbf" 1, .scalar "mt" 3]

/-- 620-626 -/
def controlPacketHeader : List Field := [.reserved 4, .scalar "pbf" 1, .scalar "mt" 3, .reserved 16, .scalar "payload_length" 8]

/-- 629-635 -/
def dataPacketHeader : List Field := [.reserved 4, .scalar "pbf" 1, .scalar "mt" 3, .reserved 8, .scalar "payload_length" 16]

/-- 640-645 -/
def controlPacket : Packet := .root [.scalar "gid" 4, .reserved 1, .scalar "mt" 3, .payload]

/-- 647-654 -/
def dataPacket : Packet := .root [.scalar "dpf" 4, .scalar "pbf" 1, .scalar "mt" 3, .reserved 8, .reserved 16, .payload]

/-- 656-662 -/
def dataMessageSnd : Packet := .child dataPacket [("dpf", 1), ("mt", 0)] [.scalar "session_handle" 32,
    .scalar "destination_address" 64, .scalar "data_sequence_number" 16, .size "application_data" 16, .bytes "application_data"]

/-- 664-671 -/
def dataMessageRcv : Packet := .child dataPacket [("dpf", 2), ("mt", 0)] [.scalar "session_handle" 32, .scalar "status" 8,
    .scalar "source_address" 64, .scalar "data_sequence_number" 16, .size "application_data" 16, .bytes "application_data"]

/-- 673-678 -/
def corePacket : Packet := .child controlPacket [("gid", 0)] [.scalar "oid" 6, .reserved 2, .reserved 16, .payload]

/-- 680-685 -/
def sessionConfigPacket : Packet := .child controlPacket [("gid", 1)] [.scalar "oid" 6, .reserved 2, .reserved 16, .payload]

/-- 687-692 -/
def sessionControlPacket : Packet := .child controlPacket [("gid", 2)] [.scalar "oid" 6, .reserved 2, .reserved 16, .payload]

/-- 694-699 -/
def androidPacket : Packet := .child controlPacket [("gid", 12)] [.scalar "oid" 6, .reserved 2, .reserved 16, .payload]

/-- 703-705 -/
def coreDeviceResetCmd : Packet := .child corePacket [("mt", 1), ("oid", 0)] [.scalar "reset_config" 8]

/-- 711-713 -/
def coreDeviceResetRsp : Packet := .child corePacket [("mt", 2), ("oid", 0)] [.scalar "status" 8]

/-- 719-721 -/
def coreDeviceStatusNtf : Packet := .child corePacket [("mt", 3), ("oid", 1)] [.scalar "device_state" 8]

/-- 727-728 -/
def coreGetDeviceInfoCmd : Packet := .child corePacket [("mt", 1), ("oid", 2)] []

/-- 734-742 -/
def coreGetDeviceInfoRsp : Packet := .child corePacket [("mt", 2), ("oid", 2)] [.scalar "status" 8, .scalar "uci_version" 16,
    .scalar "mac_version" 16, .scalar "phy_version" 16, .scalar "uci_test_version" 16, .count "vendor_spec_info" 8,
    .bytes "vendor_spec_info"]

/-- 748-749 -/
def coreGetCapsInfoCmd : Packet := .child corePacket [("mt", 1), ("oid", 3)] []

/-- 755-759 -/
def capTlv : List Field := [.scalar "t" 8, .count "v" 8, .bytes "v"]

/-- 762-766 -/
def coreGetCapsInfoRsp : Packet := .child corePacket [("mt", 2), ("oid", 3)] [.scalar "status" 8, .count "tlvs" 8,
    .structs "tlvs" capTlv]

/-- 779-783 -/
def configParameter : List Field := [.scalar "id" 8, .size "value" 8, .bytes "value"]

/-- 785-788 -/
def coreSetConfigCmd : Packet := .child corePacket [("mt", 1), ("oid", 4)] [.count "parameters" 8,
    .structs "parameters" configParameter]

/-- 794-797 -/
def configParameterStatus : List Field := [.scalar "id" 8, .scalar "status" 8]

/-- 799-803 -/
def coreSetConfigRsp : Packet := .child corePacket [("mt", 2), ("oid", 4)] [.scalar "status" 8, .count "parameters" 8,
    .structs "parameters" configParameterStatus]

/-- 810-813 -/
def coreGetConfigCmd : Packet := .child corePacket [("mt", 1), ("oid", 5)] [.count "parameter_ids" 8,
    .scalars "parameter_ids" 8]

/-- 819-823 -/
def coreGetConfigRsp : Packet := .child corePacket [("mt", 2), ("oid", 5)] [.scalar "status" 8, .count "parameters" 8,
    .structs "parameters" configParameter]

/-- 829-831 -/
def coreGenericErrorNtf : Packet := .child corePacket [("mt", 3), ("oid", 7)] [.scalar "status" 8]

/-- 838-839 -/
def coreQueryTimeStampCmd : Packet := .child corePacket [("mt", 1), ("oid", 8)] []

/-- 845-848 -/
def coreQueryTimeStampRsp : Packet := .child corePacket [("mt", 2), ("oid", 8)] [.scalar "status" 8, .scalar "timeStamp" 64]

/-- 856-859 -/
def sessionInitCmd : Packet := .child sessionConfigPacket [("mt", 1), ("oid", 0)] [.scalar "session_id" 32,
    .scalar "session_type" 8]

/-- 867-870 -/
def sessionInitRsp_V2 : Packet := .child sessionConfigPacket [("mt", 2), ("oid", 0)] [.scalar "status" 8,
    .scalar "session_handle" 32]

/-- 876-878 -/
def sessionInitRsp : Packet := .child sessionConfigPacket [("mt", 2), ("oid", 0)] [.scalar "status" 8]

/-- 884-886 -/
def sessionDeinitCmd : Packet := .child sessionConfigPacket [("mt", 1), ("oid", 1)] [.scalar "session_token" 32]

/-- 892-894 -/
def sessionDeinitRsp : Packet := .child sessionConfigPacket [("mt", 2), ("oid", 1)] [.scalar "status" 8]

/-- 900-906 -/
def sessionStatusNtf : Packet := .child sessionConfigPacket [("mt", 3), ("oid", 2)] [.scalar "session_token" 32,
    .scalar "session_state" 8, .scalar "reason_code" 8]

/-- 913-917 -/
def appConfigTlv : List Field := [.scalar "cfg_id" 8, .count "v" 8, .bytes "v"]

/-- 919-923 -/
def sessionSetAppConfigCmd : Packet := .child sessionConfigPacket [("mt", 1), ("oid", 3)] [.scalar "session_token" 32,
    .count "tlvs" 8, .structs "tlvs" appConfigTlv]

/-- 929-932 -/
def appConfigStatus : List Field := [.scalar "cfg_id" 8, .scalar "status" 8]

/-- 934-938 -/
def sessionSetAppConfigRsp : Packet := .child sessionConfigPacket [("mt", 2), ("oid", 3)] [.scalar "status" 8,
    .count "cfg_status" 8, .structs "cfg_status" appConfigStatus]

/-- 944-948 -/
def sessionGetAppConfigCmd : Packet := .child sessionConfigPacket [("mt", 1), ("oid", 4)] [.scalar "session_token" 32,
    .count "app_cfg" 8, .scalars "app_cfg" 8]

/-- 954-958 -/
def sessionGetAppConfigRsp : Packet := .child sessionConfigPacket [("mt", 2), ("oid", 4)] [.scalar "status" 8, .count "tlvs" 8,
    .structs "tlvs" appConfigTlv]

/-- 964-965 -/
def sessionGetCountCmd : Packet := .child sessionConfigPacket [("mt", 1), ("oid", 5)] []

/-- 971-974 -/
def sessionGetCountRsp : Packet := .child sessionConfigPacket [("mt", 2), ("oid", 5)] [.scalar "status" 8,
    .scalar "session_count" 8]

/-- 980-982 -/
def sessionGetStateCmd : Packet := .child sessionConfigPacket [("mt", 1), ("oid", 6)] [.scalar "session_token" 32]

/-- 988-991 -/
def sessionGetStateRsp : Packet := .child sessionConfigPacket [("mt", 2), ("oid", 6)] [.scalar "status" 8,
    .scalar "session_state" 8]

/-- 997-999 -/
def sessionUpdateDtAnchorRangingRoundsCmd : Packet := .child sessionConfigPacket [("mt", 1), ("oid", 8)] []

/-- 1001-1003 -/
def sessionUpdateDtAnchorRangingRoundsRsp : Packet := .child sessionConfigPacket [("mt", 2), ("oid", 8)] []

/-- 1005-1009 -/
def sessionUpdateDtTagRangingRoundsCmd : Packet := .child sessionConfigPacket [("mt", 1), ("oid", 9)] [
    .scalar "session_token" 32, .count "ranging_round_indexes" 8, .bytes "ranging_round_indexes"]

/-- 1015-1019 -/
def sessionUpdateDtTagRangingRoundsRsp : Packet := .child sessionConfigPacket [("mt", 2), ("oid", 9)] [.scalar "status" 8,
    .count "ranging_round_indexes" 8, .bytes "ranging_round_indexes"]

/-- 1025-1028 -/
def controlee : List Field := [.array "short_address" 2, .scalar "subsession_id" 32]

/-- 1030-1034 -/
def controlee_V2_0_16_Byte_Version : List Field := [.array "short_address" 2, .scalar "subsession_id" 32, .array "subsession_key" 16]

/-- 1036-1040 -/
def controlee_V2_0_32_Byte_Version : List Field := [.array "short_address" 2, .scalar "subsession_id" 32, .array "subsession_key" 32]

/-- 1050-1054 -/
def sessionUpdateControllerMulticastListCmd : Packet := .child sessionConfigPacket [("mt", 1), ("oid", 7)] [
    .scalar "session_token" 32, .scalar "action" 8, .payload]

/-- 1056-1059 -/
def sessionUpdateControllerMulticastListCmdPayload : List Field := [.count "controlees" 8, .structs "controlees" controlee]

/-- 1061-1064 -/
def sessionUpdateControllerMulticastListCmd_2_0_16_Byte_Payload : List Field := [.count "controlees" 8,
    .structs "controlees" controlee_V2_0_16_Byte_Version]

/-- 1066-1069 -/
def sessionUpdateControllerMulticastListCmd_2_0_32_Byte_Payload : List Field := [.count "controlees" 8,
    .structs "controlees" controlee_V2_0_32_Byte_Version]

/-- 1081-1084 -/
def controleeStatus : List Field := [.array "mac_address" 2, .scalar "status" 8]

/-- 1071-1075 -/
def sessionUpdateControllerMulticastListRsp : Packet := .child sessionConfigPacket [("mt", 2), ("oid", 7)] [.scalar "status" 8,
    .count "controlee_status" 8, .structs "controlee_status" controleeStatus]

/-- 1086-1090 -/
def sessionUpdateControllerMulticastListNtf : Packet := .child sessionConfigPacket [("mt", 3), ("oid", 7)] [
    .scalar "session_token" 32, .count "controlee_status" 8, .structs "controlee_status" controleeStatus]

/-- 1098-1101 -/
def sessionDataCreditNtf : Packet := .child sessionControlPacket [("mt", 3), ("oid", 4)] [.scalar "session_token" 32,
    .scalar "credit_availability" 8]

/-- 1107-1112 -/
def sessionDataTransferStatusNtf : Packet := .child sessionControlPacket [("mt", 3), ("oid", 5)] [.scalar "session_token" 32,
    .scalar "uci_sequence_number" 8, .scalar "status" 8, .scalar "tx_count" 8]

/-- 1118-1120 -/
def sessionQueryMaxDataSizeInRangingCmd : Packet := .child sessionConfigPacket [("mt", 1), ("oid", 11)] [
    .scalar "session_token" 32]

/-- 1126-1129 -/
def sessionQueryMaxDataSizeInRangingRsp : Packet := .child sessionConfigPacket [("mt", 2), ("oid", 11)] [
    .scalar "session_token" 32, .scalar "max_data_size" 16]

/-- 1135-1137 -/
def sessionStartCmd : Packet := .child sessionControlPacket [("mt", 1), ("oid", 0)] [.scalar "session_id" 32]

/-- 1143-1145 -/
def sessionStartRsp : Packet := .child sessionControlPacket [("mt", 2), ("oid", 0)] [.scalar "status" 8]

/-- 1151-1171 -/
def shortAddressTwoWayRangingMeasurement : List Field := [.scalar "mac_address" 16, .scalar "status" 8, .scalar "nlos" 8,
    .scalar "distance" 16, .scalar "aoa_azimuth" 16, .scalar "aoa_azimuth_fom" 8, .scalar "aoa_elevation" 16,
    .scalar "aoa_elevation_fom" 8, .scalar "aoa_destination_azimuth" 16, .scalar "aoa_destination_azimuth_fom" 8,
    .scalar "aoa_destination_elevation" 16, .scalar "aoa_destination_elevation_fom" 8, .scalar "slot_index" 8, .scalar "rssi" 8,
    .reserved 64, .reserved 24]

/-- 1173-1189 -/
def extendedAddressTwoWayRangingMeasurement : List Field := [.scalar "mac_address" 64, .scalar "status" 8, .scalar "nlos" 8,
    .scalar "distance" 16, .scalar "aoa_azimuth" 16, .scalar "aoa_azimuth_fom" 8, .scalar "aoa_elevation" 16,
    .scalar "aoa_elevation_fom" 8, .scalar "aoa_destination_azimuth" 16, .scalar "aoa_destination_azimuth_fom" 8,
    .scalar "aoa_destination_elevation" 16, .scalar "aoa_destination_elevation_fom" 8, .scalar "slot_index" 8, .scalar "rssi" 8,
    .reserved 40]

/-- 1191-1201 -/
def shortAddressOwrAoaRangingMeasurement : List Field := [.scalar "mac_address" 16, .scalar "status" 8, .scalar "nlos" 8,
    .scalar "frame_sequence_number" 8, .scalar "block_index" 16, .scalar "aoa_azimuth" 16, .scalar "aoa_azimuth_fom" 8,
    .scalar "aoa_elevation" 16, .scalar "aoa_elevation_fom" 8]

/-- 1203-1213 -/
def extendedAddressOwrAoaRangingMeasurement : List Field := [.scalar "mac_address" 64, .scalar "status" 8, .scalar "nlos" 8,
    .scalar "frame_sequence_number" 8, .scalar "block_index" 16, .scalar "aoa_azimuth" 16, .scalar "aoa_azimuth_fom" 8,
    .scalar "aoa_elevation" 16, .scalar "aoa_elevation_fom" 8]

/-- 1215-1217 -/
def wgs84Location : List Field := [.array "data" 12]

/-- 1219-1223 -/
def relativeLocation : List Field := [.scalar "x" 28, .scalar "y" 28, .scalar "z" 24]

/-- 1225-1257 -/
def dlTdoaRangingMeasurement : List Field := [.scalar "status" 8, .scalar "message_type" 8, .scalar "tx_timestamp_type" 1,
    .scalar "tx_timestamp_length" 1, .reserved 1, .scalar "rx_timestamp_length" 1, .reserved 1, .count "wgs84_location" 1,
    .count "relative_location" 1, .count "active_ranging_rounds" 4, .reserved 5, .scalar "block_index" 16,
    .scalar "round_index" 8, .scalar "nlos" 8, .scalar "aoa_azimuth" 16, .scalar "aoa_azimuth_fom" 8,
    .scalar "aoa_elevation" 16, .scalar "aoa_elevation_fom" 8, .scalar "rssi" 8,
    .optional "tx_timestamp_40" 40 "tx_timestamp_length" 0, .optional "tx_timestamp_64" 64 "tx_timestamp_length" 1,
    .optional "rx_timestamp_40" 40 "rx_timestamp_length" 0, .optional "rx_timestamp_64" 64 "rx_timestamp_length" 1,
    .scalar "anchor_cfo" 16, .scalar "cfo" 16, .scalar "initiator_reply_time" 32, .scalar "responder_reply_time" 32,
    .scalar "initiator_responder_tof" 16, .structs "wgs84_location" wgs84Location,
    .structs "relative_location" relativeLocation, .bytes "active_ranging_rounds"]

/-- 1259-1262 -/
def shortAddressDlTdoaRangingMeasurement : List Field := [.scalar "mac_address" 16,
    .struct "measurement" dlTdoaRangingMeasurement]

/-- 1264-1267 -/
def extendedAddressDlTdoaRangingMeasurement : List Field := [.scalar "mac_address" 64,
    .struct "measurement" dlTdoaRangingMeasurement]

/-- 1276-1286 -/
def sessionInfoNtf : Packet := .child sessionControlPacket [("mt", 3), ("oid", 0)] [.scalar "sequence_number" 32,
    .scalar "session_token" 32, .scalar "rcr_indicator" 8, .scalar "current_ranging_interval" 32,
    .scalar "ranging_measurement_type" 8, .reserved 8, .scalar "mac_address_indicator" 8, .reserved 64, .payload]

/-- 1288-1292 -/
def shortMacTwoWaySessionInfoNtf : Packet := .child sessionInfoNtf [("ranging_measurement_type", 1), ("mac_address_indicator", 0)] [
    .count "two_way_ranging_measurements" 8, .structs "two_way_ranging_measurements" shortAddressTwoWayRangingMeasurement,
    .bytes "vendor_data"]

/-- 1298-1302 -/
def extendedMacTwoWaySessionInfoNtf : Packet := .child sessionInfoNtf [("ranging_measurement_type", 1), ("mac_address_indicator", 1)] [
    .count "two_way_ranging_measurements" 8, .structs "two_way_ranging_measurements" extendedAddressTwoWayRangingMeasurement,
    .bytes "vendor_data"]

/-- 1308-1311 -/
def shortMacDlTDoASessionInfoNtf : Packet := .child sessionInfoNtf [("ranging_measurement_type", 2), ("mac_address_indicator", 0)] [
    .count "dl_tdoa_measurements" 8, .structs "dl_tdoa_measurements" shortAddressDlTdoaRangingMeasurement]

/-- 1317-1320 -/
def extendedMacDlTDoASessionInfoNtf : Packet := .child sessionInfoNtf [("ranging_measurement_type", 2), ("mac_address_indicator", 1)] [
    .count "dl_tdoa_measurements" 8, .structs "dl_tdoa_measurements" extendedAddressDlTdoaRangingMeasurement]

/-- 1326-1330 -/
def shortMacOwrAoaSessionInfoNtf : Packet := .child sessionInfoNtf [("ranging_measurement_type", 3), ("mac_address_indicator", 0)] [
    .count "owr_aoa_ranging_measurements" 8, .structs "owr_aoa_ranging_measurements" shortAddressOwrAoaRangingMeasurement,
    .bytes "vendor_data"]

/-- 1337-1341 -/
def extendedMacOwrAoaSessionInfoNtf : Packet := .child sessionInfoNtf [("ranging_measurement_type", 3), ("mac_address_indicator", 1)] [
    .count "owr_aoa_ranging_measurements" 8, .structs "owr_aoa_ranging_measurements" extendedAddressOwrAoaRangingMeasurement,
    .bytes "vendor_data"]

/-- 1348-1350 -/
def sessionStopCmd : Packet := .child sessionControlPacket [("mt", 1), ("oid", 1)] [.scalar "session_id" 32]

/-- 1356-1358 -/
def sessionStopRsp : Packet := .child sessionControlPacket [("mt", 2), ("oid", 1)] [.scalar "status" 8]

/-- 1364-1366 -/
def sessionGetRangingCountCmd : Packet := .child sessionControlPacket [("mt", 1), ("oid", 3)] [.scalar "session_id" 32]

/-- 1372-1375 -/
def sessionGetRangingCountRsp : Packet := .child sessionControlPacket [("mt", 2), ("oid", 3)] [.scalar "status" 8,
    .scalar "count" 32]

/-- 1383-1384 -/
def androidGetPowerStatsCmd : Packet := .child androidPacket [("mt", 1), ("oid", 0)] []

/-- 1390-1396 -/
def powerStats : List Field := [.scalar "status" 8, .scalar "idle_time_ms" 32, .scalar "tx_time_ms" 32, .scalar "rx_time_ms" 32,
    .scalar "total_wake_count" 32]

/-- 1398-1400 -/
def androidGetPowerStatsRsp : Packet := .child androidPacket [("mt", 2), ("oid", 0)] [.struct "stats" powerStats]

/-- 1406-1408 -/
def androidSetCountryCodeCmd : Packet := .child androidPacket [("mt", 1), ("oid", 1)] [.array "country_code" 2]

/-- 1415-1417 -/
def androidSetCountryCodeRsp : Packet := .child androidPacket [("mt", 2), ("oid", 1)] [.scalar "status" 8]

/-- 1429-1433 -/
def frameReportTlv : List Field := [.scalar "t" 8, .size "v" 16, .bytes "v"]

/-- 1435-1439 -/
def frameReportTlvPacket : Packet := .root [.scalar "t" 8, .sizeOfPayload 16, .payload]

/-- 1441-1443 -/
def rssi : Packet := .child frameReportTlvPacket [("t", 0)] [.bytes "rssi"]

/-- 1445-1451 -/
def aoaMeasurement : List Field := [.scalar "tdoa" 16, .scalar "pdoa" 16, .scalar "aoa" 16, .scalar "fom" 8, .scalar "t" 8]

/-- 1453-1455 -/
def aoa : Packet := .child frameReportTlvPacket [("t", 1)] [.structs "aoa" aoaMeasurement]

/-- 1461-1472 -/
def cirValue : List Field := [.scalar "first_path_index" 16, .scalar "first_path_snr" 16, .scalar "first_path_ns" 16,
    .scalar "peak_path_index" 16, .scalar "peak_path_snr" 16, .scalar "peak_path_ns" 16, .scalar "first_path_sample_offset" 8,
    .scalar "samples_number" 8, .size "sample_window" 16, .bytes "sample_window"]

/-- 1474-1477 -/
def cir : Packet := .child frameReportTlvPacket [("t", 2)] [.count "cir_value" 8, .structs "cir_value" cirValue]

/-- 1483-1489 -/
def frameReport : List Field := [.scalar "uwb_msg_id" 8, .scalar "action" 8, .scalar "antenna_set" 8,
    .count "frame_report_tlvs" 8, .structs "frame_report_tlvs" frameReportTlv]

/-- 1491-1496 -/
def androidRangeDiagnosticsNtf : Packet := .child androidPacket [("mt", 3), ("oid", 2)] [.scalar "session_token" 32,
    .scalar "sequence_number" 32, .count "frame_reports" 8, .structs "frame_reports" frameReport]

end Pica.Spec.Pdl
