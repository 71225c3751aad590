import Verif.Spec.PdlPackets
import Verif.Model.PyPackets
/-!
The objects of `py/pica/pica/packets/uci.py` as packets of `src/uci_packets.pdl`: the packet with the name of their class, the
values of the fields under the names of their attributes.
-/

namespace Pica.Spec
open Py Pdl Pdl.Value

/-- `CapTlv`, 2015-2019 -/
def capTlvValues (p : Nat × Bytes) : Values := [("t", .int p.1), ("v", .bytes p.2)]
/-- `ConfigParameter`, 2104-2108 -/
def configParameterValues (p : Nat × Bytes) : Values := [("id", .int p.1), ("value", .bytes p.2)]
/-- `AppConfigTlv`, 2612-2616 -/
def appConfigTlvValues (p : Nat × Bytes) : Values := [("cfg_id", .int p.1), ("v", .bytes p.2)]
/-- `ConfigParameterStatus`, 2175-2179 -/
def configParameterStatusValues (p : Nat × Nat) : Values := [("id", .int p.1), ("status", .int p.2)]
/-- `AppConfigStatus`, 2693-2697 -/
def appConfigStatusValues (p : Nat × Nat) : Values := [("cfg_id", .int p.1), ("status", .int p.2)]
/-- `ControleeStatus`, 3409-3413 -/
def controleeStatusValues (p : Bytes × Nat) : Values := [("mac_address", .bytes p.1), ("status", .int p.2)]
/-- `FrameReportTlv`, 5134-5138 -/
def frameReportTlvValues (p : Nat × Bytes) : Values := [("t", .int p.1), ("v", .bytes p.2)]
/-- `FrameReport`, 5458-5464 -/
def frameReportValues (r : FrameReport) : Values :=
  [("uwb_msg_id", .int r.uwbMsgId), ("action", .int r.action), ("antenna_set", .int r.antennaSet),
    ("frame_report_tlvs", .records (r.frameReportTlvs.map frameReportTlvValues))]

/-- `ShortAddressTwoWayRangingMeasurement`, 3700-3716, and `ExtendedAddressTwoWayRangingMeasurement`, 3813-3829 -/
def measurementValues (m : Measurement) : Values :=
  [("mac_address", .int m.macAddress), ("status", .int m.status), ("nlos", .int m.nlos), ("distance", .int m.distance),
    ("aoa_azimuth", .int m.aoaAzimuth), ("aoa_azimuth_fom", .int m.aoaAzimuthFom),
    ("aoa_elevation", .int m.aoaElevation), ("aoa_elevation_fom", .int m.aoaElevationFom),
    ("aoa_destination_azimuth", .int m.aoaDestinationAzimuth), ("aoa_destination_azimuth_fom", .int m.aoaDestinationAzimuthFom),
    ("aoa_destination_elevation", .int m.aoaDestinationElevation),
    ("aoa_destination_elevation_fom", .int m.aoaDestinationElevationFom),
    ("slot_index", .int m.slotIndex), ("rssi", .int m.rssi)]

/-- `ShortAddressOwrAoaRangingMeasurement`, 3924-3935, and `ExtendedAddressOwrAoaRangingMeasurement`, 4001-4012 -/
def owrAoaValues (m : OwrAoa) : Values :=
  [("mac_address", .int m.macAddress), ("status", .int m.status), ("nlos", .int m.nlos),
    ("frame_sequence_number", .int m.frameSequenceNumber), ("block_index", .int m.blockIndex),
    ("aoa_azimuth", .int m.aoaAzimuth), ("aoa_azimuth_fom", .int m.aoaAzimuthFom),
    ("aoa_elevation", .int m.aoaElevation), ("aoa_elevation_fom", .int m.aoaElevationFom)]

/-- `Wgs84Location`, 4078-4081 -/
def wgs84LocationValues (b : Bytes) : Values := [("data", .bytes b)]
/-- `RelativeLocation`, 4103-4108 -/
def relativeLocationValues (l : RelativeLocation) : Values := [("x", .int l.x), ("y", .int l.y), ("z", .int l.z)]

/-- The value of an attribute that may be `None`. -/
def ofOption : Option Nat → Value
  | none => .absent
  | some v => .int v

/-- `DlTdoaRangingMeasurement`, 4148-4173. The lengths are no attributes: they say which of the time stamps there are. -/
def dlTdoaValues (m : DlTdoa) : Values :=
  [("status", .int m.status), ("message_type", .int m.messageType), ("tx_timestamp_type", .int m.txTimestampType),
    ("tx_timestamp_length", .int (if m.txTimestamp64 = none then 0 else 1)),
    ("rx_timestamp_length", .int (if m.rxTimestamp64 = none then 0 else 1)),
    ("block_index", .int m.blockIndex), ("round_index", .int m.roundIndex), ("nlos", .int m.nlos),
    ("aoa_azimuth", .int m.aoaAzimuth), ("aoa_azimuth_fom", .int m.aoaAzimuthFom), ("aoa_elevation", .int m.aoaElevation),
    ("aoa_elevation_fom", .int m.aoaElevationFom), ("rssi", .int m.rssi),
    ("tx_timestamp_40", ofOption m.txTimestamp40), ("tx_timestamp_64", ofOption m.txTimestamp64),
    ("rx_timestamp_40", ofOption m.rxTimestamp40), ("rx_timestamp_64", ofOption m.rxTimestamp64),
    ("anchor_cfo", .int m.anchorCfo), ("cfo", .int m.cfo), ("initiator_reply_time", .int m.initiatorReplyTime),
    ("responder_reply_time", .int m.responderReplyTime), ("initiator_responder_tof", .int m.initiatorResponderTof),
    ("wgs84_location", .records (m.wgs84Location.map wgs84LocationValues)),
    ("relative_location", .records (m.relativeLocation.map relativeLocationValues)),
    ("active_ranging_rounds", .bytes m.activeRangingRounds)]

/-- `ShortAddressDlTdoaRangingMeasurement`, 4371-4375, and `ExtendedAddressDlTdoaRangingMeasurement`, 4404-4408 -/
def addressedDlTdoaValues (m : Nat × DlTdoa) : Values := [("mac_address", .int m.1), ("measurement", .record (dlTdoaValues m.2))]

/-- The commands, by class. -/
def commandPacket : Py.Command → Packet × Values
  | .coreDeviceReset c => (coreDeviceResetCmd, [("reset_config", .int c)])
  | .coreGetDeviceInfo => (coreGetDeviceInfoCmd, [])
  | .coreGetCapsInfo => (coreGetCapsInfoCmd, [])
  | .coreSetConfig l => (coreSetConfigCmd, [("parameters", .records (l.map configParameterValues))])
  | .coreGetConfig l => (coreGetConfigCmd, [("parameter_ids", .ints l)])
  | .coreQueryTimeStamp => (coreQueryTimeStampCmd, [])
  | .sessionInit t s => (sessionInitCmd, [("session_id", .int t), ("session_type", .int s)])
  | .sessionDeinit t => (sessionDeinitCmd, [("session_token", .int t)])
  | .sessionSetAppConfig t l =>
    (sessionSetAppConfigCmd, [("session_token", .int t), ("tlvs", .records (l.map appConfigTlvValues))])
  | .sessionGetAppConfig t l => (sessionGetAppConfigCmd, [("session_token", .int t), ("app_cfg", .ints l)])
  | .sessionGetCount => (sessionGetCountCmd, [])
  | .sessionGetState t => (sessionGetStateCmd, [("session_token", .int t)])
  | .sessionUpdateDtAnchorRangingRounds => (sessionUpdateDtAnchorRangingRoundsCmd, [])
  | .sessionUpdateDtTagRangingRounds t v =>
    (sessionUpdateDtTagRangingRoundsCmd, [("session_token", .int t), ("ranging_round_indexes", .bytes v)])
  | .sessionUpdateControllerMulticastList t a p =>
    (sessionUpdateControllerMulticastListCmd, [("session_token", .int t), ("action", .int a), ("payload", .bytes p)])
  | .sessionQueryMaxDataSizeInRanging t => (sessionQueryMaxDataSizeInRangingCmd, [("session_token", .int t)])
  | .sessionStart t => (sessionStartCmd, [("session_id", .int t)])
  | .sessionStop t => (sessionStopCmd, [("session_id", .int t)])
  | .sessionGetRangingCount t => (sessionGetRangingCountCmd, [("session_id", .int t)])
  | .androidGetPowerStats => (androidGetPowerStatsCmd, [])
  | .androidSetCountryCode c => (androidSetCountryCodeCmd, [("country_code", .bytes c)])

/-- The attributes of `SessionInfoNtf`, 4451-4458, that are not fixed by the derived classes. -/
def infoValues (n t r i : Nat) : Values :=
  [("sequence_number", .int n), ("session_token", .int t), ("rcr_indicator", .int r), ("current_ranging_interval", .int i)]

/-- The packet of an object, by its class, and its attributes. -/
def packetOf : Obj → Packet × Values
  | .controlPacket g m p => (controlPacket, [("gid", .int g), ("mt", .int m), ("payload", .bytes p)])
  | .corePacket m o p => (corePacket, [("mt", .int m), ("oid", .int o), ("payload", .bytes p)])
  | .sessionConfigPacket m o p => (sessionConfigPacket, [("mt", .int m), ("oid", .int o), ("payload", .bytes p)])
  | .sessionControlPacket m o p => (sessionControlPacket, [("mt", .int m), ("oid", .int o), ("payload", .bytes p)])
  | .androidPacket m o p => (androidPacket, [("mt", .int m), ("oid", .int o), ("payload", .bytes p)])
  | .command c => commandPacket c
  | .coreDeviceResetRsp s => (coreDeviceResetRsp, [("status", .int s)])
  | .coreDeviceStatusNtf s => (coreDeviceStatusNtf, [("device_state", .int s)])
  | .coreGetDeviceInfoRsp s a b c d v =>
    (coreGetDeviceInfoRsp, [("status", .int s), ("uci_version", .int a), ("mac_version", .int b), ("phy_version", .int c),
      ("uci_test_version", .int d), ("vendor_spec_info", .bytes v)])
  | .coreGetCapsInfoRsp s l => (coreGetCapsInfoRsp, [("status", .int s), ("tlvs", .records (l.map capTlvValues))])
  | .coreSetConfigRsp s l =>
    (coreSetConfigRsp, [("status", .int s), ("parameters", .records (l.map configParameterStatusValues))])
  | .coreGetConfigRsp s l => (coreGetConfigRsp, [("status", .int s), ("parameters", .records (l.map configParameterValues))])
  | .coreGenericErrorNtf s => (coreGenericErrorNtf, [("status", .int s)])
  | .coreQueryTimeStampRsp s t => (coreQueryTimeStampRsp, [("status", .int s), ("timeStamp", .int t)])
  | .sessionInitRspV2 s h => (sessionInitRsp_V2, [("status", .int s), ("session_handle", .int h)])
  | .sessionInitRsp s => (sessionInitRsp, [("status", .int s)])
  | .sessionDeinitRsp s => (sessionDeinitRsp, [("status", .int s)])
  | .sessionStatusNtf t s r =>
    (sessionStatusNtf, [("session_token", .int t), ("session_state", .int s), ("reason_code", .int r)])
  | .sessionSetAppConfigRsp s l =>
    (sessionSetAppConfigRsp, [("status", .int s), ("cfg_status", .records (l.map appConfigStatusValues))])
  | .sessionGetAppConfigRsp s l => (sessionGetAppConfigRsp, [("status", .int s), ("tlvs", .records (l.map appConfigTlvValues))])
  | .sessionGetCountRsp s n => (sessionGetCountRsp, [("status", .int s), ("session_count", .int n)])
  | .sessionGetStateRsp s t => (sessionGetStateRsp, [("status", .int s), ("session_state", .int t)])
  | .sessionUpdateDtAnchorRangingRoundsRsp => (sessionUpdateDtAnchorRangingRoundsRsp, [])
  | .sessionUpdateDtTagRangingRoundsRsp s v =>
    (sessionUpdateDtTagRangingRoundsRsp, [("status", .int s), ("ranging_round_indexes", .bytes v)])
  | .sessionUpdateControllerMulticastListRsp s => (sessionUpdateControllerMulticastListRsp, [("status", .int s)])
  | .sessionUpdateControllerMulticastListNtf t l =>
    (sessionUpdateControllerMulticastListNtf,
      [("session_token", .int t), ("controlee_status", .records (l.map controleeStatusValues))])
  | .sessionQueryMaxDataSizeInRangingRsp t n =>
    (sessionQueryMaxDataSizeInRangingRsp, [("session_token", .int t), ("max_data_size", .int n)])
  | .sessionDataCreditNtf t c => (sessionDataCreditNtf, [("session_token", .int t), ("credit_availability", .int c)])
  | .sessionDataTransferStatusNtf t n s c =>
    (sessionDataTransferStatusNtf,
      [("session_token", .int t), ("uci_sequence_number", .int n), ("status", .int s), ("tx_count", .int c)])
  | .sessionStartRsp s => (sessionStartRsp, [("status", .int s)])
  | .sessionInfoNtf n t r i type indicator p =>
    (sessionInfoNtf, infoValues n t r i ++
      [("ranging_measurement_type", .int type), ("mac_address_indicator", .int indicator), ("payload", .bytes p)])
  | .shortMacTwoWaySessionInfoNtf n t r i l v =>
    (shortMacTwoWaySessionInfoNtf, infoValues n t r i ++
      [("two_way_ranging_measurements", .records (l.map measurementValues)), ("vendor_data", .bytes v)])
  | .extendedMacTwoWaySessionInfoNtf n t r i l v =>
    (extendedMacTwoWaySessionInfoNtf, infoValues n t r i ++
      [("two_way_ranging_measurements", .records (l.map measurementValues)), ("vendor_data", .bytes v)])
  | .shortMacDlTDoASessionInfoNtf n t r i l =>
    (shortMacDlTDoASessionInfoNtf, infoValues n t r i ++ [("dl_tdoa_measurements", .records (l.map addressedDlTdoaValues))])
  | .extendedMacDlTDoASessionInfoNtf n t r i l =>
    (extendedMacDlTDoASessionInfoNtf, infoValues n t r i ++ [("dl_tdoa_measurements", .records (l.map addressedDlTdoaValues))])
  | .shortMacOwrAoaSessionInfoNtf n t r i l v =>
    (shortMacOwrAoaSessionInfoNtf, infoValues n t r i ++
      [("owr_aoa_ranging_measurements", .records (l.map owrAoaValues)), ("vendor_data", .bytes v)])
  | .extendedMacOwrAoaSessionInfoNtf n t r i l v =>
    (extendedMacOwrAoaSessionInfoNtf, infoValues n t r i ++
      [("owr_aoa_ranging_measurements", .records (l.map owrAoaValues)), ("vendor_data", .bytes v)])
  | .sessionStopRsp s => (sessionStopRsp, [("status", .int s)])
  | .sessionGetRangingCountRsp s n => (sessionGetRangingCountRsp, [("status", .int s), ("count", .int n)])
  | .androidGetPowerStatsRsp s a b c d =>
    (androidGetPowerStatsRsp, [("stats", .record [("status", .int s), ("idle_time_ms", .int a), ("tx_time_ms", .int b),
      ("rx_time_ms", .int c), ("total_wake_count", .int d)])])
  | .androidSetCountryCodeRsp s => (androidSetCountryCodeRsp, [("status", .int s)])
  | .androidRangeDiagnosticsNtf t n l =>
    (androidRangeDiagnosticsNtf,
      [("session_token", .int t), ("sequence_number", .int n), ("frame_reports", .records (l.map frameReportValues))])
  | .dataPacket d b m p => (dataPacket, [("dpf", .int d), ("pbf", .int b), ("mt", .int m), ("payload", .bytes p)])
  | .dataMessageSnd b h d n v =>
    (dataMessageSnd, [("pbf", .int b), ("session_handle", .int h), ("destination_address", .int d),
      ("data_sequence_number", .int n), ("application_data", .bytes v)])
  | .dataMessageRcv b h s a n v =>
    (dataMessageRcv, [("pbf", .int b), ("session_handle", .int h), ("status", .int s), ("source_address", .int a),
      ("data_sequence_number", .int n), ("application_data", .bytes v)])

/-- The bits of an object on the wire, by the packet description. -/
def layout (o : Obj) : Pattern := (packetOf o).1.pattern (packetOf o).2

end Pica.Spec
