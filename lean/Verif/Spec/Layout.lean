import Verif.Spec.PdlPackets
import Verif.Model.Packets
/-!
The messages of the emulator as packets of `src/uci_packets.pdl`: the packet of that name, and the values of the fields under
the names they have there. Of the model only the types of the messages and the codes of the enumerations are used.
-/

namespace Pica.Spec
open Pdl.Value

/-- A field of 8 bits. -/
def byte (b : UInt8) : Pdl.Value := .int b.toNat

def ofConfigParameter (x : ConfigParameter) : Pdl.Values := [("id", byte x.id.code), ("value", .bytes x.value)]
def ofConfigParameterStatus (x : ConfigParameterStatus) : Pdl.Values :=
  [("id", byte x.id.code), ("status", byte x.status.code)]
def ofCapTlv (x : CapTlv) : Pdl.Values := [("t", byte x.t.code), ("v", .bytes x.v)]
def ofAppConfigTlv (x : AppConfigTlv) : Pdl.Values := [("cfg_id", byte x.cfgId.code), ("v", .bytes x.v)]
def ofAppConfigStatus (x : AppConfigStatus) : Pdl.Values := [("cfg_id", byte x.cfgId.code), ("status", byte x.status.code)]
def ofControleeStatus (x : ControleeStatus) : Pdl.Values :=
  [("mac_address", .bytes x.macAddress.1), ("status", byte x.status.code)]
def ofControlee {n : Nat} (x : WireControlee n) : Pdl.Values :=
  [("short_address", .bytes x.shortAddress.1), ("subsession_id", .int x.subsessionId.toNat),
    ("subsession_key", .bytes x.subsessionKey.1)]
def ofMeasurement (m : Measurement) : Pdl.Values :=
  [("mac_address", .int m.macAddress.toNat), ("status", byte m.status.code), ("nlos", byte m.nlos),
    ("distance", .int m.distance.toNat), ("aoa_azimuth", .int m.aoaAzimuth.toNat), ("aoa_azimuth_fom", byte m.aoaAzimuthFom),
    ("aoa_elevation", .int m.aoaElevation.toNat), ("aoa_elevation_fom", byte m.aoaElevationFom),
    ("aoa_destination_azimuth", .int m.aoaDestinationAzimuth.toNat),
    ("aoa_destination_azimuth_fom", byte m.aoaDestinationAzimuthFom),
    ("aoa_destination_elevation", .int m.aoaDestinationElevation.toNat),
    ("aoa_destination_elevation_fom", byte m.aoaDestinationElevationFom),
    ("slot_index", byte m.slotIndex), ("rssi", byte m.rssi)]
def ofPowerStats (s : PowerStats) : Pdl.Values :=
  [("status", byte s.status.code), ("idle_time_ms", .int s.idleTimeMs.toNat), ("tx_time_ms", .int s.txTimeMs.toNat),
    ("rx_time_ms", .int s.rxTimeMs.toNat), ("total_wake_count", .int s.totalWakeCount.toNat)]

/-- Commands. -/
def ofCmd : Cmd → Pdl.Packet × Pdl.Values
  | .coreDeviceReset c => (Pdl.coreDeviceResetCmd, [("reset_config", byte c.code)])
  | .coreGetDeviceInfo => (Pdl.coreGetDeviceInfoCmd, [])
  | .coreGetCapsInfo => (Pdl.coreGetCapsInfoCmd, [])
  | .coreSetConfig l => (Pdl.coreSetConfigCmd, [("parameters", .records (l.map ofConfigParameter))])
  | .coreGetConfig l => (Pdl.coreGetConfigCmd, [("parameter_ids", .ints (l.map (·.code.toNat)))])
  | .sessionInit i t => (Pdl.sessionInitCmd, [("session_id", .int i.toNat), ("session_type", byte t.code)])
  | .sessionDeinit t => (Pdl.sessionDeinitCmd, [("session_token", .int t.toNat)])
  | .sessionGetCount => (Pdl.sessionGetCountCmd, [])
  | .sessionSetAppConfig t l =>
    (Pdl.sessionSetAppConfigCmd, [("session_token", .int t.toNat), ("tlvs", .records (l.map ofAppConfigTlv))])
  | .sessionGetAppConfig t l =>
    (Pdl.sessionGetAppConfigCmd, [("session_token", .int t.toNat), ("app_cfg", .ints (l.map (·.code.toNat)))])
  | .sessionGetState t => (Pdl.sessionGetStateCmd, [("session_token", .int t.toNat)])
  | .sessionUpdateMulticast t a p =>
    (Pdl.sessionUpdateControllerMulticastListCmd,
      [("session_token", .int t.toNat), ("action", byte a.code), ("payload", .bytes p)])
  | .sessionStart i => (Pdl.sessionStartCmd, [("session_id", .int i.toNat)])
  | .sessionStop i => (Pdl.sessionStopCmd, [("session_id", .int i.toNat)])
  | .sessionGetRangingCount i => (Pdl.sessionGetRangingCountCmd, [("session_id", .int i.toNat)])
  | .androidGetPowerStats => (Pdl.androidGetPowerStatsCmd, [])
  | .androidSetCountryCode c => (Pdl.androidSetCountryCodeCmd, [("country_code", .bytes c.1)])

/-- Responses. -/
def ofRsp : Rsp → Pdl.Packet × Pdl.Values
  | .coreDeviceReset s => (Pdl.coreDeviceResetRsp, [("status", byte s.code)])
  | .coreGetDeviceInfo s a b c d v =>
    (Pdl.coreGetDeviceInfoRsp, [("status", byte s.code), ("uci_version", .int a.toNat), ("mac_version", .int b.toNat),
      ("phy_version", .int c.toNat), ("uci_test_version", .int d.toNat), ("vendor_spec_info", .bytes v)])
  | .coreGetCapsInfo s l => (Pdl.coreGetCapsInfoRsp, [("status", byte s.code), ("tlvs", .records (l.map ofCapTlv))])
  | .coreSetConfig s l =>
    (Pdl.coreSetConfigRsp, [("status", byte s.code), ("parameters", .records (l.map ofConfigParameterStatus))])
  | .coreGetConfig s l =>
    (Pdl.coreGetConfigRsp, [("status", byte s.code), ("parameters", .records (l.map ofConfigParameter))])
  | .sessionInit s => (Pdl.sessionInitRsp, [("status", byte s.code)])
  | .sessionDeinit s => (Pdl.sessionDeinitRsp, [("status", byte s.code)])
  | .sessionGetCount s n => (Pdl.sessionGetCountRsp, [("status", byte s.code), ("session_count", byte n)])
  | .sessionSetAppConfig s l =>
    (Pdl.sessionSetAppConfigRsp, [("status", byte s.code), ("cfg_status", .records (l.map ofAppConfigStatus))])
  | .sessionGetAppConfig s l =>
    (Pdl.sessionGetAppConfigRsp, [("status", byte s.code), ("tlvs", .records (l.map ofAppConfigTlv))])
  | .sessionGetState s t => (Pdl.sessionGetStateRsp, [("status", byte s.code), ("session_state", byte t.code)])
  | .sessionUpdateMulticast s l =>
    (Pdl.sessionUpdateControllerMulticastListRsp,
      [("status", byte s.code), ("controlee_status", .records (l.map ofControleeStatus))])
  | .sessionStart s => (Pdl.sessionStartRsp, [("status", byte s.code)])
  | .sessionStop s => (Pdl.sessionStopRsp, [("status", byte s.code)])
  | .sessionGetRangingCount s n => (Pdl.sessionGetRangingCountRsp, [("status", byte s.code), ("count", .int n.toNat)])
  | .androidGetPowerStats s => (Pdl.androidGetPowerStatsRsp, [("stats", .record (ofPowerStats s))])
  | .androidSetCountryCode s => (Pdl.androidSetCountryCodeRsp, [("status", byte s.code)])

/-- Notifications. -/
def ofNtf : Ntf → Pdl.Packet × Pdl.Values
  | .coreDeviceStatus s => (Pdl.coreDeviceStatusNtf, [("device_state", byte s.code)])
  | .sessionStatus t s r =>
    (Pdl.sessionStatusNtf, [("session_token", .int t.toNat), ("session_state", byte s.code), ("reason_code", byte r)])
  | .sessionUpdateMulticast t l =>
    (Pdl.sessionUpdateControllerMulticastListNtf,
      [("session_token", .int t.toNat), ("controlee_status", .records (l.map ofControleeStatus))])
  | .sessionDataCredit t a =>
    (Pdl.sessionDataCreditNtf, [("session_token", .int t.toNat), ("credit_availability", byte a.code)])
  | .sessionDataTransferStatus t n s c =>
    (Pdl.sessionDataTransferStatusNtf, [("session_token", .int t.toNat), ("uci_sequence_number", byte n),
      ("status", byte s.code), ("tx_count", byte c)])
  | .sessionInfo n t r i l v =>
    (Pdl.shortMacTwoWaySessionInfoNtf, [("sequence_number", .int n.toNat), ("session_token", .int t.toNat),
      ("rcr_indicator", byte r), ("current_ranging_interval", .int i.toNat),
      ("two_way_ranging_measurements", .records (l.map ofMeasurement)), ("vendor_data", .bytes v)])

/-- Data for a host. -/
def ofDataRcv (pbf : Nat) (d : DataMessageRcv) : Pdl.Packet × Pdl.Values :=
  (Pdl.dataMessageRcv, [("pbf", .int pbf), ("session_handle", .int d.sessionHandle.toNat), ("status", byte d.status.code),
    ("source_address", .int d.sourceAddress.toNat), ("data_sequence_number", .int d.dataSequenceNumber.toNat),
    ("application_data", .bytes d.applicationData)])

/-- Data from a host. -/
def ofDataSnd (pbf : Nat) (d : DataMessageSnd) : Pdl.Packet × Pdl.Values :=
  (Pdl.dataMessageSnd, [("pbf", .int pbf), ("session_handle", .int d.sessionHandle.toNat),
    ("destination_address", .int d.destinationAddress.toNat), ("data_sequence_number", .int d.dataSequenceNumber.toNat),
    ("application_data", .bytes d.applicationData)])

/-- The bits of a packet with its values. -/
def bitsFor (x : Pdl.Packet × Pdl.Values) : Pdl.Pattern := x.1.pattern x.2

/-- The payload of SESSION_UPDATE_CONTROLLER_MULTICAST_LIST_CMD, by the length of the keys in it. -/
def controleePayload (n : Nat) : List Pdl.Field :=
  if n = 0 then Pdl.sessionUpdateControllerMulticastListCmdPayload
  else if n = 16 then Pdl.sessionUpdateControllerMulticastListCmd_2_0_16_Byte_Payload
  else Pdl.sessionUpdateControllerMulticastListCmd_2_0_32_Byte_Payload

/-- The bits of such a payload. -/
def controleeBits {n : Nat} (l : List (WireControlee n)) : Pdl.Pattern :=
  Pdl.patterns [("controlees", .records (l.map ofControlee))] [] (controleePayload n)

end Pica.Spec
