import Verif.Proofs.PdlBits
import Verif.Proofs.PyRoundTrip
import Verif.Spec.PyLayout
/-! The layouts of the objects of `uci.py`, written out. -/

namespace Pica.Py
set_option linter.unusedSimpArgs false

open Spec
open Spec.Pdl (Pattern nat gap octets)

/-- An identifier, a length, a value. -/
def tlvPat (p : Nat × Bytes) : Pattern := nat 8 p.1 ++ (nat 8 p.2.length ++ octets p.2)
def idStatusPat (p : Nat × Nat) : Pattern := nat 8 p.1 ++ nat 8 p.2
def controleeStatusPat (p : Bytes × Nat) : Pattern := octets p.1 ++ nat 8 p.2
def measurementFront (w : Nat) (m : Measurement) : Pattern :=
  nat w m.macAddress ++ (nat 8 m.status ++ (nat 8 m.nlos ++ (nat 16 m.distance ++ (nat 16 m.aoaAzimuth ++
    (nat 8 m.aoaAzimuthFom ++ (nat 16 m.aoaElevation ++ (nat 8 m.aoaElevationFom ++ (nat 16 m.aoaDestinationAzimuth ++
    (nat 8 m.aoaDestinationAzimuthFom ++ (nat 16 m.aoaDestinationElevation ++ (nat 8 m.aoaDestinationElevationFom ++
    (nat 8 m.slotIndex ++ nat 8 m.rssi))))))))))))
def measurementPat (w z : Nat) (m : Measurement) : Pattern := measurementFront w m ++ gap z
def owrAoaPat (w : Nat) (m : OwrAoa) : Pattern :=
  nat w m.macAddress ++ (nat 8 m.status ++ (nat 8 m.nlos ++ (nat 8 m.frameSequenceNumber ++ (nat 16 m.blockIndex ++
    (nat 16 m.aoaAzimuth ++ (nat 8 m.aoaAzimuthFom ++ (nat 16 m.aoaElevation ++ nat 8 m.aoaElevationFom)))))))
def relativePat (l : RelativeLocation) : Pattern := nat 28 l.x ++ (nat 28 l.y ++ nat 24 l.z)
def stampPat (short long : Option Nat) : Pattern :=
  if long = none then nat 40 (short.getD 0) else nat 64 (long.getD 0)
/-- The two bytes of bits. -/
def dlTdoaBitsPat (m : DlTdoa) : Pattern :=
  nat 1 m.txTimestampType ++ (nat 1 (if m.txTimestamp64 = none then 0 else 1) ++ (gap 1 ++
    (nat 1 (if m.rxTimestamp64 = none then 0 else 1) ++ (gap 1 ++ (nat 1 m.wgs84Location.length ++
    (nat 1 m.relativeLocation.length ++ (nat 4 m.activeRangingRounds.length ++ gap 5)))))))
def dlTdoaFront (m : DlTdoa) : Pattern :=
  nat 16 m.blockIndex ++ (nat 8 m.roundIndex ++ (nat 8 m.nlos ++ (nat 16 m.aoaAzimuth ++ (nat 8 m.aoaAzimuthFom ++
    (nat 16 m.aoaElevation ++ (nat 8 m.aoaElevationFom ++ nat 8 m.rssi))))))
def dlTdoaTimesPat (m : DlTdoa) : Pattern :=
  nat 16 m.anchorCfo ++ (nat 16 m.cfo ++ (nat 32 m.initiatorReplyTime ++ (nat 32 m.responderReplyTime ++
    nat 16 m.initiatorResponderTof)))
def dlTdoaPat (m : DlTdoa) : Pattern :=
  (nat 8 m.status ++ nat 8 m.messageType) ++ (dlTdoaBitsPat m ++ (dlTdoaFront m ++
    (stampPat m.txTimestamp40 m.txTimestamp64 ++ (stampPat m.rxTimestamp40 m.rxTimestamp64 ++
    (dlTdoaTimesPat m ++ (m.wgs84Location.flatMap octets ++ (m.relativeLocation.flatMap relativePat ++
    octets m.activeRangingRounds)))))))
def addressedPat (w : Nat) (m : Nat × DlTdoa) : Pattern := nat w m.1 ++ dlTdoaPat m.2
def frameReportTlvPat (p : Nat × Bytes) : Pattern := nat 8 p.1 ++ (nat 16 p.2.length ++ octets p.2)

/-- A counted list. -/
def listPat {α : Type} (f : α → Pattern) (l : List α) : Pattern := nat 8 l.length ++ l.flatMap f

def frameReportPat (r : FrameReport) : Pattern :=
  nat 8 r.uwbMsgId ++ (nat 8 r.action ++ (nat 8 r.antennaSet ++ listPat frameReportTlvPat r.frameReportTlvs))

/-- The session notifications, the payload last. -/
def infoPat (n t r i type indicator : Nat) (p : Pattern) : Pattern :=
  nat 32 n ++ (nat 32 t ++ (nat 8 r ++ (nat 32 i ++ (nat 8 type ++ (gap 8 ++ (nat 8 indicator ++ (gap 64 ++ p)))))))

def commandPat : Command → Pattern
  | .coreDeviceReset c => nat 8 c
  | .coreGetDeviceInfo | .coreGetCapsInfo | .coreQueryTimeStamp | .sessionGetCount | .sessionUpdateDtAnchorRangingRounds
  | .androidGetPowerStats => []
  | .coreSetConfig l => listPat tlvPat l
  | .coreGetConfig l => listPat (nat 8) l
  | .sessionInit t s => nat 32 t ++ nat 8 s
  | .sessionDeinit t | .sessionGetState t | .sessionQueryMaxDataSizeInRanging t | .sessionStart t | .sessionStop t
  | .sessionGetRangingCount t => nat 32 t
  | .sessionSetAppConfig t l => nat 32 t ++ listPat tlvPat l
  | .sessionGetAppConfig t l => nat 32 t ++ listPat (nat 8) l
  | .sessionUpdateDtTagRangingRounds t v => nat 32 t ++ (nat 8 v.length ++ octets v)
  | .sessionUpdateControllerMulticastList t a p => nat 32 t ++ (nat 8 a ++ octets p)
  | .androidSetCountryCode c => octets c

/-- The layout of an object after the head. -/
def bodyPat : Obj → Pattern
  | .command c => commandPat c
  | .corePacket _ _ p | .sessionConfigPacket _ _ p | .sessionControlPacket _ _ p | .androidPacket _ _ p | .controlPacket _ _ p
  | .dataPacket _ _ _ p => octets p
  | .coreDeviceResetRsp s | .coreGenericErrorNtf s | .sessionInitRsp s | .sessionDeinitRsp s | .sessionStartRsp s
  | .sessionStopRsp s | .androidSetCountryCodeRsp s | .coreDeviceStatusNtf s => nat 8 s
  | .sessionUpdateControllerMulticastListRsp s => nat 8 s ++ nat 8 0
  | .coreGetDeviceInfoRsp s a b c d v =>
    nat 8 s ++ (nat 16 a ++ (nat 16 b ++ (nat 16 c ++ (nat 16 d ++ (nat 8 v.length ++ octets v)))))
  | .coreGetCapsInfoRsp s l | .sessionGetAppConfigRsp s l | .coreGetConfigRsp s l => nat 8 s ++ listPat tlvPat l
  | .coreSetConfigRsp s l | .sessionSetAppConfigRsp s l => nat 8 s ++ listPat idStatusPat l
  | .coreQueryTimeStampRsp s t => nat 8 s ++ nat 64 t
  | .sessionInitRspV2 s n | .sessionGetRangingCountRsp s n => nat 8 s ++ nat 32 n
  | .sessionStatusNtf t s r => nat 32 t ++ (nat 8 s ++ nat 8 r)
  | .sessionGetCountRsp s n => nat 8 s ++ nat 8 n
  | .sessionGetStateRsp s t => nat 8 s ++ nat 8 t
  | .sessionUpdateDtAnchorRangingRoundsRsp => []
  | .sessionUpdateDtTagRangingRoundsRsp s v => nat 8 s ++ (nat 8 v.length ++ octets v)
  | .sessionUpdateControllerMulticastListNtf t l => nat 32 t ++ listPat controleeStatusPat l
  | .sessionQueryMaxDataSizeInRangingRsp t n => nat 32 t ++ nat 16 n
  | .sessionDataCreditNtf t c => nat 32 t ++ nat 8 c
  | .sessionDataTransferStatusNtf t n s c => nat 32 t ++ (nat 8 n ++ (nat 8 s ++ nat 8 c))
  | .sessionInfoNtf n t r i type indicator p => infoPat n t r i type indicator (octets p)
  | .shortMacTwoWaySessionInfoNtf n t r i l v => infoPat n t r i 1 0 (listPat (measurementPat 16 88) l ++ octets v)
  | .extendedMacTwoWaySessionInfoNtf n t r i l v => infoPat n t r i 1 1 (listPat (measurementPat 64 40) l ++ octets v)
  | .shortMacDlTDoASessionInfoNtf n t r i l => infoPat n t r i 2 0 (listPat (addressedPat 16) l)
  | .extendedMacDlTDoASessionInfoNtf n t r i l => infoPat n t r i 2 1 (listPat (addressedPat 64) l)
  | .shortMacOwrAoaSessionInfoNtf n t r i l v => infoPat n t r i 3 0 (listPat (owrAoaPat 16) l ++ octets v)
  | .extendedMacOwrAoaSessionInfoNtf n t r i l v => infoPat n t r i 3 1 (listPat (owrAoaPat 64) l ++ octets v)
  | .androidGetPowerStatsRsp s a b c d => nat 8 s ++ (nat 32 a ++ (nat 32 b ++ (nat 32 c ++ nat 32 d)))
  | .androidRangeDiagnosticsNtf t n l => nat 32 t ++ (nat 32 n ++ listPat frameReportPat l)
  | .dataMessageSnd _ h d n v => nat 32 h ++ (nat 64 d ++ (nat 16 n ++ (nat 16 v.length ++ octets v)))
  | .dataMessageRcv _ h s a n v => nat 32 h ++ (nat 8 s ++ (nat 64 a ++ (nat 16 n ++ (nat 16 v.length ++ octets v))))

/-- The first byte of a control packet. -/
def firstPat (g mt : Nat) : Pattern := nat 4 g ++ (gap 1 ++ nat 3 mt)
/-- The other three. -/
def opcodePat (oid : Nat) : Pattern := nat 6 oid ++ (gap 2 ++ gap 16)
/-- The head of data. -/
def dataPat (d b mt : Nat) : Pattern := nat 4 d ++ (nat 1 b ++ (nat 3 mt ++ (gap 8 ++ gap 16)))

/-- The head of an object. -/
def headPat : Obj → Pattern
  | .controlPacket g mt _ => firstPat g mt
  | .dataPacket d b mt _ => dataPat d b mt
  | .dataMessageSnd b .. => dataPat 1 b 0
  | .dataMessageRcv b .. => dataPat 2 b 0
  | o => firstPat o.code.1 o.code.2.1 ++ opcodePat o.code.2.2

theorem gap_add (m n : Nat) : gap (m + n) = gap m ++ gap n := by unfold gap; rw [List.replicate_append_replicate]

open Spec.Pdl in
theorem wgs84_pat (b : Bytes) : patterns (wgs84LocationValues b) [] Spec.Pdl.wgs84Location = octets b := by
  simp [wgs84LocationValues, Spec.Pdl.wgs84Location, patterns, Field.pattern, Values.bytes, Values.get]

open Spec.Pdl in
theorem relative_pat (l : RelativeLocation) : patterns (relativeLocationValues l) [] Spec.Pdl.relativeLocation = relativePat l := by
  simp [relativeLocationValues, Spec.Pdl.relativeLocation, patterns, Field.pattern, Values.int, Values.get, relativePat]

open Spec.Pdl in
theorem dlTdoa_pat (m : DlTdoa) : patterns (dlTdoaValues m) [] Spec.Pdl.dlTdoaRangingMeasurement = dlTdoaPat m := by
  have h0 : (dlTdoaValues m).int "status" = m.status := rfl
  have h1 : (dlTdoaValues m).int "message_type" = m.messageType := rfl
  have h2 : (dlTdoaValues m).int "tx_timestamp_type" = m.txTimestampType := rfl
  have h3 : (dlTdoaValues m).int "block_index" = m.blockIndex := rfl
  have h4 : (dlTdoaValues m).int "round_index" = m.roundIndex := rfl
  have h5 : (dlTdoaValues m).int "nlos" = m.nlos := rfl
  have h6 : (dlTdoaValues m).int "aoa_azimuth" = m.aoaAzimuth := rfl
  have h7 : (dlTdoaValues m).int "aoa_azimuth_fom" = m.aoaAzimuthFom := rfl
  have h8 : (dlTdoaValues m).int "aoa_elevation" = m.aoaElevation := rfl
  have h9 : (dlTdoaValues m).int "aoa_elevation_fom" = m.aoaElevationFom := rfl
  have h10 : (dlTdoaValues m).int "rssi" = m.rssi := rfl
  have h11 : (dlTdoaValues m).int "anchor_cfo" = m.anchorCfo := rfl
  have h12 : (dlTdoaValues m).int "cfo" = m.cfo := rfl
  have h13 : (dlTdoaValues m).int "initiator_reply_time" = m.initiatorReplyTime := rfl
  have h14 : (dlTdoaValues m).int "responder_reply_time" = m.responderReplyTime := rfl
  have h15 : (dlTdoaValues m).int "initiator_responder_tof" = m.initiatorResponderTof := rfl
  have k1 : (dlTdoaValues m).int "tx_timestamp_length" = (if m.txTimestamp64 = none then 0 else 1) := rfl
  have k2 : (dlTdoaValues m).int "rx_timestamp_length" = (if m.rxTimestamp64 = none then 0 else 1) := rfl
  have k3 : (dlTdoaValues m).length "wgs84_location" = (m.wgs84Location.map wgs84LocationValues).length := rfl
  have k4 : (dlTdoaValues m).length "relative_location" = (m.relativeLocation.map relativeLocationValues).length := rfl
  have k5 : (dlTdoaValues m).length "active_ranging_rounds" = m.activeRangingRounds.length := rfl
  have k6 : (dlTdoaValues m).records "wgs84_location" = m.wgs84Location.map wgs84LocationValues := rfl
  have k7 : (dlTdoaValues m).records "relative_location" = m.relativeLocation.map relativeLocationValues := rfl
  have k8 : (dlTdoaValues m).bytes "active_ranging_rounds" = m.activeRangingRounds := rfl
  have g1 : (dlTdoaValues m).int "tx_timestamp_40" = m.txTimestamp40.getD 0 := by
    show (match ofOption m.txTimestamp40 with | .int n => n | _ => 0) = _
    cases m.txTimestamp40 <;> rfl
  have g2 : (dlTdoaValues m).int "tx_timestamp_64" = m.txTimestamp64.getD 0 := by
    show (match ofOption m.txTimestamp64 with | .int n => n | _ => 0) = _
    cases m.txTimestamp64 <;> rfl
  have g3 : (dlTdoaValues m).int "rx_timestamp_40" = m.rxTimestamp40.getD 0 := by
    show (match ofOption m.rxTimestamp40 with | .int n => n | _ => 0) = _
    cases m.rxTimestamp40 <;> rfl
  have g4 : (dlTdoaValues m).int "rx_timestamp_64" = m.rxTimestamp64.getD 0 := by
    show (match ofOption m.rxTimestamp64 with | .int n => n | _ => 0) = _
    cases m.rxTimestamp64 <;> rfl
  have e1 : ∀ n x y : Nat, (if (if m.txTimestamp64 = none then 0 else 1) = 0 then nat 40 x else []) ++
      (if (if m.txTimestamp64 = none then 0 else 1) = 1 then nat 64 y else []) =
      if m.txTimestamp64 = none then nat 40 x else nat 64 y := by
    intro n x y; split <;> simp
  have e2 : ∀ n x y : Nat, (if (if m.rxTimestamp64 = none then 0 else 1) = 0 then nat 40 x else []) ++
      (if (if m.rxTimestamp64 = none then 0 else 1) = 1 then nat 64 y else []) =
      if m.rxTimestamp64 = none then nat 40 x else nat 64 y := by
    intro n x y; split <;> simp
  simp only [Spec.Pdl.dlTdoaRangingMeasurement, patterns, Field.pattern, h0, h1, h2, h3, h4, h5, h6, h7, h8, h9, h10, h11, h12, h13, h14, h15,
    k1, k2, k3, k4, k5, k6, k7, k8, g1, g2, g3, g4, List.length_map, List.flatMap_map, wgs84_pat, relative_pat]
  unfold dlTdoaPat stampPat dlTdoaBitsPat dlTdoaFront dlTdoaTimesPat
  rw [← e1 0, ← e2 0]
  simp only [List.append_assoc, List.append_nil]

open Spec.Pdl in
theorem measurement_pat (m : Measurement) :
    patterns (measurementValues m) [] Spec.Pdl.shortAddressTwoWayRangingMeasurement = measurementPat 16 88 m := by
  simp [measurementValues, Spec.Pdl.shortAddressTwoWayRangingMeasurement, patterns, Field.pattern, Values.int, Values.get,
    measurementPat, measurementFront, gap_add 64 24]

open Spec.Pdl in
theorem extMeasurement_pat (m : Measurement) :
    patterns (measurementValues m) [] Spec.Pdl.extendedAddressTwoWayRangingMeasurement = measurementPat 64 40 m := by
  simp [measurementValues, Spec.Pdl.extendedAddressTwoWayRangingMeasurement, patterns, Field.pattern, Values.int, Values.get,
    measurementPat, measurementFront]

open Spec.Pdl in
theorem owrAoa_pat (m : OwrAoa) :
    patterns (owrAoaValues m) [] Spec.Pdl.shortAddressOwrAoaRangingMeasurement = owrAoaPat 16 m := by
  simp [owrAoaValues, Spec.Pdl.shortAddressOwrAoaRangingMeasurement, patterns, Field.pattern, Values.int, Values.get, owrAoaPat]

open Spec.Pdl in
theorem extOwrAoa_pat (m : OwrAoa) :
    patterns (owrAoaValues m) [] Spec.Pdl.extendedAddressOwrAoaRangingMeasurement = owrAoaPat 64 m := by
  simp [owrAoaValues, Spec.Pdl.extendedAddressOwrAoaRangingMeasurement, patterns, Field.pattern, Values.int, Values.get, owrAoaPat]

open Spec.Pdl in
theorem addressed_pat (m : Nat × DlTdoa) :
    patterns (addressedDlTdoaValues m) [] Spec.Pdl.shortAddressDlTdoaRangingMeasurement = addressedPat 16 m := by
  simp [addressedDlTdoaValues, Spec.Pdl.shortAddressDlTdoaRangingMeasurement, patterns, Field.pattern, Values.int, Values.get,
    Values.record, dlTdoa_pat, addressedPat]

open Spec.Pdl in
theorem extAddressed_pat (m : Nat × DlTdoa) :
    patterns (addressedDlTdoaValues m) [] Spec.Pdl.extendedAddressDlTdoaRangingMeasurement = addressedPat 64 m := by
  simp [addressedDlTdoaValues, Spec.Pdl.extendedAddressDlTdoaRangingMeasurement, patterns, Field.pattern, Values.int, Values.get,
    Values.record, dlTdoa_pat, addressedPat]

open Spec.Pdl in
theorem capTlv_pat (p : Nat × Bytes) : patterns (capTlvValues p) [] Spec.Pdl.capTlv = tlvPat p := by
  simp [capTlvValues, Spec.Pdl.capTlv, patterns, Field.pattern, Values.int, Values.length, Values.bytes, Values.get, tlvPat]

open Spec.Pdl in
theorem configParameter_pat (p : Nat × Bytes) : patterns (configParameterValues p) [] Spec.Pdl.configParameter = tlvPat p := by
  simp [configParameterValues, Spec.Pdl.configParameter, patterns, Field.pattern, Values.int, Values.length, Values.bytes, Values.get,
    tlvPat]

open Spec.Pdl in
theorem appConfigTlv_pat (p : Nat × Bytes) : patterns (appConfigTlvValues p) [] Spec.Pdl.appConfigTlv = tlvPat p := by
  simp [appConfigTlvValues, Spec.Pdl.appConfigTlv, patterns, Field.pattern, Values.int, Values.length, Values.bytes, Values.get,
    tlvPat]

open Spec.Pdl in
theorem configParameterStatus_pat (p : Nat × Nat) :
    patterns (configParameterStatusValues p) [] Spec.Pdl.configParameterStatus = idStatusPat p := by
  simp [configParameterStatusValues, Spec.Pdl.configParameterStatus, patterns, Field.pattern, Values.int, Values.get, idStatusPat]

open Spec.Pdl in
theorem appConfigStatus_pat (p : Nat × Nat) : patterns (appConfigStatusValues p) [] Spec.Pdl.appConfigStatus = idStatusPat p := by
  simp [appConfigStatusValues, Spec.Pdl.appConfigStatus, patterns, Field.pattern, Values.int, Values.get, idStatusPat]

open Spec.Pdl in
theorem controleeStatus_pat (p : Bytes × Nat) :
    patterns (controleeStatusValues p) [] Spec.Pdl.controleeStatus = controleeStatusPat p := by
  simp [controleeStatusValues, Spec.Pdl.controleeStatus, patterns, Field.pattern, Values.int, Values.bytes, Values.get,
    controleeStatusPat]

open Spec.Pdl in
theorem frameReportTlv_pat (p : Nat × Bytes) : patterns (frameReportTlvValues p) [] Spec.Pdl.frameReportTlv = frameReportTlvPat p := by
  simp [frameReportTlvValues, Spec.Pdl.frameReportTlv, patterns, Field.pattern, Values.int, Values.length, Values.bytes, Values.get,
    frameReportTlvPat]

open Spec.Pdl in
theorem frameReport_pat (r : FrameReport) : patterns (frameReportValues r) [] Spec.Pdl.frameReport = frameReportPat r := by
  simp [frameReportValues, Spec.Pdl.frameReport, patterns, Field.pattern, Values.int, Values.length, Values.records, Values.get,
    frameReportPat, listPat, List.flatMap_map, frameReportTlv_pat]

/-- The structures of the packet description are those written out here. -/
theorem layout_eq (o : Obj) : Spec.layout o = headPat o ++ bodyPat o := by
  cases o with
  | command c => cases c <;> simp [layout, packetOf, Spec.Pdl.octets_nil, commandPacket, infoValues, Spec.Pdl.Packet.pattern, Spec.Pdl.Packet.within, Spec.Pdl.patterns,
    Spec.Pdl.Field.pattern, Spec.Pdl.Values.int, Spec.Pdl.Values.get, Spec.Pdl.Values.length, Spec.Pdl.Values.bytes, Spec.Pdl.Values.ints,
    Spec.Pdl.Values.records, Spec.Pdl.Values.record, List.flatMap_map, headPat, bodyPat, commandPat, infoPat, firstPat, opcodePat, dataPat, listPat,
    Obj.code, Command.code, Spec.Pdl.controlPacket, measurement_pat, extMeasurement_pat, owrAoa_pat, extOwrAoa_pat,
    addressed_pat, extAddressed_pat, capTlv_pat, configParameter_pat, appConfigTlv_pat, configParameterStatus_pat,
    appConfigStatus_pat, controleeStatus_pat, frameReport_pat, Spec.Pdl.coreDeviceResetCmd, Spec.Pdl.coreGetDeviceInfoCmd, Spec.Pdl.coreGetCapsInfoCmd, Spec.Pdl.coreSetConfigCmd,
    Spec.Pdl.coreGetConfigCmd, Spec.Pdl.coreQueryTimeStampCmd, Spec.Pdl.sessionInitCmd, Spec.Pdl.sessionDeinitCmd,
    Spec.Pdl.sessionSetAppConfigCmd, Spec.Pdl.sessionGetAppConfigCmd, Spec.Pdl.sessionGetCountCmd, Spec.Pdl.sessionGetStateCmd,
    Spec.Pdl.sessionUpdateDtAnchorRangingRoundsCmd, Spec.Pdl.sessionUpdateDtTagRangingRoundsCmd,
    Spec.Pdl.sessionUpdateControllerMulticastListCmd, Spec.Pdl.sessionQueryMaxDataSizeInRangingCmd, Spec.Pdl.sessionStartCmd,
    Spec.Pdl.sessionStopCmd, Spec.Pdl.sessionGetRangingCountCmd, Spec.Pdl.androidGetPowerStatsCmd, Spec.Pdl.androidSetCountryCodeCmd,
    Spec.Pdl.corePacket, Spec.Pdl.sessionConfigPacket, Spec.Pdl.sessionControlPacket, Spec.Pdl.androidPacket]
  | controlPacket =>
    simp [layout, packetOf, Spec.Pdl.octets_nil, commandPacket, infoValues, Spec.Pdl.Packet.pattern, Spec.Pdl.Packet.within, Spec.Pdl.patterns,
    Spec.Pdl.Field.pattern, Spec.Pdl.Values.int, Spec.Pdl.Values.get, Spec.Pdl.Values.length, Spec.Pdl.Values.bytes, Spec.Pdl.Values.ints,
    Spec.Pdl.Values.records, Spec.Pdl.Values.record, List.flatMap_map, headPat, bodyPat, commandPat, infoPat, firstPat, opcodePat, dataPat, listPat,
    Obj.code, Command.code, Spec.Pdl.controlPacket, measurement_pat, extMeasurement_pat, owrAoa_pat, extOwrAoa_pat,
    addressed_pat, extAddressed_pat, capTlv_pat, configParameter_pat, appConfigTlv_pat, configParameterStatus_pat,
    appConfigStatus_pat, controleeStatus_pat, frameReport_pat,
      Spec.Pdl.controlPacket, Spec.Pdl.corePacket, Spec.Pdl.sessionConfigPacket, Spec.Pdl.sessionControlPacket, Spec.Pdl.androidPacket]
  | corePacket =>
    simp [layout, packetOf, Spec.Pdl.octets_nil, commandPacket, infoValues, Spec.Pdl.Packet.pattern, Spec.Pdl.Packet.within, Spec.Pdl.patterns,
    Spec.Pdl.Field.pattern, Spec.Pdl.Values.int, Spec.Pdl.Values.get, Spec.Pdl.Values.length, Spec.Pdl.Values.bytes, Spec.Pdl.Values.ints,
    Spec.Pdl.Values.records, Spec.Pdl.Values.record, List.flatMap_map, headPat, bodyPat, commandPat, infoPat, firstPat, opcodePat, dataPat, listPat,
    Obj.code, Command.code, Spec.Pdl.controlPacket, measurement_pat, extMeasurement_pat, owrAoa_pat, extOwrAoa_pat,
    addressed_pat, extAddressed_pat, capTlv_pat, configParameter_pat, appConfigTlv_pat, configParameterStatus_pat,
    appConfigStatus_pat, controleeStatus_pat, frameReport_pat,
      Spec.Pdl.corePacket, Spec.Pdl.sessionConfigPacket, Spec.Pdl.sessionControlPacket, Spec.Pdl.androidPacket]
  | sessionConfigPacket =>
    simp [layout, packetOf, Spec.Pdl.octets_nil, commandPacket, infoValues, Spec.Pdl.Packet.pattern, Spec.Pdl.Packet.within, Spec.Pdl.patterns,
    Spec.Pdl.Field.pattern, Spec.Pdl.Values.int, Spec.Pdl.Values.get, Spec.Pdl.Values.length, Spec.Pdl.Values.bytes, Spec.Pdl.Values.ints,
    Spec.Pdl.Values.records, Spec.Pdl.Values.record, List.flatMap_map, headPat, bodyPat, commandPat, infoPat, firstPat, opcodePat, dataPat, listPat,
    Obj.code, Command.code, Spec.Pdl.controlPacket, measurement_pat, extMeasurement_pat, owrAoa_pat, extOwrAoa_pat,
    addressed_pat, extAddressed_pat, capTlv_pat, configParameter_pat, appConfigTlv_pat, configParameterStatus_pat,
    appConfigStatus_pat, controleeStatus_pat, frameReport_pat,
      Spec.Pdl.sessionConfigPacket, Spec.Pdl.corePacket, Spec.Pdl.sessionControlPacket, Spec.Pdl.androidPacket]
  | sessionControlPacket =>
    simp [layout, packetOf, Spec.Pdl.octets_nil, commandPacket, infoValues, Spec.Pdl.Packet.pattern, Spec.Pdl.Packet.within, Spec.Pdl.patterns,
    Spec.Pdl.Field.pattern, Spec.Pdl.Values.int, Spec.Pdl.Values.get, Spec.Pdl.Values.length, Spec.Pdl.Values.bytes, Spec.Pdl.Values.ints,
    Spec.Pdl.Values.records, Spec.Pdl.Values.record, List.flatMap_map, headPat, bodyPat, commandPat, infoPat, firstPat, opcodePat, dataPat, listPat,
    Obj.code, Command.code, Spec.Pdl.controlPacket, measurement_pat, extMeasurement_pat, owrAoa_pat, extOwrAoa_pat,
    addressed_pat, extAddressed_pat, capTlv_pat, configParameter_pat, appConfigTlv_pat, configParameterStatus_pat,
    appConfigStatus_pat, controleeStatus_pat, frameReport_pat,
      Spec.Pdl.sessionControlPacket, Spec.Pdl.corePacket, Spec.Pdl.sessionConfigPacket, Spec.Pdl.androidPacket]
  | androidPacket =>
    simp [layout, packetOf, Spec.Pdl.octets_nil, commandPacket, infoValues, Spec.Pdl.Packet.pattern, Spec.Pdl.Packet.within, Spec.Pdl.patterns,
    Spec.Pdl.Field.pattern, Spec.Pdl.Values.int, Spec.Pdl.Values.get, Spec.Pdl.Values.length, Spec.Pdl.Values.bytes, Spec.Pdl.Values.ints,
    Spec.Pdl.Values.records, Spec.Pdl.Values.record, List.flatMap_map, headPat, bodyPat, commandPat, infoPat, firstPat, opcodePat, dataPat, listPat,
    Obj.code, Command.code, Spec.Pdl.controlPacket, measurement_pat, extMeasurement_pat, owrAoa_pat, extOwrAoa_pat,
    addressed_pat, extAddressed_pat, capTlv_pat, configParameter_pat, appConfigTlv_pat, configParameterStatus_pat,
    appConfigStatus_pat, controleeStatus_pat, frameReport_pat,
      Spec.Pdl.androidPacket, Spec.Pdl.corePacket, Spec.Pdl.sessionConfigPacket, Spec.Pdl.sessionControlPacket]
  | coreDeviceResetRsp =>
    simp [layout, packetOf, Spec.Pdl.octets_nil, commandPacket, infoValues, Spec.Pdl.Packet.pattern, Spec.Pdl.Packet.within, Spec.Pdl.patterns,
    Spec.Pdl.Field.pattern, Spec.Pdl.Values.int, Spec.Pdl.Values.get, Spec.Pdl.Values.length, Spec.Pdl.Values.bytes, Spec.Pdl.Values.ints,
    Spec.Pdl.Values.records, Spec.Pdl.Values.record, List.flatMap_map, headPat, bodyPat, commandPat, infoPat, firstPat, opcodePat, dataPat, listPat,
    Obj.code, Command.code, Spec.Pdl.controlPacket, measurement_pat, extMeasurement_pat, owrAoa_pat, extOwrAoa_pat,
    addressed_pat, extAddressed_pat, capTlv_pat, configParameter_pat, appConfigTlv_pat, configParameterStatus_pat,
    appConfigStatus_pat, controleeStatus_pat, frameReport_pat,
      Spec.Pdl.coreDeviceResetRsp, Spec.Pdl.corePacket, Spec.Pdl.sessionConfigPacket, Spec.Pdl.sessionControlPacket, Spec.Pdl.androidPacket]
  | coreDeviceStatusNtf =>
    simp [layout, packetOf, Spec.Pdl.octets_nil, commandPacket, infoValues, Spec.Pdl.Packet.pattern, Spec.Pdl.Packet.within, Spec.Pdl.patterns,
    Spec.Pdl.Field.pattern, Spec.Pdl.Values.int, Spec.Pdl.Values.get, Spec.Pdl.Values.length, Spec.Pdl.Values.bytes, Spec.Pdl.Values.ints,
    Spec.Pdl.Values.records, Spec.Pdl.Values.record, List.flatMap_map, headPat, bodyPat, commandPat, infoPat, firstPat, opcodePat, dataPat, listPat,
    Obj.code, Command.code, Spec.Pdl.controlPacket, measurement_pat, extMeasurement_pat, owrAoa_pat, extOwrAoa_pat,
    addressed_pat, extAddressed_pat, capTlv_pat, configParameter_pat, appConfigTlv_pat, configParameterStatus_pat,
    appConfigStatus_pat, controleeStatus_pat, frameReport_pat,
      Spec.Pdl.coreDeviceStatusNtf, Spec.Pdl.corePacket, Spec.Pdl.sessionConfigPacket, Spec.Pdl.sessionControlPacket, Spec.Pdl.androidPacket]
  | coreGetDeviceInfoRsp =>
    simp [layout, packetOf, Spec.Pdl.octets_nil, commandPacket, infoValues, Spec.Pdl.Packet.pattern, Spec.Pdl.Packet.within, Spec.Pdl.patterns,
    Spec.Pdl.Field.pattern, Spec.Pdl.Values.int, Spec.Pdl.Values.get, Spec.Pdl.Values.length, Spec.Pdl.Values.bytes, Spec.Pdl.Values.ints,
    Spec.Pdl.Values.records, Spec.Pdl.Values.record, List.flatMap_map, headPat, bodyPat, commandPat, infoPat, firstPat, opcodePat, dataPat, listPat,
    Obj.code, Command.code, Spec.Pdl.controlPacket, measurement_pat, extMeasurement_pat, owrAoa_pat, extOwrAoa_pat,
    addressed_pat, extAddressed_pat, capTlv_pat, configParameter_pat, appConfigTlv_pat, configParameterStatus_pat,
    appConfigStatus_pat, controleeStatus_pat, frameReport_pat,
      Spec.Pdl.coreGetDeviceInfoRsp, Spec.Pdl.corePacket, Spec.Pdl.sessionConfigPacket, Spec.Pdl.sessionControlPacket, Spec.Pdl.androidPacket]
  | coreGetCapsInfoRsp =>
    simp [layout, packetOf, Spec.Pdl.octets_nil, commandPacket, infoValues, Spec.Pdl.Packet.pattern, Spec.Pdl.Packet.within, Spec.Pdl.patterns,
    Spec.Pdl.Field.pattern, Spec.Pdl.Values.int, Spec.Pdl.Values.get, Spec.Pdl.Values.length, Spec.Pdl.Values.bytes, Spec.Pdl.Values.ints,
    Spec.Pdl.Values.records, Spec.Pdl.Values.record, List.flatMap_map, headPat, bodyPat, commandPat, infoPat, firstPat, opcodePat, dataPat, listPat,
    Obj.code, Command.code, Spec.Pdl.controlPacket, measurement_pat, extMeasurement_pat, owrAoa_pat, extOwrAoa_pat,
    addressed_pat, extAddressed_pat, capTlv_pat, configParameter_pat, appConfigTlv_pat, configParameterStatus_pat,
    appConfigStatus_pat, controleeStatus_pat, frameReport_pat,
      Spec.Pdl.coreGetCapsInfoRsp, Spec.Pdl.corePacket, Spec.Pdl.sessionConfigPacket, Spec.Pdl.sessionControlPacket, Spec.Pdl.androidPacket]
  | coreSetConfigRsp =>
    simp [layout, packetOf, Spec.Pdl.octets_nil, commandPacket, infoValues, Spec.Pdl.Packet.pattern, Spec.Pdl.Packet.within, Spec.Pdl.patterns,
    Spec.Pdl.Field.pattern, Spec.Pdl.Values.int, Spec.Pdl.Values.get, Spec.Pdl.Values.length, Spec.Pdl.Values.bytes, Spec.Pdl.Values.ints,
    Spec.Pdl.Values.records, Spec.Pdl.Values.record, List.flatMap_map, headPat, bodyPat, commandPat, infoPat, firstPat, opcodePat, dataPat, listPat,
    Obj.code, Command.code, Spec.Pdl.controlPacket, measurement_pat, extMeasurement_pat, owrAoa_pat, extOwrAoa_pat,
    addressed_pat, extAddressed_pat, capTlv_pat, configParameter_pat, appConfigTlv_pat, configParameterStatus_pat,
    appConfigStatus_pat, controleeStatus_pat, frameReport_pat,
      Spec.Pdl.coreSetConfigRsp, Spec.Pdl.corePacket, Spec.Pdl.sessionConfigPacket, Spec.Pdl.sessionControlPacket, Spec.Pdl.androidPacket]
  | coreGetConfigRsp =>
    simp [layout, packetOf, Spec.Pdl.octets_nil, commandPacket, infoValues, Spec.Pdl.Packet.pattern, Spec.Pdl.Packet.within, Spec.Pdl.patterns,
    Spec.Pdl.Field.pattern, Spec.Pdl.Values.int, Spec.Pdl.Values.get, Spec.Pdl.Values.length, Spec.Pdl.Values.bytes, Spec.Pdl.Values.ints,
    Spec.Pdl.Values.records, Spec.Pdl.Values.record, List.flatMap_map, headPat, bodyPat, commandPat, infoPat, firstPat, opcodePat, dataPat, listPat,
    Obj.code, Command.code, Spec.Pdl.controlPacket, measurement_pat, extMeasurement_pat, owrAoa_pat, extOwrAoa_pat,
    addressed_pat, extAddressed_pat, capTlv_pat, configParameter_pat, appConfigTlv_pat, configParameterStatus_pat,
    appConfigStatus_pat, controleeStatus_pat, frameReport_pat,
      Spec.Pdl.coreGetConfigRsp, Spec.Pdl.corePacket, Spec.Pdl.sessionConfigPacket, Spec.Pdl.sessionControlPacket, Spec.Pdl.androidPacket]
  | coreGenericErrorNtf =>
    simp [layout, packetOf, Spec.Pdl.octets_nil, commandPacket, infoValues, Spec.Pdl.Packet.pattern, Spec.Pdl.Packet.within, Spec.Pdl.patterns,
    Spec.Pdl.Field.pattern, Spec.Pdl.Values.int, Spec.Pdl.Values.get, Spec.Pdl.Values.length, Spec.Pdl.Values.bytes, Spec.Pdl.Values.ints,
    Spec.Pdl.Values.records, Spec.Pdl.Values.record, List.flatMap_map, headPat, bodyPat, commandPat, infoPat, firstPat, opcodePat, dataPat, listPat,
    Obj.code, Command.code, Spec.Pdl.controlPacket, measurement_pat, extMeasurement_pat, owrAoa_pat, extOwrAoa_pat,
    addressed_pat, extAddressed_pat, capTlv_pat, configParameter_pat, appConfigTlv_pat, configParameterStatus_pat,
    appConfigStatus_pat, controleeStatus_pat, frameReport_pat,
      Spec.Pdl.coreGenericErrorNtf, Spec.Pdl.corePacket, Spec.Pdl.sessionConfigPacket, Spec.Pdl.sessionControlPacket, Spec.Pdl.androidPacket]
  | coreQueryTimeStampRsp =>
    simp [layout, packetOf, Spec.Pdl.octets_nil, commandPacket, infoValues, Spec.Pdl.Packet.pattern, Spec.Pdl.Packet.within, Spec.Pdl.patterns,
    Spec.Pdl.Field.pattern, Spec.Pdl.Values.int, Spec.Pdl.Values.get, Spec.Pdl.Values.length, Spec.Pdl.Values.bytes, Spec.Pdl.Values.ints,
    Spec.Pdl.Values.records, Spec.Pdl.Values.record, List.flatMap_map, headPat, bodyPat, commandPat, infoPat, firstPat, opcodePat, dataPat, listPat,
    Obj.code, Command.code, Spec.Pdl.controlPacket, measurement_pat, extMeasurement_pat, owrAoa_pat, extOwrAoa_pat,
    addressed_pat, extAddressed_pat, capTlv_pat, configParameter_pat, appConfigTlv_pat, configParameterStatus_pat,
    appConfigStatus_pat, controleeStatus_pat, frameReport_pat,
      Spec.Pdl.coreQueryTimeStampRsp, Spec.Pdl.corePacket, Spec.Pdl.sessionConfigPacket, Spec.Pdl.sessionControlPacket, Spec.Pdl.androidPacket]
  | sessionInitRspV2 =>
    simp [layout, packetOf, Spec.Pdl.octets_nil, commandPacket, infoValues, Spec.Pdl.Packet.pattern, Spec.Pdl.Packet.within, Spec.Pdl.patterns,
    Spec.Pdl.Field.pattern, Spec.Pdl.Values.int, Spec.Pdl.Values.get, Spec.Pdl.Values.length, Spec.Pdl.Values.bytes, Spec.Pdl.Values.ints,
    Spec.Pdl.Values.records, Spec.Pdl.Values.record, List.flatMap_map, headPat, bodyPat, commandPat, infoPat, firstPat, opcodePat, dataPat, listPat,
    Obj.code, Command.code, Spec.Pdl.controlPacket, measurement_pat, extMeasurement_pat, owrAoa_pat, extOwrAoa_pat,
    addressed_pat, extAddressed_pat, capTlv_pat, configParameter_pat, appConfigTlv_pat, configParameterStatus_pat,
    appConfigStatus_pat, controleeStatus_pat, frameReport_pat,
      Spec.Pdl.sessionInitRsp_V2, Spec.Pdl.corePacket, Spec.Pdl.sessionConfigPacket, Spec.Pdl.sessionControlPacket, Spec.Pdl.androidPacket]
  | sessionInitRsp =>
    simp [layout, packetOf, Spec.Pdl.octets_nil, commandPacket, infoValues, Spec.Pdl.Packet.pattern, Spec.Pdl.Packet.within, Spec.Pdl.patterns,
    Spec.Pdl.Field.pattern, Spec.Pdl.Values.int, Spec.Pdl.Values.get, Spec.Pdl.Values.length, Spec.Pdl.Values.bytes, Spec.Pdl.Values.ints,
    Spec.Pdl.Values.records, Spec.Pdl.Values.record, List.flatMap_map, headPat, bodyPat, commandPat, infoPat, firstPat, opcodePat, dataPat, listPat,
    Obj.code, Command.code, Spec.Pdl.controlPacket, measurement_pat, extMeasurement_pat, owrAoa_pat, extOwrAoa_pat,
    addressed_pat, extAddressed_pat, capTlv_pat, configParameter_pat, appConfigTlv_pat, configParameterStatus_pat,
    appConfigStatus_pat, controleeStatus_pat, frameReport_pat,
      Spec.Pdl.sessionInitRsp, Spec.Pdl.corePacket, Spec.Pdl.sessionConfigPacket, Spec.Pdl.sessionControlPacket, Spec.Pdl.androidPacket]
  | sessionDeinitRsp =>
    simp [layout, packetOf, Spec.Pdl.octets_nil, commandPacket, infoValues, Spec.Pdl.Packet.pattern, Spec.Pdl.Packet.within, Spec.Pdl.patterns,
    Spec.Pdl.Field.pattern, Spec.Pdl.Values.int, Spec.Pdl.Values.get, Spec.Pdl.Values.length, Spec.Pdl.Values.bytes, Spec.Pdl.Values.ints,
    Spec.Pdl.Values.records, Spec.Pdl.Values.record, List.flatMap_map, headPat, bodyPat, commandPat, infoPat, firstPat, opcodePat, dataPat, listPat,
    Obj.code, Command.code, Spec.Pdl.controlPacket, measurement_pat, extMeasurement_pat, owrAoa_pat, extOwrAoa_pat,
    addressed_pat, extAddressed_pat, capTlv_pat, configParameter_pat, appConfigTlv_pat, configParameterStatus_pat,
    appConfigStatus_pat, controleeStatus_pat, frameReport_pat,
      Spec.Pdl.sessionDeinitRsp, Spec.Pdl.corePacket, Spec.Pdl.sessionConfigPacket, Spec.Pdl.sessionControlPacket, Spec.Pdl.androidPacket]
  | sessionStatusNtf =>
    simp [layout, packetOf, Spec.Pdl.octets_nil, commandPacket, infoValues, Spec.Pdl.Packet.pattern, Spec.Pdl.Packet.within, Spec.Pdl.patterns,
    Spec.Pdl.Field.pattern, Spec.Pdl.Values.int, Spec.Pdl.Values.get, Spec.Pdl.Values.length, Spec.Pdl.Values.bytes, Spec.Pdl.Values.ints,
    Spec.Pdl.Values.records, Spec.Pdl.Values.record, List.flatMap_map, headPat, bodyPat, commandPat, infoPat, firstPat, opcodePat, dataPat, listPat,
    Obj.code, Command.code, Spec.Pdl.controlPacket, measurement_pat, extMeasurement_pat, owrAoa_pat, extOwrAoa_pat,
    addressed_pat, extAddressed_pat, capTlv_pat, configParameter_pat, appConfigTlv_pat, configParameterStatus_pat,
    appConfigStatus_pat, controleeStatus_pat, frameReport_pat,
      Spec.Pdl.sessionStatusNtf, Spec.Pdl.corePacket, Spec.Pdl.sessionConfigPacket, Spec.Pdl.sessionControlPacket, Spec.Pdl.androidPacket]
  | sessionSetAppConfigRsp =>
    simp [layout, packetOf, Spec.Pdl.octets_nil, commandPacket, infoValues, Spec.Pdl.Packet.pattern, Spec.Pdl.Packet.within, Spec.Pdl.patterns,
    Spec.Pdl.Field.pattern, Spec.Pdl.Values.int, Spec.Pdl.Values.get, Spec.Pdl.Values.length, Spec.Pdl.Values.bytes, Spec.Pdl.Values.ints,
    Spec.Pdl.Values.records, Spec.Pdl.Values.record, List.flatMap_map, headPat, bodyPat, commandPat, infoPat, firstPat, opcodePat, dataPat, listPat,
    Obj.code, Command.code, Spec.Pdl.controlPacket, measurement_pat, extMeasurement_pat, owrAoa_pat, extOwrAoa_pat,
    addressed_pat, extAddressed_pat, capTlv_pat, configParameter_pat, appConfigTlv_pat, configParameterStatus_pat,
    appConfigStatus_pat, controleeStatus_pat, frameReport_pat,
      Spec.Pdl.sessionSetAppConfigRsp, Spec.Pdl.corePacket, Spec.Pdl.sessionConfigPacket, Spec.Pdl.sessionControlPacket, Spec.Pdl.androidPacket]
  | sessionGetAppConfigRsp =>
    simp [layout, packetOf, Spec.Pdl.octets_nil, commandPacket, infoValues, Spec.Pdl.Packet.pattern, Spec.Pdl.Packet.within, Spec.Pdl.patterns,
    Spec.Pdl.Field.pattern, Spec.Pdl.Values.int, Spec.Pdl.Values.get, Spec.Pdl.Values.length, Spec.Pdl.Values.bytes, Spec.Pdl.Values.ints,
    Spec.Pdl.Values.records, Spec.Pdl.Values.record, List.flatMap_map, headPat, bodyPat, commandPat, infoPat, firstPat, opcodePat, dataPat, listPat,
    Obj.code, Command.code, Spec.Pdl.controlPacket, measurement_pat, extMeasurement_pat, owrAoa_pat, extOwrAoa_pat,
    addressed_pat, extAddressed_pat, capTlv_pat, configParameter_pat, appConfigTlv_pat, configParameterStatus_pat,
    appConfigStatus_pat, controleeStatus_pat, frameReport_pat,
      Spec.Pdl.sessionGetAppConfigRsp, Spec.Pdl.corePacket, Spec.Pdl.sessionConfigPacket, Spec.Pdl.sessionControlPacket, Spec.Pdl.androidPacket]
  | sessionGetCountRsp =>
    simp [layout, packetOf, Spec.Pdl.octets_nil, commandPacket, infoValues, Spec.Pdl.Packet.pattern, Spec.Pdl.Packet.within, Spec.Pdl.patterns,
    Spec.Pdl.Field.pattern, Spec.Pdl.Values.int, Spec.Pdl.Values.get, Spec.Pdl.Values.length, Spec.Pdl.Values.bytes, Spec.Pdl.Values.ints,
    Spec.Pdl.Values.records, Spec.Pdl.Values.record, List.flatMap_map, headPat, bodyPat, commandPat, infoPat, firstPat, opcodePat, dataPat, listPat,
    Obj.code, Command.code, Spec.Pdl.controlPacket, measurement_pat, extMeasurement_pat, owrAoa_pat, extOwrAoa_pat,
    addressed_pat, extAddressed_pat, capTlv_pat, configParameter_pat, appConfigTlv_pat, configParameterStatus_pat,
    appConfigStatus_pat, controleeStatus_pat, frameReport_pat,
      Spec.Pdl.sessionGetCountRsp, Spec.Pdl.corePacket, Spec.Pdl.sessionConfigPacket, Spec.Pdl.sessionControlPacket, Spec.Pdl.androidPacket]
  | sessionGetStateRsp =>
    simp [layout, packetOf, Spec.Pdl.octets_nil, commandPacket, infoValues, Spec.Pdl.Packet.pattern, Spec.Pdl.Packet.within, Spec.Pdl.patterns,
    Spec.Pdl.Field.pattern, Spec.Pdl.Values.int, Spec.Pdl.Values.get, Spec.Pdl.Values.length, Spec.Pdl.Values.bytes, Spec.Pdl.Values.ints,
    Spec.Pdl.Values.records, Spec.Pdl.Values.record, List.flatMap_map, headPat, bodyPat, commandPat, infoPat, firstPat, opcodePat, dataPat, listPat,
    Obj.code, Command.code, Spec.Pdl.controlPacket, measurement_pat, extMeasurement_pat, owrAoa_pat, extOwrAoa_pat,
    addressed_pat, extAddressed_pat, capTlv_pat, configParameter_pat, appConfigTlv_pat, configParameterStatus_pat,
    appConfigStatus_pat, controleeStatus_pat, frameReport_pat,
      Spec.Pdl.sessionGetStateRsp, Spec.Pdl.corePacket, Spec.Pdl.sessionConfigPacket, Spec.Pdl.sessionControlPacket, Spec.Pdl.androidPacket]
  | sessionUpdateDtAnchorRangingRoundsRsp =>
    simp [layout, packetOf, Spec.Pdl.octets_nil, commandPacket, infoValues, Spec.Pdl.Packet.pattern, Spec.Pdl.Packet.within, Spec.Pdl.patterns,
    Spec.Pdl.Field.pattern, Spec.Pdl.Values.int, Spec.Pdl.Values.get, Spec.Pdl.Values.length, Spec.Pdl.Values.bytes, Spec.Pdl.Values.ints,
    Spec.Pdl.Values.records, Spec.Pdl.Values.record, List.flatMap_map, headPat, bodyPat, commandPat, infoPat, firstPat, opcodePat, dataPat, listPat,
    Obj.code, Command.code, Spec.Pdl.controlPacket, measurement_pat, extMeasurement_pat, owrAoa_pat, extOwrAoa_pat,
    addressed_pat, extAddressed_pat, capTlv_pat, configParameter_pat, appConfigTlv_pat, configParameterStatus_pat,
    appConfigStatus_pat, controleeStatus_pat, frameReport_pat,
      Spec.Pdl.sessionUpdateDtAnchorRangingRoundsRsp, Spec.Pdl.corePacket, Spec.Pdl.sessionConfigPacket, Spec.Pdl.sessionControlPacket, Spec.Pdl.androidPacket]
  | sessionUpdateDtTagRangingRoundsRsp =>
    simp [layout, packetOf, Spec.Pdl.octets_nil, commandPacket, infoValues, Spec.Pdl.Packet.pattern, Spec.Pdl.Packet.within, Spec.Pdl.patterns,
    Spec.Pdl.Field.pattern, Spec.Pdl.Values.int, Spec.Pdl.Values.get, Spec.Pdl.Values.length, Spec.Pdl.Values.bytes, Spec.Pdl.Values.ints,
    Spec.Pdl.Values.records, Spec.Pdl.Values.record, List.flatMap_map, headPat, bodyPat, commandPat, infoPat, firstPat, opcodePat, dataPat, listPat,
    Obj.code, Command.code, Spec.Pdl.controlPacket, measurement_pat, extMeasurement_pat, owrAoa_pat, extOwrAoa_pat,
    addressed_pat, extAddressed_pat, capTlv_pat, configParameter_pat, appConfigTlv_pat, configParameterStatus_pat,
    appConfigStatus_pat, controleeStatus_pat, frameReport_pat,
      Spec.Pdl.sessionUpdateDtTagRangingRoundsRsp, Spec.Pdl.corePacket, Spec.Pdl.sessionConfigPacket, Spec.Pdl.sessionControlPacket, Spec.Pdl.androidPacket]
  | sessionUpdateControllerMulticastListRsp =>
    simp [layout, packetOf, Spec.Pdl.octets_nil, commandPacket, infoValues, Spec.Pdl.Packet.pattern, Spec.Pdl.Packet.within, Spec.Pdl.patterns,
    Spec.Pdl.Field.pattern, Spec.Pdl.Values.int, Spec.Pdl.Values.get, Spec.Pdl.Values.length, Spec.Pdl.Values.bytes, Spec.Pdl.Values.ints,
    Spec.Pdl.Values.records, Spec.Pdl.Values.record, List.flatMap_map, headPat, bodyPat, commandPat, infoPat, firstPat, opcodePat, dataPat, listPat,
    Obj.code, Command.code, Spec.Pdl.controlPacket, measurement_pat, extMeasurement_pat, owrAoa_pat, extOwrAoa_pat,
    addressed_pat, extAddressed_pat, capTlv_pat, configParameter_pat, appConfigTlv_pat, configParameterStatus_pat,
    appConfigStatus_pat, controleeStatus_pat, frameReport_pat,
      Spec.Pdl.sessionUpdateControllerMulticastListRsp, Spec.Pdl.corePacket, Spec.Pdl.sessionConfigPacket, Spec.Pdl.sessionControlPacket, Spec.Pdl.androidPacket]
  | sessionUpdateControllerMulticastListNtf =>
    simp [layout, packetOf, Spec.Pdl.octets_nil, commandPacket, infoValues, Spec.Pdl.Packet.pattern, Spec.Pdl.Packet.within, Spec.Pdl.patterns,
    Spec.Pdl.Field.pattern, Spec.Pdl.Values.int, Spec.Pdl.Values.get, Spec.Pdl.Values.length, Spec.Pdl.Values.bytes, Spec.Pdl.Values.ints,
    Spec.Pdl.Values.records, Spec.Pdl.Values.record, List.flatMap_map, headPat, bodyPat, commandPat, infoPat, firstPat, opcodePat, dataPat, listPat,
    Obj.code, Command.code, Spec.Pdl.controlPacket, measurement_pat, extMeasurement_pat, owrAoa_pat, extOwrAoa_pat,
    addressed_pat, extAddressed_pat, capTlv_pat, configParameter_pat, appConfigTlv_pat, configParameterStatus_pat,
    appConfigStatus_pat, controleeStatus_pat, frameReport_pat,
      Spec.Pdl.sessionUpdateControllerMulticastListNtf, Spec.Pdl.corePacket, Spec.Pdl.sessionConfigPacket, Spec.Pdl.sessionControlPacket, Spec.Pdl.androidPacket]
  | sessionQueryMaxDataSizeInRangingRsp =>
    simp [layout, packetOf, Spec.Pdl.octets_nil, commandPacket, infoValues, Spec.Pdl.Packet.pattern, Spec.Pdl.Packet.within, Spec.Pdl.patterns,
    Spec.Pdl.Field.pattern, Spec.Pdl.Values.int, Spec.Pdl.Values.get, Spec.Pdl.Values.length, Spec.Pdl.Values.bytes, Spec.Pdl.Values.ints,
    Spec.Pdl.Values.records, Spec.Pdl.Values.record, List.flatMap_map, headPat, bodyPat, commandPat, infoPat, firstPat, opcodePat, dataPat, listPat,
    Obj.code, Command.code, Spec.Pdl.controlPacket, measurement_pat, extMeasurement_pat, owrAoa_pat, extOwrAoa_pat,
    addressed_pat, extAddressed_pat, capTlv_pat, configParameter_pat, appConfigTlv_pat, configParameterStatus_pat,
    appConfigStatus_pat, controleeStatus_pat, frameReport_pat,
      Spec.Pdl.sessionQueryMaxDataSizeInRangingRsp, Spec.Pdl.corePacket, Spec.Pdl.sessionConfigPacket, Spec.Pdl.sessionControlPacket, Spec.Pdl.androidPacket]
  | sessionDataCreditNtf =>
    simp [layout, packetOf, Spec.Pdl.octets_nil, commandPacket, infoValues, Spec.Pdl.Packet.pattern, Spec.Pdl.Packet.within, Spec.Pdl.patterns,
    Spec.Pdl.Field.pattern, Spec.Pdl.Values.int, Spec.Pdl.Values.get, Spec.Pdl.Values.length, Spec.Pdl.Values.bytes, Spec.Pdl.Values.ints,
    Spec.Pdl.Values.records, Spec.Pdl.Values.record, List.flatMap_map, headPat, bodyPat, commandPat, infoPat, firstPat, opcodePat, dataPat, listPat,
    Obj.code, Command.code, Spec.Pdl.controlPacket, measurement_pat, extMeasurement_pat, owrAoa_pat, extOwrAoa_pat,
    addressed_pat, extAddressed_pat, capTlv_pat, configParameter_pat, appConfigTlv_pat, configParameterStatus_pat,
    appConfigStatus_pat, controleeStatus_pat, frameReport_pat,
      Spec.Pdl.sessionDataCreditNtf, Spec.Pdl.corePacket, Spec.Pdl.sessionConfigPacket, Spec.Pdl.sessionControlPacket, Spec.Pdl.androidPacket]
  | sessionDataTransferStatusNtf =>
    simp [layout, packetOf, Spec.Pdl.octets_nil, commandPacket, infoValues, Spec.Pdl.Packet.pattern, Spec.Pdl.Packet.within, Spec.Pdl.patterns,
    Spec.Pdl.Field.pattern, Spec.Pdl.Values.int, Spec.Pdl.Values.get, Spec.Pdl.Values.length, Spec.Pdl.Values.bytes, Spec.Pdl.Values.ints,
    Spec.Pdl.Values.records, Spec.Pdl.Values.record, List.flatMap_map, headPat, bodyPat, commandPat, infoPat, firstPat, opcodePat, dataPat, listPat,
    Obj.code, Command.code, Spec.Pdl.controlPacket, measurement_pat, extMeasurement_pat, owrAoa_pat, extOwrAoa_pat,
    addressed_pat, extAddressed_pat, capTlv_pat, configParameter_pat, appConfigTlv_pat, configParameterStatus_pat,
    appConfigStatus_pat, controleeStatus_pat, frameReport_pat,
      Spec.Pdl.sessionDataTransferStatusNtf, Spec.Pdl.corePacket, Spec.Pdl.sessionConfigPacket, Spec.Pdl.sessionControlPacket, Spec.Pdl.androidPacket]
  | sessionStartRsp =>
    simp [layout, packetOf, Spec.Pdl.octets_nil, commandPacket, infoValues, Spec.Pdl.Packet.pattern, Spec.Pdl.Packet.within, Spec.Pdl.patterns,
    Spec.Pdl.Field.pattern, Spec.Pdl.Values.int, Spec.Pdl.Values.get, Spec.Pdl.Values.length, Spec.Pdl.Values.bytes, Spec.Pdl.Values.ints,
    Spec.Pdl.Values.records, Spec.Pdl.Values.record, List.flatMap_map, headPat, bodyPat, commandPat, infoPat, firstPat, opcodePat, dataPat, listPat,
    Obj.code, Command.code, Spec.Pdl.controlPacket, measurement_pat, extMeasurement_pat, owrAoa_pat, extOwrAoa_pat,
    addressed_pat, extAddressed_pat, capTlv_pat, configParameter_pat, appConfigTlv_pat, configParameterStatus_pat,
    appConfigStatus_pat, controleeStatus_pat, frameReport_pat,
      Spec.Pdl.sessionStartRsp, Spec.Pdl.corePacket, Spec.Pdl.sessionConfigPacket, Spec.Pdl.sessionControlPacket, Spec.Pdl.androidPacket]
  | sessionInfoNtf =>
    simp [layout, packetOf, Spec.Pdl.octets_nil, commandPacket, infoValues, Spec.Pdl.Packet.pattern, Spec.Pdl.Packet.within, Spec.Pdl.patterns,
    Spec.Pdl.Field.pattern, Spec.Pdl.Values.int, Spec.Pdl.Values.get, Spec.Pdl.Values.length, Spec.Pdl.Values.bytes, Spec.Pdl.Values.ints,
    Spec.Pdl.Values.records, Spec.Pdl.Values.record, List.flatMap_map, headPat, bodyPat, commandPat, infoPat, firstPat, opcodePat, dataPat, listPat,
    Obj.code, Command.code, Spec.Pdl.controlPacket, measurement_pat, extMeasurement_pat, owrAoa_pat, extOwrAoa_pat,
    addressed_pat, extAddressed_pat, capTlv_pat, configParameter_pat, appConfigTlv_pat, configParameterStatus_pat,
    appConfigStatus_pat, controleeStatus_pat, frameReport_pat,
      Spec.Pdl.sessionInfoNtf, Spec.Pdl.corePacket, Spec.Pdl.sessionConfigPacket, Spec.Pdl.sessionControlPacket, Spec.Pdl.androidPacket]
  | shortMacTwoWaySessionInfoNtf =>
    simp [layout, packetOf, Spec.Pdl.octets_nil, commandPacket, infoValues, Spec.Pdl.Packet.pattern, Spec.Pdl.Packet.within, Spec.Pdl.patterns,
    Spec.Pdl.Field.pattern, Spec.Pdl.Values.int, Spec.Pdl.Values.get, Spec.Pdl.Values.length, Spec.Pdl.Values.bytes, Spec.Pdl.Values.ints,
    Spec.Pdl.Values.records, Spec.Pdl.Values.record, List.flatMap_map, headPat, bodyPat, commandPat, infoPat, firstPat, opcodePat, dataPat, listPat,
    Obj.code, Command.code, Spec.Pdl.controlPacket, measurement_pat, extMeasurement_pat, owrAoa_pat, extOwrAoa_pat,
    addressed_pat, extAddressed_pat, capTlv_pat, configParameter_pat, appConfigTlv_pat, configParameterStatus_pat,
    appConfigStatus_pat, controleeStatus_pat, frameReport_pat,
      Spec.Pdl.shortMacTwoWaySessionInfoNtf, Spec.Pdl.corePacket, Spec.Pdl.sessionConfigPacket, Spec.Pdl.sessionControlPacket, Spec.Pdl.androidPacket, Spec.Pdl.sessionInfoNtf]
  | extendedMacTwoWaySessionInfoNtf =>
    simp [layout, packetOf, Spec.Pdl.octets_nil, commandPacket, infoValues, Spec.Pdl.Packet.pattern, Spec.Pdl.Packet.within, Spec.Pdl.patterns,
    Spec.Pdl.Field.pattern, Spec.Pdl.Values.int, Spec.Pdl.Values.get, Spec.Pdl.Values.length, Spec.Pdl.Values.bytes, Spec.Pdl.Values.ints,
    Spec.Pdl.Values.records, Spec.Pdl.Values.record, List.flatMap_map, headPat, bodyPat, commandPat, infoPat, firstPat, opcodePat, dataPat, listPat,
    Obj.code, Command.code, Spec.Pdl.controlPacket, measurement_pat, extMeasurement_pat, owrAoa_pat, extOwrAoa_pat,
    addressed_pat, extAddressed_pat, capTlv_pat, configParameter_pat, appConfigTlv_pat, configParameterStatus_pat,
    appConfigStatus_pat, controleeStatus_pat, frameReport_pat,
      Spec.Pdl.extendedMacTwoWaySessionInfoNtf, Spec.Pdl.corePacket, Spec.Pdl.sessionConfigPacket, Spec.Pdl.sessionControlPacket, Spec.Pdl.androidPacket, Spec.Pdl.sessionInfoNtf]
  | shortMacDlTDoASessionInfoNtf =>
    simp [layout, packetOf, Spec.Pdl.octets_nil, commandPacket, infoValues, Spec.Pdl.Packet.pattern, Spec.Pdl.Packet.within, Spec.Pdl.patterns,
    Spec.Pdl.Field.pattern, Spec.Pdl.Values.int, Spec.Pdl.Values.get, Spec.Pdl.Values.length, Spec.Pdl.Values.bytes, Spec.Pdl.Values.ints,
    Spec.Pdl.Values.records, Spec.Pdl.Values.record, List.flatMap_map, headPat, bodyPat, commandPat, infoPat, firstPat, opcodePat, dataPat, listPat,
    Obj.code, Command.code, Spec.Pdl.controlPacket, measurement_pat, extMeasurement_pat, owrAoa_pat, extOwrAoa_pat,
    addressed_pat, extAddressed_pat, capTlv_pat, configParameter_pat, appConfigTlv_pat, configParameterStatus_pat,
    appConfigStatus_pat, controleeStatus_pat, frameReport_pat,
      Spec.Pdl.shortMacDlTDoASessionInfoNtf, Spec.Pdl.corePacket, Spec.Pdl.sessionConfigPacket, Spec.Pdl.sessionControlPacket, Spec.Pdl.androidPacket, Spec.Pdl.sessionInfoNtf]
  | extendedMacDlTDoASessionInfoNtf =>
    simp [layout, packetOf, Spec.Pdl.octets_nil, commandPacket, infoValues, Spec.Pdl.Packet.pattern, Spec.Pdl.Packet.within, Spec.Pdl.patterns,
    Spec.Pdl.Field.pattern, Spec.Pdl.Values.int, Spec.Pdl.Values.get, Spec.Pdl.Values.length, Spec.Pdl.Values.bytes, Spec.Pdl.Values.ints,
    Spec.Pdl.Values.records, Spec.Pdl.Values.record, List.flatMap_map, headPat, bodyPat, commandPat, infoPat, firstPat, opcodePat, dataPat, listPat,
    Obj.code, Command.code, Spec.Pdl.controlPacket, measurement_pat, extMeasurement_pat, owrAoa_pat, extOwrAoa_pat,
    addressed_pat, extAddressed_pat, capTlv_pat, configParameter_pat, appConfigTlv_pat, configParameterStatus_pat,
    appConfigStatus_pat, controleeStatus_pat, frameReport_pat,
      Spec.Pdl.extendedMacDlTDoASessionInfoNtf, Spec.Pdl.corePacket, Spec.Pdl.sessionConfigPacket, Spec.Pdl.sessionControlPacket, Spec.Pdl.androidPacket, Spec.Pdl.sessionInfoNtf]
  | shortMacOwrAoaSessionInfoNtf =>
    simp [layout, packetOf, Spec.Pdl.octets_nil, commandPacket, infoValues, Spec.Pdl.Packet.pattern, Spec.Pdl.Packet.within, Spec.Pdl.patterns,
    Spec.Pdl.Field.pattern, Spec.Pdl.Values.int, Spec.Pdl.Values.get, Spec.Pdl.Values.length, Spec.Pdl.Values.bytes, Spec.Pdl.Values.ints,
    Spec.Pdl.Values.records, Spec.Pdl.Values.record, List.flatMap_map, headPat, bodyPat, commandPat, infoPat, firstPat, opcodePat, dataPat, listPat,
    Obj.code, Command.code, Spec.Pdl.controlPacket, measurement_pat, extMeasurement_pat, owrAoa_pat, extOwrAoa_pat,
    addressed_pat, extAddressed_pat, capTlv_pat, configParameter_pat, appConfigTlv_pat, configParameterStatus_pat,
    appConfigStatus_pat, controleeStatus_pat, frameReport_pat,
      Spec.Pdl.shortMacOwrAoaSessionInfoNtf, Spec.Pdl.corePacket, Spec.Pdl.sessionConfigPacket, Spec.Pdl.sessionControlPacket, Spec.Pdl.androidPacket, Spec.Pdl.sessionInfoNtf]
  | extendedMacOwrAoaSessionInfoNtf =>
    simp [layout, packetOf, Spec.Pdl.octets_nil, commandPacket, infoValues, Spec.Pdl.Packet.pattern, Spec.Pdl.Packet.within, Spec.Pdl.patterns,
    Spec.Pdl.Field.pattern, Spec.Pdl.Values.int, Spec.Pdl.Values.get, Spec.Pdl.Values.length, Spec.Pdl.Values.bytes, Spec.Pdl.Values.ints,
    Spec.Pdl.Values.records, Spec.Pdl.Values.record, List.flatMap_map, headPat, bodyPat, commandPat, infoPat, firstPat, opcodePat, dataPat, listPat,
    Obj.code, Command.code, Spec.Pdl.controlPacket, measurement_pat, extMeasurement_pat, owrAoa_pat, extOwrAoa_pat,
    addressed_pat, extAddressed_pat, capTlv_pat, configParameter_pat, appConfigTlv_pat, configParameterStatus_pat,
    appConfigStatus_pat, controleeStatus_pat, frameReport_pat,
      Spec.Pdl.extendedMacOwrAoaSessionInfoNtf, Spec.Pdl.corePacket, Spec.Pdl.sessionConfigPacket, Spec.Pdl.sessionControlPacket, Spec.Pdl.androidPacket, Spec.Pdl.sessionInfoNtf]
  | sessionStopRsp =>
    simp [layout, packetOf, Spec.Pdl.octets_nil, commandPacket, infoValues, Spec.Pdl.Packet.pattern, Spec.Pdl.Packet.within, Spec.Pdl.patterns,
    Spec.Pdl.Field.pattern, Spec.Pdl.Values.int, Spec.Pdl.Values.get, Spec.Pdl.Values.length, Spec.Pdl.Values.bytes, Spec.Pdl.Values.ints,
    Spec.Pdl.Values.records, Spec.Pdl.Values.record, List.flatMap_map, headPat, bodyPat, commandPat, infoPat, firstPat, opcodePat, dataPat, listPat,
    Obj.code, Command.code, Spec.Pdl.controlPacket, measurement_pat, extMeasurement_pat, owrAoa_pat, extOwrAoa_pat,
    addressed_pat, extAddressed_pat, capTlv_pat, configParameter_pat, appConfigTlv_pat, configParameterStatus_pat,
    appConfigStatus_pat, controleeStatus_pat, frameReport_pat,
      Spec.Pdl.sessionStopRsp, Spec.Pdl.corePacket, Spec.Pdl.sessionConfigPacket, Spec.Pdl.sessionControlPacket, Spec.Pdl.androidPacket]
  | sessionGetRangingCountRsp =>
    simp [layout, packetOf, Spec.Pdl.octets_nil, commandPacket, infoValues, Spec.Pdl.Packet.pattern, Spec.Pdl.Packet.within, Spec.Pdl.patterns,
    Spec.Pdl.Field.pattern, Spec.Pdl.Values.int, Spec.Pdl.Values.get, Spec.Pdl.Values.length, Spec.Pdl.Values.bytes, Spec.Pdl.Values.ints,
    Spec.Pdl.Values.records, Spec.Pdl.Values.record, List.flatMap_map, headPat, bodyPat, commandPat, infoPat, firstPat, opcodePat, dataPat, listPat,
    Obj.code, Command.code, Spec.Pdl.controlPacket, measurement_pat, extMeasurement_pat, owrAoa_pat, extOwrAoa_pat,
    addressed_pat, extAddressed_pat, capTlv_pat, configParameter_pat, appConfigTlv_pat, configParameterStatus_pat,
    appConfigStatus_pat, controleeStatus_pat, frameReport_pat,
      Spec.Pdl.sessionGetRangingCountRsp, Spec.Pdl.corePacket, Spec.Pdl.sessionConfigPacket, Spec.Pdl.sessionControlPacket, Spec.Pdl.androidPacket]
  | androidGetPowerStatsRsp =>
    simp [layout, packetOf, Spec.Pdl.octets_nil, commandPacket, infoValues, Spec.Pdl.Packet.pattern, Spec.Pdl.Packet.within, Spec.Pdl.patterns,
    Spec.Pdl.Field.pattern, Spec.Pdl.Values.int, Spec.Pdl.Values.get, Spec.Pdl.Values.length, Spec.Pdl.Values.bytes, Spec.Pdl.Values.ints,
    Spec.Pdl.Values.records, Spec.Pdl.Values.record, List.flatMap_map, headPat, bodyPat, commandPat, infoPat, firstPat, opcodePat, dataPat, listPat,
    Obj.code, Command.code, Spec.Pdl.controlPacket, measurement_pat, extMeasurement_pat, owrAoa_pat, extOwrAoa_pat,
    addressed_pat, extAddressed_pat, capTlv_pat, configParameter_pat, appConfigTlv_pat, configParameterStatus_pat,
    appConfigStatus_pat, controleeStatus_pat, frameReport_pat,
      Spec.Pdl.androidGetPowerStatsRsp, Spec.Pdl.corePacket, Spec.Pdl.sessionConfigPacket, Spec.Pdl.sessionControlPacket, Spec.Pdl.androidPacket, Spec.Pdl.powerStats]
  | androidSetCountryCodeRsp =>
    simp [layout, packetOf, Spec.Pdl.octets_nil, commandPacket, infoValues, Spec.Pdl.Packet.pattern, Spec.Pdl.Packet.within, Spec.Pdl.patterns,
    Spec.Pdl.Field.pattern, Spec.Pdl.Values.int, Spec.Pdl.Values.get, Spec.Pdl.Values.length, Spec.Pdl.Values.bytes, Spec.Pdl.Values.ints,
    Spec.Pdl.Values.records, Spec.Pdl.Values.record, List.flatMap_map, headPat, bodyPat, commandPat, infoPat, firstPat, opcodePat, dataPat, listPat,
    Obj.code, Command.code, Spec.Pdl.controlPacket, measurement_pat, extMeasurement_pat, owrAoa_pat, extOwrAoa_pat,
    addressed_pat, extAddressed_pat, capTlv_pat, configParameter_pat, appConfigTlv_pat, configParameterStatus_pat,
    appConfigStatus_pat, controleeStatus_pat, frameReport_pat,
      Spec.Pdl.androidSetCountryCodeRsp, Spec.Pdl.corePacket, Spec.Pdl.sessionConfigPacket, Spec.Pdl.sessionControlPacket, Spec.Pdl.androidPacket]
  | androidRangeDiagnosticsNtf =>
    simp [layout, packetOf, Spec.Pdl.octets_nil, commandPacket, infoValues, Spec.Pdl.Packet.pattern, Spec.Pdl.Packet.within, Spec.Pdl.patterns,
    Spec.Pdl.Field.pattern, Spec.Pdl.Values.int, Spec.Pdl.Values.get, Spec.Pdl.Values.length, Spec.Pdl.Values.bytes, Spec.Pdl.Values.ints,
    Spec.Pdl.Values.records, Spec.Pdl.Values.record, List.flatMap_map, headPat, bodyPat, commandPat, infoPat, firstPat, opcodePat, dataPat, listPat,
    Obj.code, Command.code, Spec.Pdl.controlPacket, measurement_pat, extMeasurement_pat, owrAoa_pat, extOwrAoa_pat,
    addressed_pat, extAddressed_pat, capTlv_pat, configParameter_pat, appConfigTlv_pat, configParameterStatus_pat,
    appConfigStatus_pat, controleeStatus_pat, frameReport_pat,
      Spec.Pdl.androidRangeDiagnosticsNtf, Spec.Pdl.corePacket, Spec.Pdl.sessionConfigPacket, Spec.Pdl.sessionControlPacket, Spec.Pdl.androidPacket]
  | dataPacket =>
    simp [layout, packetOf, Spec.Pdl.octets_nil, commandPacket, infoValues, Spec.Pdl.Packet.pattern, Spec.Pdl.Packet.within, Spec.Pdl.patterns,
    Spec.Pdl.Field.pattern, Spec.Pdl.Values.int, Spec.Pdl.Values.get, Spec.Pdl.Values.length, Spec.Pdl.Values.bytes, Spec.Pdl.Values.ints,
    Spec.Pdl.Values.records, Spec.Pdl.Values.record, List.flatMap_map, headPat, bodyPat, commandPat, infoPat, firstPat, opcodePat, dataPat, listPat,
    Obj.code, Command.code, Spec.Pdl.controlPacket, measurement_pat, extMeasurement_pat, owrAoa_pat, extOwrAoa_pat,
    addressed_pat, extAddressed_pat, capTlv_pat, configParameter_pat, appConfigTlv_pat, configParameterStatus_pat,
    appConfigStatus_pat, controleeStatus_pat, frameReport_pat,
      Spec.Pdl.dataPacket, Spec.Pdl.corePacket, Spec.Pdl.sessionConfigPacket, Spec.Pdl.sessionControlPacket, Spec.Pdl.androidPacket]
  | dataMessageSnd =>
    simp [layout, packetOf, Spec.Pdl.octets_nil, commandPacket, infoValues, Spec.Pdl.Packet.pattern, Spec.Pdl.Packet.within, Spec.Pdl.patterns,
    Spec.Pdl.Field.pattern, Spec.Pdl.Values.int, Spec.Pdl.Values.get, Spec.Pdl.Values.length, Spec.Pdl.Values.bytes, Spec.Pdl.Values.ints,
    Spec.Pdl.Values.records, Spec.Pdl.Values.record, List.flatMap_map, headPat, bodyPat, commandPat, infoPat, firstPat, opcodePat, dataPat, listPat,
    Obj.code, Command.code, Spec.Pdl.controlPacket, measurement_pat, extMeasurement_pat, owrAoa_pat, extOwrAoa_pat,
    addressed_pat, extAddressed_pat, capTlv_pat, configParameter_pat, appConfigTlv_pat, configParameterStatus_pat,
    appConfigStatus_pat, controleeStatus_pat, frameReport_pat,
      Spec.Pdl.dataMessageSnd, Spec.Pdl.corePacket, Spec.Pdl.sessionConfigPacket, Spec.Pdl.sessionControlPacket, Spec.Pdl.androidPacket, Spec.Pdl.dataPacket]
  | dataMessageRcv =>
    simp [layout, packetOf, Spec.Pdl.octets_nil, commandPacket, infoValues, Spec.Pdl.Packet.pattern, Spec.Pdl.Packet.within, Spec.Pdl.patterns,
    Spec.Pdl.Field.pattern, Spec.Pdl.Values.int, Spec.Pdl.Values.get, Spec.Pdl.Values.length, Spec.Pdl.Values.bytes, Spec.Pdl.Values.ints,
    Spec.Pdl.Values.records, Spec.Pdl.Values.record, List.flatMap_map, headPat, bodyPat, commandPat, infoPat, firstPat, opcodePat, dataPat, listPat,
    Obj.code, Command.code, Spec.Pdl.controlPacket, measurement_pat, extMeasurement_pat, owrAoa_pat, extOwrAoa_pat,
    addressed_pat, extAddressed_pat, capTlv_pat, configParameter_pat, appConfigTlv_pat, configParameterStatus_pat,
    appConfigStatus_pat, controleeStatus_pat, frameReport_pat,
      Spec.Pdl.dataMessageRcv, Spec.Pdl.corePacket, Spec.Pdl.sessionConfigPacket, Spec.Pdl.sessionControlPacket, Spec.Pdl.androidPacket, Spec.Pdl.dataPacket]

end Pica.Py
