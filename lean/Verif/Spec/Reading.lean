import Verif.Spec.PdlPackets
import Mathlib.Data.List.Forall2
/-!
When values are values for the fields of a description, when two of them are the same, and the packets and structures of
`src/uci_packets.pdl`.
-/

namespace Pica.Spec.Pdl

mutual
/-- The values of a field are of the right kind and fit in its bits. -/
def Field.fits (env : Values) : Field → Prop
  | .scalar id n => ∃ v, env.get id = .int v ∧ v < 2 ^ n
  | .count id n => env.length id < 2 ^ n
  | .size id n => env.length id < 2 ^ n
  | .optional id n flag v => if env.int flag = v then ∃ x, env.get id = .int x ∧ x < 2 ^ n else env.get id = .absent
  | .bytes id => ∃ b, env.get id = .bytes b
  | .array id n => ∃ b, env.get id = .bytes b ∧ b.length = n
  | .scalars id n => ∃ l, env.get id = .ints l ∧ ∀ v ∈ l, v < 2 ^ n
  | .structs id l => ∃ es, env.get id = .records es ∧ ∀ e ∈ es, fit e l
  | .struct id l => ∃ e, env.get id = .record e ∧ fit e l
  | .reserved _ | .fixed _ _ | .sizeOfPayload _ | .payload => True
/-- The same for fields one after the other. -/
def fit (env : Values) : List Field → Prop
  | [] => True
  | f :: l => f.fits env ∧ fit env l
end

/-- The values are values for a packet. -/
def Packet.fits (env : Values) : Packet → Prop
  | .root l => fit env l
  | .child q cs l => q.fits (cs.map (fun c => (c.1, Value.int c.2)) ++ env) ∧ fit env l

mutual
/-- The values of a field are the same. -/
def Field.same (env env' : Values) : Field → Prop
  | .scalar id _ | .optional id _ _ _ | .bytes id | .array id _ | .scalars id _ => env.get id = env'.get id
  | .structs id l => List.Forall₂ (fun e e' => same e e' l) (env.records id) (env'.records id)
  | .struct id l => same (env.record id) (env'.record id) l
  | .reserved _ | .fixed _ _ | .count _ _ | .size _ _ | .sizeOfPayload _ | .payload => True
/-- The same for fields one after the other. -/
def same (env env' : Values) : List Field → Prop
  | [] => True
  | f :: l => f.same env env' ∧ same env env' l
end

/-- The fields of a packet end with its payload. -/
def ends : List Field → Bool
  | [] => false
  | [.payload] => true
  | _ :: l => ends l

/-- A packet has a payload that nothing is said about. -/
def Packet.isOpen : Packet → Bool
  | .root l => ends l
  | .child _ _ l => ends l

/-- The values of all the fields of a packet are the same. -/
def Packet.same (env env' : Values) : Packet → Prop
  | .root l => Pdl.same env env' l
  | .child q cs l => q.same (cs.map (fun c => (c.1, Value.int c.2)) ++ env) (cs.map (fun c => (c.1, Value.int c.2)) ++ env') ∧
      Pdl.same env env' l

/-- The structures of 613-1499 that packets consist of. -/
def structures : List (List Field) :=
  [rangingRoundControl, resultReportConfig, commonPacketHeader, controlPacketHeader, dataPacketHeader, capTlv, configParameter,
    configParameterStatus, appConfigTlv, appConfigStatus, controlee, controlee_V2_0_16_Byte_Version,
    controlee_V2_0_32_Byte_Version, sessionUpdateControllerMulticastListCmdPayload,
    sessionUpdateControllerMulticastListCmd_2_0_16_Byte_Payload, sessionUpdateControllerMulticastListCmd_2_0_32_Byte_Payload,
    controleeStatus, shortAddressTwoWayRangingMeasurement, extendedAddressTwoWayRangingMeasurement,
    shortAddressOwrAoaRangingMeasurement, extendedAddressOwrAoaRangingMeasurement, wgs84Location, relativeLocation,
    dlTdoaRangingMeasurement, shortAddressDlTdoaRangingMeasurement, extendedAddressDlTdoaRangingMeasurement, powerStats,
    frameReportTlv, aoaMeasurement, cirValue, frameReport]

/-- The packets that others are derived from. -/
def parents : List Packet :=
  [controlPacket, dataPacket, corePacket, sessionConfigPacket, sessionControlPacket, androidPacket, sessionInfoNtf,
    frameReportTlvPacket]

/-- The packets on the wire, but for `SessionInitRsp_V2`. -/
def leaves : List Packet :=
  [dataMessageSnd, dataMessageRcv, coreDeviceResetCmd, coreDeviceResetRsp, coreDeviceStatusNtf, coreGetDeviceInfoCmd,
    coreGetDeviceInfoRsp, coreGetCapsInfoCmd, coreGetCapsInfoRsp, coreSetConfigCmd, coreSetConfigRsp, coreGetConfigCmd,
    coreGetConfigRsp, coreGenericErrorNtf, coreQueryTimeStampCmd, coreQueryTimeStampRsp, sessionInitCmd, sessionInitRsp,
    sessionDeinitCmd, sessionDeinitRsp, sessionStatusNtf, sessionSetAppConfigCmd, sessionSetAppConfigRsp, sessionGetAppConfigCmd,
    sessionGetAppConfigRsp, sessionGetCountCmd, sessionGetCountRsp, sessionGetStateCmd, sessionGetStateRsp,
    sessionUpdateDtAnchorRangingRoundsCmd, sessionUpdateDtAnchorRangingRoundsRsp, sessionUpdateDtTagRangingRoundsCmd,
    sessionUpdateDtTagRangingRoundsRsp, sessionUpdateControllerMulticastListCmd, sessionUpdateControllerMulticastListRsp,
    sessionUpdateControllerMulticastListNtf, sessionDataCreditNtf, sessionDataTransferStatusNtf,
    sessionQueryMaxDataSizeInRangingCmd, sessionQueryMaxDataSizeInRangingRsp, sessionStartCmd, sessionStartRsp,
    shortMacTwoWaySessionInfoNtf, extendedMacTwoWaySessionInfoNtf, shortMacDlTDoASessionInfoNtf, extendedMacDlTDoASessionInfoNtf,
    shortMacOwrAoaSessionInfoNtf, extendedMacOwrAoaSessionInfoNtf, sessionStopCmd, sessionStopRsp, sessionGetRangingCountCmd,
    sessionGetRangingCountRsp, androidGetPowerStatsCmd, androidGetPowerStatsRsp, androidSetCountryCodeCmd,
    androidSetCountryCodeRsp, androidRangeDiagnosticsNtf]

/-- The packets inside a frame report. -/
def reports : List Packet := [rssi, aoa, cir]

end Pica.Spec.Pdl
