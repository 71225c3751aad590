import Verif.Spec.PyUci
/-! The objects of the Python package that can be serialised. -/

namespace Pica.Spec
open Py

/-- The time stamps of a measurement fit their five or eight bytes. -/
def StampsFit (m : DlTdoa) : Prop :=
  (∀ t ∈ m.txTimestamp40, t < 2 ^ 40) ∧ (∀ t ∈ m.txTimestamp64, t < 2 ^ 64) ∧
    (∀ t ∈ m.rxTimestamp40, t < 2 ^ 40) ∧ ∀ t ∈ m.rxTimestamp64, t < 2 ^ 64

/-- What is not cut to its size fits: fields of an enumeration, also those of the first 255 elements of a list, time stamps, and
the number of bytes of data. -/
def Serial : Obj → Prop
  | .command c => PyFits c
  | .controlPacket gid mt _ => gid < 256 ∧ mt < 8
  | .corePacket mt oid _ | .sessionConfigPacket mt oid _ | .sessionControlPacket mt oid _ | .androidPacket mt oid _ =>
    mt < 8 ∧ oid < 256
  | .dataPacket dpf pbf mt _ => dpf < 256 ∧ pbf < 16 ∧ mt < 8
  | .coreDeviceResetRsp s | .coreGenericErrorNtf s | .sessionInitRsp s | .sessionDeinitRsp s
  | .sessionUpdateControllerMulticastListRsp s | .sessionStartRsp s | .sessionStopRsp s | .androidSetCountryCodeRsp s
  | .coreDeviceStatusNtf s | .coreGetDeviceInfoRsp s .. | .coreQueryTimeStampRsp s _ | .sessionInitRspV2 s _
  | .sessionGetRangingCountRsp s _ | .sessionStatusNtf _ s _ | .sessionGetCountRsp s _
  | .sessionUpdateDtTagRangingRoundsRsp s _ | .sessionDataCreditNtf _ s | .sessionDataTransferStatusNtf _ _ s _
  | .androidGetPowerStatsRsp s .. => s < 256
  | .sessionGetStateRsp s t => s < 256 ∧ t < 256
  | .coreGetCapsInfoRsp s l | .sessionGetAppConfigRsp s l => s < 256 ∧ ∀ x ∈ l.take 255, x.1 < 256
  | .coreGetConfigRsp s l => s < 256 ∧ ∀ x ∈ l.take 255, x.1 < 256 ∧ x.2.length < 256
  | .coreSetConfigRsp s l | .sessionSetAppConfigRsp s l => s < 256 ∧ ∀ x ∈ l.take 255, x.1 < 256 ∧ x.2 < 256
  | .sessionUpdateControllerMulticastListNtf _ l => ∀ x ∈ l.take 255, x.2 < 256
  | .sessionInfoNtf _ _ _ _ type indicator _ => type < 256 ∧ indicator < 256
  | .shortMacTwoWaySessionInfoNtf _ _ _ _ l _ | .extendedMacTwoWaySessionInfoNtf _ _ _ _ l _ => ∀ m ∈ l.take 255, m.status < 256
  | .shortMacOwrAoaSessionInfoNtf _ _ _ _ l _ | .extendedMacOwrAoaSessionInfoNtf _ _ _ _ l _ => ∀ m ∈ l.take 255, m.status < 256
  | .shortMacDlTDoASessionInfoNtf _ _ _ _ l | .extendedMacDlTDoASessionInfoNtf _ _ _ _ l =>
    ∀ m ∈ l.take 255, m.2.status < 256 ∧ StampsFit m.2
  | .androidRangeDiagnosticsNtf _ _ l =>
    ∀ r ∈ l.take 255, ∀ x ∈ r.frameReportTlvs.take 255, x.1 < 256 ∧ x.2.length < 65536
  | .dataMessageSnd pbf _ _ _ v => pbf < 16 ∧ v.length < 65536
  | .dataMessageRcv pbf _ s _ _ v => pbf < 16 ∧ s < 256 ∧ v.length < 65536
  | _ => True

end Pica.Spec
