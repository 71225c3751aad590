import Verif.Model.PyPackets
import Verif.Spec.PyUci
/-! What is left of the fields of a Python object that are too large for the packet. -/

namespace Pica.Spec
open Py

def cutMeasurement (w : Nat) (m : Py.Measurement) : Py.Measurement where
  macAddress := m.macAddress % 2 ^ (8 * w)
  status := m.status
  nlos := m.nlos % 2 ^ 8
  distance := m.distance % 2 ^ 16
  aoaAzimuth := m.aoaAzimuth % 2 ^ 16
  aoaAzimuthFom := m.aoaAzimuthFom % 2 ^ 8
  aoaElevation := m.aoaElevation % 2 ^ 16
  aoaElevationFom := m.aoaElevationFom % 2 ^ 8
  aoaDestinationAzimuth := m.aoaDestinationAzimuth % 2 ^ 16
  aoaDestinationAzimuthFom := m.aoaDestinationAzimuthFom % 2 ^ 8
  aoaDestinationElevation := m.aoaDestinationElevation % 2 ^ 16
  aoaDestinationElevationFom := m.aoaDestinationElevationFom % 2 ^ 8
  slotIndex := m.slotIndex % 2 ^ 8
  rssi := m.rssi % 2 ^ 8

def cutOwrAoa (w : Nat) (m : Py.OwrAoa) : Py.OwrAoa where
  macAddress := m.macAddress % 2 ^ (8 * w)
  status := m.status
  nlos := m.nlos % 2 ^ 8
  frameSequenceNumber := m.frameSequenceNumber % 2 ^ 8
  blockIndex := m.blockIndex % 2 ^ 16
  aoaAzimuth := m.aoaAzimuth % 2 ^ 16
  aoaAzimuthFom := m.aoaAzimuthFom % 2 ^ 8
  aoaElevation := m.aoaElevation % 2 ^ 16
  aoaElevationFom := m.aoaElevationFom % 2 ^ 8

def cutLocation (l : Py.RelativeLocation) : Py.RelativeLocation := ⟨l.x % 2 ^ 28, l.y % 2 ^ 28, l.z % 2 ^ 24⟩

/-- Of two locations of a kind the second is dropped, and the sixteenth ranging round. The time stamps are not cut. -/
def cutDlTdoa (m : Py.DlTdoa) : Py.DlTdoa where
  status := m.status
  messageType := m.messageType % 2 ^ 8
  txTimestampType := m.txTimestampType % 2
  blockIndex := m.blockIndex % 2 ^ 16
  roundIndex := m.roundIndex % 2 ^ 8
  nlos := m.nlos % 2 ^ 8
  aoaAzimuth := m.aoaAzimuth % 2 ^ 16
  aoaAzimuthFom := m.aoaAzimuthFom % 2 ^ 8
  aoaElevation := m.aoaElevation % 2 ^ 16
  aoaElevationFom := m.aoaElevationFom % 2 ^ 8
  rssi := m.rssi % 2 ^ 8
  txTimestamp40 := m.txTimestamp40
  txTimestamp64 := m.txTimestamp64
  rxTimestamp40 := m.rxTimestamp40
  rxTimestamp64 := m.rxTimestamp64
  anchorCfo := m.anchorCfo % 2 ^ 16
  cfo := m.cfo % 2 ^ 16
  initiatorReplyTime := m.initiatorReplyTime % 2 ^ 32
  responderReplyTime := m.responderReplyTime % 2 ^ 32
  initiatorResponderTof := m.initiatorResponderTof % 2 ^ 16
  wgs84Location := m.wgs84Location.take 1
  relativeLocation := (m.relativeLocation.take 1).map cutLocation
  activeRangingRounds := m.activeRangingRounds.take 15

def cutReport (r : Py.FrameReport) : Py.FrameReport :=
  ⟨r.uwbMsgId % 2 ^ 8, r.action % 2 ^ 8, r.antennaSet % 2 ^ 8, r.frameReportTlvs.take 255⟩

/-- What is left of an object: the integers are cut to their bits, the lists to 255 elements. What stays as it is
raises an exception if it does not fit. -/
def objCut : Obj → Obj
  | .command c => .command (pyCut c)
  | .coreGetDeviceInfoRsp s a b c d v =>
    .coreGetDeviceInfoRsp s (a % 2 ^ 16) (b % 2 ^ 16) (c % 2 ^ 16) (d % 2 ^ 16) (v.take 255)
  | .coreGetCapsInfoRsp s l => .coreGetCapsInfoRsp s ((l.take 255).map fun p => (p.1, p.2.take 255))
  | .coreSetConfigRsp s l => .coreSetConfigRsp s (l.take 255)
  | .coreGetConfigRsp s l => .coreGetConfigRsp s (l.take 255)
  | .coreQueryTimeStampRsp s t => .coreQueryTimeStampRsp s (t % 2 ^ 64)
  | .sessionInitRspV2 s n => .sessionInitRspV2 s (n % 2 ^ 32)
  | .sessionStatusNtf t s r => .sessionStatusNtf (t % 2 ^ 32) s (r % 2 ^ 8)
  | .sessionSetAppConfigRsp s l => .sessionSetAppConfigRsp s (l.take 255)
  | .sessionGetAppConfigRsp s l => .sessionGetAppConfigRsp s ((l.take 255).map fun p => (p.1, p.2.take 255))
  | .sessionGetCountRsp s n => .sessionGetCountRsp s (n % 2 ^ 8)
  | .sessionUpdateDtTagRangingRoundsRsp s v => .sessionUpdateDtTagRangingRoundsRsp s (v.take 255)
  | .sessionUpdateControllerMulticastListNtf t l => .sessionUpdateControllerMulticastListNtf (t % 2 ^ 32) (l.take 255)
  | .sessionQueryMaxDataSizeInRangingRsp t n => .sessionQueryMaxDataSizeInRangingRsp (t % 2 ^ 32) (n % 2 ^ 16)
  | .sessionDataCreditNtf t c => .sessionDataCreditNtf (t % 2 ^ 32) c
  | .sessionDataTransferStatusNtf t n s c => .sessionDataTransferStatusNtf (t % 2 ^ 32) (n % 2 ^ 8) s (c % 2 ^ 8)
  | .sessionInfoNtf n t r i ty ind p => .sessionInfoNtf (n % 2 ^ 32) (t % 2 ^ 32) (r % 2 ^ 8) (i % 2 ^ 32) ty ind p
  | .shortMacTwoWaySessionInfoNtf n t r i l v =>
    .shortMacTwoWaySessionInfoNtf (n % 2 ^ 32) (t % 2 ^ 32) (r % 2 ^ 8) (i % 2 ^ 32) ((l.take 255).map (cutMeasurement 2)) v
  | .extendedMacTwoWaySessionInfoNtf n t r i l v =>
    .extendedMacTwoWaySessionInfoNtf (n % 2 ^ 32) (t % 2 ^ 32) (r % 2 ^ 8) (i % 2 ^ 32) ((l.take 255).map (cutMeasurement 8)) v
  | .shortMacDlTDoASessionInfoNtf n t r i l =>
    .shortMacDlTDoASessionInfoNtf (n % 2 ^ 32) (t % 2 ^ 32) (r % 2 ^ 8) (i % 2 ^ 32)
      ((l.take 255).map fun m => (m.1 % 2 ^ 16, cutDlTdoa m.2))
  | .extendedMacDlTDoASessionInfoNtf n t r i l =>
    .extendedMacDlTDoASessionInfoNtf (n % 2 ^ 32) (t % 2 ^ 32) (r % 2 ^ 8) (i % 2 ^ 32)
      ((l.take 255).map fun m => (m.1 % 2 ^ 64, cutDlTdoa m.2))
  | .shortMacOwrAoaSessionInfoNtf n t r i l v =>
    .shortMacOwrAoaSessionInfoNtf (n % 2 ^ 32) (t % 2 ^ 32) (r % 2 ^ 8) (i % 2 ^ 32) ((l.take 255).map (cutOwrAoa 2)) v
  | .extendedMacOwrAoaSessionInfoNtf n t r i l v =>
    .extendedMacOwrAoaSessionInfoNtf (n % 2 ^ 32) (t % 2 ^ 32) (r % 2 ^ 8) (i % 2 ^ 32) ((l.take 255).map (cutOwrAoa 8)) v
  | .sessionGetRangingCountRsp s n => .sessionGetRangingCountRsp s (n % 2 ^ 32)
  | .androidGetPowerStatsRsp s a b c d => .androidGetPowerStatsRsp s (a % 2 ^ 32) (b % 2 ^ 32) (c % 2 ^ 32) (d % 2 ^ 32)
  | .androidRangeDiagnosticsNtf t n l => .androidRangeDiagnosticsNtf (t % 2 ^ 32) (n % 2 ^ 32) ((l.take 255).map cutReport)
  | .dataMessageSnd pbf h d n v => .dataMessageSnd pbf (h % 2 ^ 32) (d % 2 ^ 64) (n % 2 ^ 16) v
  | .dataMessageRcv pbf h s a n v => .dataMessageRcv pbf (h % 2 ^ 32) s (a % 2 ^ 64) (n % 2 ^ 16) v
  | o => o

end Pica.Spec
