import Verif.Model.PyPackets
/-!
The `size` properties of `py/pica/pica/packets/uci.py`. A class counts the bytes it writes itself, not those of the classes it
is derived from. `none` is an exception.
-/

namespace Pica.Py

/-- `ConfigParameter.size`, 2133-2134; `AppConfigTlv.size`, 2644-2645; `CapTlv.size`, 2047-2048. -/
def tlvSize (p : Nat × Bytes) : Nat := p.2.length * 1 + 2

/-- `ConfigParameterStatus.size`, 2199-2200; `AppConfigStatus.size`, 2717-2718. -/
def idStatusSize (_ : Nat × Nat) : Nat := 2

/-- `ControleeStatus.size`, 3436-3437. -/
def controleeStatusSize (_ : Bytes × Nat) : Nat := 3

/-- `ShortAddressTwoWayRangingMeasurement.size`, 3809-3810, and `ExtendedAddressTwoWayRangingMeasurement.size`, 3920-3921. -/
def measurementSize (_ : Measurement) : Nat := 31

/-- `ShortAddressOwrAoaRangingMeasurement.size`, 3997-3998. -/
def owrAoaSize (_ : OwrAoa) : Nat := 13

/-- `ExtendedAddressOwrAoaRangingMeasurement.size`, 4074-4075. -/
def extOwrAoaSize (_ : OwrAoa) : Nat := 19

/-- `DlTdoaRangingMeasurement.size`, 4367-4368: without `return`, the value is `None`. -/
def dlTdoaSize (_ : DlTdoa) : Option Nat := none

/-- `ShortAddressDlTdoaRangingMeasurement.size`, 4400-4401 (`w = 2`), and `ExtendedAddressDlTdoaRangingMeasurement.size`,
4433-4434 (`w = 8`): `None + w` raises `TypeError`. -/
def addressedDlTdoaSize (w : Nat) (m : Nat × DlTdoa) : Option Nat := (dlTdoaSize m.2).map (· + w)

/-- `FrameReportTlv.size`, 5164-5165. -/
def frameReportTlvSize (p : Nat × Bytes) : Nat := p.2.length * 1 + 3

/-- `FrameReport.size`, 5507-5508. -/
def frameReportSize (r : FrameReport) : Nat := (r.frameReportTlvs.map frameReportTlvSize).sum + 4

/-- `size` of the classes of commands: 1842-1843, 1921-1922, 2011-2012, 2171-2172, 2282-2283, 2374-2375, 2444-2445, 2539-2540,
2689-2690, 2807-2808, 2871-2872, 2937-2938, 2991-2992, 3057-3058, 3266-3267, 3597-3598, 3668-3669, 4862-4863, 4922-4923,
4980-4981, 5089-5090. -/
def Command.size : Command → Nat
  | coreDeviceReset _ => 1
  | coreGetDeviceInfo => 0
  | coreGetCapsInfo => 0
  | coreSetConfig ps => (ps.map tlvSize).sum + 1
  | coreGetConfig ids => ids.length * 8 + 1
  | coreQueryTimeStamp => 0
  | sessionInit .. => 5
  | sessionDeinit _ => 4
  | sessionSetAppConfig _ tlvs => (tlvs.map tlvSize).sum + 5
  | sessionGetAppConfig _ ids => ids.length * 8 + 5
  | sessionGetCount => 0
  | sessionGetState _ => 4
  | sessionUpdateDtAnchorRangingRounds => 0
  | sessionUpdateDtTagRangingRounds _ v => v.length * 1 + 5
  | sessionUpdateControllerMulticastList _ _ p => p.length + 5
  | sessionQueryMaxDataSizeInRanging _ => 4
  | sessionStart _ => 4
  | sessionStop _ => 4
  | sessionGetRangingCount _ => 4
  | androidGetPowerStats => 0
  | androidSetCountryCode _ => 2

/-- `size` of the classes of packets: `ControlPacket` 1163-1164, `DataPacket` 1218-1219, `DataMessageSnd` 1272-1273,
`DataMessageRcv` 1329-1330, `CorePacket` 1459-1460, `SessionConfigPacket` 1652-1653, `SessionControlPacket` 1747-1748,
`AndroidPacket` 1814-1815, and those of the responses and notifications. -/
def Obj.size : Obj → Option Nat
  | controlPacket _ _ p => some (p.length + 1)
  | corePacket _ _ p | sessionConfigPacket _ _ p | sessionControlPacket _ _ p | androidPacket _ _ p => some (p.length + 3)
  | command c => some c.size
  | coreDeviceResetRsp _ => some 1
  | coreDeviceStatusNtf _ => some 1
  | coreGetDeviceInfoRsp _ _ _ _ _ v => some (v.length * 1 + 10)
  | coreGetCapsInfoRsp _ l => some ((l.map tlvSize).sum + 2)
  | coreSetConfigRsp _ l => some ((l.map idStatusSize).sum + 2)
  | coreGetConfigRsp _ l => some ((l.map tlvSize).sum + 2)
  | coreGenericErrorNtf _ => some 1
  | coreQueryTimeStampRsp .. => some 9
  | sessionInitRspV2 .. => some 5
  | sessionInitRsp _ => some 1
  | sessionDeinitRsp _ => some 1
  | sessionStatusNtf .. => some 6
  | sessionSetAppConfigRsp _ l => some ((l.map idStatusSize).sum + 2)
  | sessionGetAppConfigRsp _ l => some ((l.map tlvSize).sum + 2)
  | sessionGetCountRsp .. => some 2
  | sessionGetStateRsp .. => some 2
  | sessionUpdateDtAnchorRangingRoundsRsp => some 0
  | sessionUpdateDtTagRangingRoundsRsp _ v => some (v.length * 1 + 2)
  | sessionUpdateControllerMulticastListRsp _ => some 1
  | sessionUpdateControllerMulticastListNtf _ l => some ((l.map controleeStatusSize).sum + 5)
  | sessionQueryMaxDataSizeInRangingRsp .. => some 6
  | sessionDataCreditNtf .. => some 5
  | sessionDataTransferStatusNtf .. => some 7
  | sessionStartRsp _ => some 1
  | sessionInfoNtf _ _ _ _ _ _ p => some (p.length + 24)
  | shortMacTwoWaySessionInfoNtf _ _ _ _ l v => some (1 + ((l.map measurementSize).sum + v.length * 1))
  | extendedMacTwoWaySessionInfoNtf _ _ _ _ l v => some (1 + ((l.map measurementSize).sum + v.length * 1))
  | shortMacDlTDoASessionInfoNtf _ _ _ _ l => (l.mapM (addressedDlTdoaSize 2)).map fun x => x.sum + 1
  | extendedMacDlTDoASessionInfoNtf _ _ _ _ l => (l.mapM (addressedDlTdoaSize 8)).map fun x => x.sum + 1
  | shortMacOwrAoaSessionInfoNtf _ _ _ _ l v => some (1 + ((l.map owrAoaSize).sum + v.length * 1))
  | extendedMacOwrAoaSessionInfoNtf _ _ _ _ l v => some (1 + ((l.map extOwrAoaSize).sum + v.length * 1))
  | sessionStopRsp _ => some 1
  | sessionGetRangingCountRsp .. => some 5
  | androidGetPowerStatsRsp .. => some 17
  | androidSetCountryCodeRsp _ => some 1
  | androidRangeDiagnosticsNtf _ _ l => some ((l.map frameReportSize).sum + 9)
  | dataPacket _ _ _ p => some (p.length + 4)
  | dataMessageSnd _ _ _ _ v => some (v.length * 1 + 16)
  | dataMessageRcv _ _ _ _ _ v => some (v.length * 1 + 17)

end Pica.Py
