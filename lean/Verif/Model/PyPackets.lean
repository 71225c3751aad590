import Verif.Model.PyUci
/-!
The rest of `py/pica/pica/packets/uci.py`: the serialisers of responses, notifications and data.
-/

namespace Pica.Py

/-! ### Serialisers of structures -/

/-- `int.to_bytes(v, length=k, byteorder='little')` without a check before: raises `OverflowError`. -/
def exactly (k v : Nat) : Option Bytes := if v < 256 ^ k then some (leBytes k v) else none

/-- `if v > max: v &= max` for a field of `k` bits. -/
def cut (k v : Nat) : Nat := if 2 ^ k - 1 < v then v &&& (2 ^ k - 1) else v

/-- `if len(v) > 255: del v[255:]`, the length and the bytes. -/
def countedBytes (v : Bytes) : Option Bytes := do
  let v := v.take 255
  let n ← byte v.length
  pure (n ++ v)

/-- The length in two bytes and the bytes: raises `OverflowError` for more than 65535. -/
def sizedBytes (v : Bytes) : Option Bytes := do
  let n ← exactly 2 v.length
  pure (n ++ v)

/-- `ConfigParameterStatus.serialize`, 2192-2196; `AppConfigStatus.serialize`, 2710-2714. -/
def idStatusBytes (p : Nat × Nat) : Option Bytes := do
  let id ← byte p.1
  let status ← byte p.2
  pure (id ++ status)

/-- `ControleeStatus.serialize`, 3429-3433. -/
def controleeStatusBytes (c : Bytes × Nat) : Option Bytes := do
  let status ← byte c.2
  pure (c.1 ++ status)

/-- `ShortAddressTwoWayRangingMeasurement.serialize`, 3749-3806 (`w = 2`, 11 bytes reserved), and
`ExtendedAddressTwoWayRangingMeasurement.serialize`, 3861-3917 (`w = 8`, 5 bytes reserved). -/
def measurementBytes (w reserved : Nat) (m : Measurement) : Option Bytes := do
  let status ← byte m.status
  pure (int w m.macAddress ++ status ++ int 1 m.nlos ++ int 2 m.distance ++ int 2 m.aoaAzimuth ++ int 1 m.aoaAzimuthFom ++
    int 2 m.aoaElevation ++ int 1 m.aoaElevationFom ++ int 2 m.aoaDestinationAzimuth ++ int 1 m.aoaDestinationAzimuthFom ++
    int 2 m.aoaDestinationElevation ++ int 1 m.aoaDestinationElevationFom ++ int 1 m.slotIndex ++ int 1 m.rssi ++
    List.replicate reserved 0)

/-- `ShortAddressOwrAoaRangingMeasurement.serialize`, 3959-3994 (`w = 2`), and
`ExtendedAddressOwrAoaRangingMeasurement.serialize`, 4036-4071 (`w = 8`). -/
def owrAoaBytes (w : Nat) (m : OwrAoa) : Option Bytes := do
  let status ← byte m.status
  pure (int w m.macAddress ++ status ++ int 1 m.nlos ++ int 1 m.frameSequenceNumber ++ int 2 m.blockIndex ++
    int 2 m.aoaAzimuth ++ int 1 m.aoaAzimuthFom ++ int 2 m.aoaElevation ++ int 1 m.aoaElevationFom)

/-- `RelativeLocation.serialize`, 4124-4141. -/
def relativeLocationBytes (l : RelativeLocation) : Option Bytes :=
  some (leBytes 7 (cut 28 l.x ||| (cut 28 l.y <<< 28)) ++ int 3 l.z)

/-- The bits of `DlTdoaRangingMeasurement.serialize`, 4282-4290. -/
def DlTdoa.bits (m : DlTdoa) : Nat :=
  cut 1 m.txTimestampType ||| ((if m.txTimestamp64.isSome then 1 else 0) <<< 1) |||
    ((if m.rxTimestamp64.isSome then 1 else 0) <<< 3) ||| ((m.wgs84Location.take 1).length <<< 5) |||
    ((m.relativeLocation.take 1).length <<< 6) ||| ((m.activeRangingRounds.take 15).length <<< 7)

/-- `if t is not None: int.to_bytes(t, length=k)` -/
def optional (k : Nat) : Option Nat → Option Bytes
  | none => some []
  | some v => exactly k v

/-- `DlTdoaRangingMeasurement.serialize`, 4263-4364. -/
def dlTdoaBytes (m : DlTdoa) : Option Bytes := do
  let status ← byte m.status
  let bits ← exactly 2 m.bits
  let tx40 ← optional 5 m.txTimestamp40
  let tx64 ← optional 8 m.txTimestamp64
  let rx40 ← optional 5 m.rxTimestamp40
  let rx64 ← optional 8 m.rxTimestamp64
  let rs ← (m.relativeLocation.take 1).mapM relativeLocationBytes
  pure ((status ++ int 1 m.messageType ++ bits ++ int 2 m.blockIndex ++ int 1 m.roundIndex ++ int 1 m.nlos ++
    int 2 m.aoaAzimuth ++ int 1 m.aoaAzimuthFom ++ int 2 m.aoaElevation ++ int 1 m.aoaElevationFom ++ int 1 m.rssi) ++
    (tx40 ++ tx64) ++ (rx40 ++ rx64) ++
    (int 2 m.anchorCfo ++ int 2 m.cfo ++ int 4 m.initiatorReplyTime ++ int 4 m.responderReplyTime ++
      int 2 m.initiatorResponderTof) ++
    ((m.wgs84Location.take 1).flatten ++ rs.flatten ++ m.activeRangingRounds.take 15))

/-- `ShortAddressDlTdoaRangingMeasurement.serialize`, 4390-4397, and
`ExtendedAddressDlTdoaRangingMeasurement.serialize`, 4423-4430. -/
def addressedDlTdoaBytes (w : Nat) (m : Nat × DlTdoa) : Option Bytes := do
  let b ← dlTdoaBytes m.2
  pure (int w m.1 ++ b)

/-- `FrameReportTlv.serialize`, 5156-5161. -/
def frameReportTlvBytes (p : Nat × Bytes) : Option Bytes := do
  let t ← byte p.1
  let v ← sizedBytes p.2
  pure (t ++ v)

/-- `FrameReport.serialize`, 5484-5504. -/
def frameReportBytes (r : FrameReport) : Option Bytes := do
  let l ← list frameReportTlvBytes r.frameReportTlvs
  pure (int 1 r.uwbMsgId ++ int 1 r.action ++ int 1 r.antennaSet ++ l)

/-! ### Serialisers of messages -/

/-- A status and a counted list. -/
def statusList {α : Type} (f : α → Option Bytes) (status : Nat) (l : List α) : Option Bytes := do
  let s ← byte status
  let l ← list f l
  pure (s ++ l)

/-- `SessionInfoNtf.serialize`, 4528-4551, with the payload of a derived class. -/
def infoBody (n t r i type indicator : Nat) (payload : Bytes) : Option Bytes := do
  let type ← byte type
  let indicator ← byte indicator
  pure (int 4 n ++ int 4 t ++ int 1 r ++ int 4 i ++ type ++ [0] ++ indicator ++ List.replicate 8 0 ++ payload)

/-- `gid`, `mt` and `oid` as `__post_init__` of the class sets them, or of the object where it leaves
them alone. Data has neither group nor opcode: 16 stands for no group. -/
def Obj.code : Obj → Nat × Nat × Nat
  | command c => (c.code.1, 1, c.code.2)
  | corePacket mt oid _ => (0, mt, oid)
  | sessionConfigPacket mt oid _ => (1, mt, oid)
  | sessionControlPacket mt oid _ => (2, mt, oid)
  | androidPacket mt oid _ => (0xc, mt, oid)
  | coreDeviceResetRsp _ => (0, 2, 0)
  | coreDeviceStatusNtf _ => (0, 3, 1)
  | coreGetDeviceInfoRsp .. => (0, 2, 2)
  | coreGetCapsInfoRsp .. => (0, 2, 3)
  | coreSetConfigRsp .. => (0, 2, 4)
  | coreGetConfigRsp .. => (0, 2, 5)
  | coreGenericErrorNtf _ => (0, 3, 7)
  | coreQueryTimeStampRsp .. => (0, 2, 8)
  | sessionInitRspV2 .. => (1, 2, 0)
  | sessionInitRsp _ => (1, 2, 0)
  | sessionDeinitRsp _ => (1, 2, 1)
  | sessionStatusNtf .. => (1, 3, 2)
  | sessionSetAppConfigRsp .. => (1, 2, 3)
  | sessionGetAppConfigRsp .. => (1, 2, 4)
  | sessionGetCountRsp .. => (1, 2, 5)
  | sessionGetStateRsp .. => (1, 2, 6)
  | sessionUpdateDtAnchorRangingRoundsRsp => (1, 2, 8)
  | sessionUpdateDtTagRangingRoundsRsp .. => (1, 2, 9)
  | sessionUpdateControllerMulticastListRsp _ => (1, 2, 7)
  | sessionUpdateControllerMulticastListNtf .. => (1, 3, 7)
  | sessionQueryMaxDataSizeInRangingRsp .. => (1, 2, 0xb)
  | sessionDataCreditNtf .. => (2, 3, 4)
  | sessionDataTransferStatusNtf .. => (2, 3, 5)
  | sessionStartRsp _ => (2, 2, 0)
  | sessionInfoNtf .. | shortMacTwoWaySessionInfoNtf .. | extendedMacTwoWaySessionInfoNtf ..
  | shortMacDlTDoASessionInfoNtf .. | extendedMacDlTDoASessionInfoNtf .. | shortMacOwrAoaSessionInfoNtf ..
  | extendedMacOwrAoaSessionInfoNtf .. => (2, 3, 0)
  | sessionStopRsp _ => (2, 2, 1)
  | sessionGetRangingCountRsp .. => (2, 2, 3)
  | androidGetPowerStatsRsp .. => (0xc, 2, 0)
  | androidSetCountryCodeRsp _ => (0xc, 2, 1)
  | androidRangeDiagnosticsNtf .. => (0xc, 3, 2)
  | controlPacket gid mt _ => (gid, mt, 0)
  | dataPacket _ _ mt _ => (16, mt, 0)
  | dataMessageSnd .. | dataMessageRcv .. => (16, 0, 0)

/-- The part of `serialize` written in the class (and in `SessionInfoNtf`): `CoreDeviceResetRsp` 1864-1867,
`CoreDeviceStatusNtf` 1892-1895, `CoreGetDeviceInfoRsp` 1961-1985, `CoreGetCapsInfoRsp` 2076-2085 with `CapTlv`
2036-2044, `CoreSetConfigRsp` 2230-2239, `CoreGetConfigRsp` 2311-2320, `CoreGenericErrorNtf` 2345-2348,
`CoreQueryTimeStampRsp` 2399-2406, `SessionInitRsp_V2` 2469-2476, `SessionInitRsp` 2501-2504, `SessionDeinitRsp`
2561-2564, `SessionStatusNtf` 2594-2605, `SessionSetAppConfigRsp` 2748-2757, `SessionGetAppConfigRsp` 2836-2845,
`SessionGetCountRsp` 2895-2902, `SessionGetStateRsp` 2961-2965, `SessionUpdateDtAnchorRangingRoundsRsp` 3009-3011,
`SessionUpdateDtTagRangingRoundsRsp` 3085-3093, `SessionUpdateControllerMulticastListRsp` 3399-3402,
`SessionUpdateControllerMulticastListNtf` 3468-3480, `SessionDataCreditNtf` 3508-3515,
`SessionDataTransferStatusNtf` 3547-3562, `SessionQueryMaxDataSizeInRangingRsp` 3623-3633, `SessionStartRsp` 3690-3693,
the classes derived from `SessionInfoNtf` 4588-4831, `SessionStopRsp` 4884-4887, `SessionGetRangingCountRsp` 4947-4954,
`AndroidGetPowerStatsRsp` 5055-5058 with `PowerStats` 5011-5030, `AndroidSetCountryCodeRsp` 5111-5114,
`AndroidRangeDiagnosticsNtf` 5540-5555, `DataMessageSnd` 1253-1269, `DataMessageRcv` 1309-1326. The payload of an object of a
class with derived classes is its own. -/
def Obj.body : Obj → Option Bytes
  | command c => c.body
  | corePacket _ _ p | sessionConfigPacket _ _ p | sessionControlPacket _ _ p | androidPacket _ _ p | controlPacket _ _ p
  | dataPacket _ _ _ p => some p
  | coreDeviceResetRsp s | coreGenericErrorNtf s | sessionInitRsp s | sessionDeinitRsp s
  | sessionUpdateControllerMulticastListRsp s | sessionStartRsp s | sessionStopRsp s | androidSetCountryCodeRsp s
  | coreDeviceStatusNtf s => byte s
  | coreGetDeviceInfoRsp s a b c d v => do
    let s ← byte s
    let v ← countedBytes v
    pure (s ++ int 2 a ++ int 2 b ++ int 2 c ++ int 2 d ++ v)
  | coreGetCapsInfoRsp s l | sessionGetAppConfigRsp s l => statusList appConfigTlv s l
  | coreGetConfigRsp s l => statusList configParameter s l
  | coreSetConfigRsp s l | sessionSetAppConfigRsp s l => statusList idStatusBytes s l
  | coreQueryTimeStampRsp s t => do
    let s ← byte s
    pure (s ++ int 8 t)
  | sessionInitRspV2 s n | sessionGetRangingCountRsp s n => do
    let s ← byte s
    pure (s ++ int 4 n)
  | sessionStatusNtf t s r => do
    let s ← byte s
    pure (int 4 t ++ s ++ int 1 r)
  | sessionGetCountRsp s n => do
    let s ← byte s
    pure (s ++ int 1 n)
  | sessionGetStateRsp s t => do
    let s ← byte s
    let t ← byte t
    pure (s ++ t)
  | sessionUpdateDtAnchorRangingRoundsRsp => some []
  | sessionUpdateDtTagRangingRoundsRsp s v => do
    let s ← byte s
    let v ← countedBytes v
    pure (s ++ v)
  | sessionUpdateControllerMulticastListNtf t l => do
    let l ← list controleeStatusBytes l
    pure (int 4 t ++ l)
  | sessionQueryMaxDataSizeInRangingRsp t n => some (int 4 t ++ int 2 n)
  | sessionDataCreditNtf t c => do
    let c ← byte c
    pure (int 4 t ++ c)
  | sessionDataTransferStatusNtf t n s c => do
    let s ← byte s
    pure (int 4 t ++ int 1 n ++ s ++ int 1 c)
  | sessionInfoNtf n t r i type indicator p => infoBody n t r i type indicator p
  | shortMacTwoWaySessionInfoNtf n t r i l v => do
    let l ← list (measurementBytes 2 11) l
    infoBody n t r i 1 0 (l ++ v)
  | extendedMacTwoWaySessionInfoNtf n t r i l v => do
    let l ← list (measurementBytes 8 5) l
    infoBody n t r i 1 1 (l ++ v)
  | shortMacDlTDoASessionInfoNtf n t r i l => do
    let l ← list (addressedDlTdoaBytes 2) l
    infoBody n t r i 2 0 l
  | extendedMacDlTDoASessionInfoNtf n t r i l => do
    let l ← list (addressedDlTdoaBytes 8) l
    infoBody n t r i 2 1 l
  | shortMacOwrAoaSessionInfoNtf n t r i l v => do
    let l ← list (owrAoaBytes 2) l
    infoBody n t r i 3 0 (l ++ v)
  | extendedMacOwrAoaSessionInfoNtf n t r i l v => do
    let l ← list (owrAoaBytes 8) l
    infoBody n t r i 3 1 (l ++ v)
  | androidGetPowerStatsRsp s a b c d => do
    let s ← byte s
    pure (s ++ int 4 a ++ int 4 b ++ int 4 c ++ int 4 d)
  | androidRangeDiagnosticsNtf t n l => do
    let l ← list frameReportBytes l
    pure (int 4 t ++ int 4 n ++ l)
  | dataMessageSnd _ h d n v => do
    let v ← sizedBytes v
    pure (int 4 h ++ int 8 d ++ int 2 n ++ v)
  | dataMessageRcv _ h s a n v => do
    let s ← byte s
    let v ← sizedBytes v
    pure (int 4 h ++ s ++ int 8 a ++ int 2 n ++ v)

/-- `ControlPacket.serialize`, 1152-1160. -/
def controlHead (gid mt : Nat) (p : Bytes) : Option Bytes := do
  let h ← byte (gid ||| (mt <<< 5))
  pure (h ++ p)

/-- `CorePacket.serialize`, 1451-1456, and its siblings 1644-1649, 1739-1744, 1806-1811. -/
def groupHead (gid mt oid : Nat) (p : Bytes) : Option Bytes := do
  let o ← byte oid
  controlHead gid mt (o ++ [0, 0] ++ p)

/-- `DataPacket.serialize`, 1204-1215. -/
def dataHead (dpf pbf mt : Nat) (p : Bytes) : Option Bytes := do
  let h ← byte (dpf ||| (pbf <<< 4) ||| (mt <<< 5))
  pure (h ++ [0] ++ [0, 0] ++ p)

/-- `serialize` of an object: its class, the classes it is derived from. -/
def Obj.serialize (o : Obj) : Option Bytes := do
  let b ← o.body
  match o with
  | controlPacket gid mt _ => controlHead gid mt b
  | dataPacket dpf pbf mt _ => dataHead dpf pbf mt b
  | dataMessageSnd pbf .. => dataHead 1 pbf 0 b
  | dataMessageRcv pbf .. => dataHead 2 pbf 0 b
  | o => groupHead o.code.1 o.code.2.1 o.code.2.2 b

end Pica.Py
