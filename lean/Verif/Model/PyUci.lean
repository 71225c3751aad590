import Verif.Model.Bytes
/-!
The packets of the Python host, `py/pica/pica/packets/uci.py`. This file is generated code that is
checked in; the line numbers below are its lines. Python integers are natural numbers here (the
constructors check nothing), members of `enum.IntEnum` are their values, `bytes`, `bytearray` and
lists of bytes are lists of bytes, a raised exception is `none`.

Here are the parsers of all classes of messages and the serialisers of what a host sends, commands and
`DataMessageSnd`. The other serialisers are in `Model/PyPackets.lean`.
-/

namespace Pica.Py

/-! ### Python -/

/-- `span[i:j]` -/
def slice (s : Bytes) (i j : Nat) : Bytes := (s.take j).drop i
/-- `span[i]`, used after a check of the length only. -/
def idx (s : Bytes) (i : Nat) : Nat := (s.getD i 0).toNat
/-- `int.from_bytes(span[i:j], byteorder='little')` -/
def le (s : Bytes) (i j : Nat) : Nat := ofLe (slice s i j)

/-- `E.from_int` of an enumeration that raises for other values than its members. -/
def fromInt (members : List Nat) (v : Nat) : Option Nat := if v ∈ members then some v else none

/-- `if len(span) < n: raise` -/
def need (s : Bytes) (n : Nat) : Option Unit := if s.length < n then none else some ()
/-- `if constraint: raise` -/
def forbid (p : Prop) [Decidable p] : Option Unit := if p then none else some ()

/-- `Packet.parse_all`, 15-19. -/
def parseAll {α : Type} (p : Bytes → Option (α × Bytes)) (s : Bytes) : Option α :=
  match p s with
  | some (x, []) => some x
  | _ => none

/-- `for n in range(count): element, span = T.parse(span)` -/
def elements {α : Type} (p : Bytes → Option (α × Bytes)) : Nat → Bytes → Option (List α × Bytes)
  | 0, s => some ([], s)
  | n + 1, s => do
    let (x, s) ← p s
    let (xs, s) ← elements p n s
    pure (x :: xs, s)

/-- `for n in range(count): T.parse_all(span[n * k:(n + 1) * k])` -/
def records {α : Type} (p : Bytes → Option (α × Bytes)) (k count : Nat) (s : Bytes) : Option (List α) :=
  (List.range count).mapM fun n => parseAll p (slice s (n * k) ((n + 1) * k))

/-- The `try: child, remainder = C.parse(fields.copy(), payload)` blocks of a class with derived
classes: the first one that raises nothing and leaves nothing. -/
def firstChild {α : Type} : List (Option (α × Bytes)) → Option α
  | [] => none
  | some (x, []) :: _ => some x
  | _ :: l => firstChild l

/-! ### Enumerations -/

/-- `class PacketBoundaryFlag`, 85-94. -/
def pbfs : List Nat := [0, 1]
/-- `class MessageType`, 97-108. -/
def messageTypes : List Nat := [0, 1, 2, 3]
/-- `class GroupId`, 111-129. -/
def groupIds : List Nat := [0x0, 0x1, 0x2, 0x3, 0x9, 0xa, 0xb, 0xc, 0xd, 0xe, 0xf]
/-- `class DataPacketFormat`, 132-141. -/
def dataPacketFormats : List Nat := [1, 2]
/-- `class CoreOpcodeId`, 144-159. -/
def coreOpcodes : List Nat := [0, 1, 2, 3, 4, 5, 7, 8]
/-- `class SessionConfigOpcodeId`, 162-180. -/
def sessionConfigOpcodes : List Nat := [0, 1, 2, 3, 4, 5, 6, 7, 8, 9, 0xb]
/-- `class SessionControlOpcodeId`, 183-195. -/
def sessionControlOpcodes : List Nat := [0, 1, 3, 4, 5]
/-- `class AndroidOpcodeId`, 198-208. -/
def androidOpcodes : List Nat := [0, 1, 2]
/-- `class CreditAvailability`, 267-276. -/
def creditAvailabilities : List Nat := [0, 1]
/-- `class DataTransferNtfStatusCode`, 279-294. -/
def dataTransferStatuses : List Nat := [0, 1, 2, 3, 4, 5, 6, 7]
/-- `class DeviceState`, 866-876. -/
def deviceStates : List Nat := [1, 2, 0xff]
/-- `class SessionState`, 879-890. -/
def sessionStates : List Nat := [0, 1, 2, 3]
/-- `class MulticastUpdateStatus`, 945-961. -/
def multicastStatuses : List Nat := [0, 1, 2, 3, 4, 5, 6, 7, 8]
/-- `class MacAddressIndicator`, 964-973. -/
def macAddressIndicators : List Nat := [0, 1]
/-- `class RangingMeasurementType`, 4436-4447. -/
def rangingMeasurementTypes : List Nat := [0, 1, 2, 3]

/-- `class ResetConfig`, 297-305. -/
def resetConfigs : List Nat := [0]
/-- `class SessionType`, 976-991. -/
def sessionTypes : List Nat := [0, 1, 2, 3, 4, 5, 0xa0, 0xd0]
/-- `class UpdateMulticastListAction`, 3216-3227. -/
def multicastActions : List Nat := [0, 1, 2, 3]
/-- `class FrameReportTlvType`, 5120-5130. -/
def frameReportTlvTypes : List Nat := [0, 1, 2]
/-- The members of `class ConfigParameterId`, 2091-2093. -/
def configParameterIds : List Nat := [0, 1]
/-- The members of `class AppConfigTlvType`, 308-378. -/
def appConfigTlvTypes : List Nat :=
  [0x00, 0x01, 0x02, 0x03, 0x04, 0x05, 0x06, 0x07, 0x08, 0x09, 0x0a, 0x0b, 0x0c, 0x0d, 0x0e, 0x0f,
   0x10, 0x11, 0x12, 0x13, 0x14, 0x15, 0x16, 0x17, 0x18, 0x19, 0x1a, 0x1b, 0x1d, 0x1f,
   0x20, 0x21, 0x22, 0x23, 0x24, 0x25, 0x26, 0x27, 0x28, 0x29, 0x2a, 0x2b, 0x2c, 0x2d, 0x2e, 0x2f,
   0x30, 0x31, 0x32, 0x35, 0x3a, 0x3b, 0x3c, 0x3d, 0x3e, 0x3f,
   0x40, 0x41, 0x42, 0x43, 0x44, 0x45, 0x46, 0x47, 0x48, 0x49, 0x4a, 0x4b, 0x4c, 0x4d]

-- `Status` (211-251), `AppConfigTlvType` (308-385), `CapTlvType` (820-848) and `ConfigParameterId`
-- (2091-2100) have a `from_int` that returns every value.

/-! ### Objects -/

/-- `class ShortAddressTwoWayRangingMeasurement`, 3700-3810, and `class
ExtendedAddressTwoWayRangingMeasurement`, 3813-3921, which differ in the width of the address. -/
structure Measurement where
  macAddress : Nat
  status : Nat
  nlos : Nat
  distance : Nat
  aoaAzimuth : Nat
  aoaAzimuthFom : Nat
  aoaElevation : Nat
  aoaElevationFom : Nat
  aoaDestinationAzimuth : Nat
  aoaDestinationAzimuthFom : Nat
  aoaDestinationElevation : Nat
  aoaDestinationElevationFom : Nat
  slotIndex : Nat
  rssi : Nat
  deriving DecidableEq, Repr

/-- `class ShortAddressOwrAoaRangingMeasurement`, 3924-3998, and `class
ExtendedAddressOwrAoaRangingMeasurement`, 4001-4075. -/
structure OwrAoa where
  macAddress : Nat
  status : Nat
  nlos : Nat
  frameSequenceNumber : Nat
  blockIndex : Nat
  aoaAzimuth : Nat
  aoaAzimuthFom : Nat
  aoaElevation : Nat
  aoaElevationFom : Nat
  deriving DecidableEq, Repr

/-- `class RelativeLocation`, 4103-4145. -/
structure RelativeLocation where
  x : Nat
  y : Nat
  z : Nat
  deriving DecidableEq, Repr

/-- `class DlTdoaRangingMeasurement`, 4148-4368. -/
structure DlTdoa where
  status : Nat
  messageType : Nat
  txTimestampType : Nat
  blockIndex : Nat
  roundIndex : Nat
  nlos : Nat
  aoaAzimuth : Nat
  aoaAzimuthFom : Nat
  aoaElevation : Nat
  aoaElevationFom : Nat
  rssi : Nat
  txTimestamp40 : Option Nat
  txTimestamp64 : Option Nat
  rxTimestamp40 : Option Nat
  rxTimestamp64 : Option Nat
  anchorCfo : Nat
  cfo : Nat
  initiatorReplyTime : Nat
  responderReplyTime : Nat
  initiatorResponderTof : Nat
  wgs84Location : List Bytes
  relativeLocation : List RelativeLocation
  activeRangingRounds : Bytes
  deriving DecidableEq, Repr

/-- `class FrameReport`, 5458-5508, with the `FrameReportTlv`s (5134-5165) as pairs. -/
structure FrameReport where
  uwbMsgId : Nat
  action : Nat
  antennaSet : Nat
  frameReportTlvs : List (Nat × Bytes)
  deriving DecidableEq, Repr

/-- An object of a command class, built with the default `payload` where the class has none. -/
inductive Command where
  | coreDeviceReset (resetConfig : Nat)
  | coreGetDeviceInfo
  | coreGetCapsInfo
  | coreSetConfig (parameters : List (Nat × Bytes))
  | coreGetConfig (parameterIds : List Nat)
  | coreQueryTimeStamp
  | sessionInit (sessionId sessionType : Nat)
  | sessionDeinit (sessionToken : Nat)
  | sessionSetAppConfig (sessionToken : Nat) (tlvs : List (Nat × Bytes))
  | sessionGetAppConfig (sessionToken : Nat) (appCfg : List Nat)
  | sessionGetCount
  | sessionGetState (sessionToken : Nat)
  | sessionUpdateDtAnchorRangingRounds
  | sessionUpdateDtTagRangingRounds (sessionToken : Nat) (rangingRoundIndexes : Bytes)
  | sessionUpdateControllerMulticastList (sessionToken action : Nat) (payload : Bytes)
  | sessionQueryMaxDataSizeInRanging (sessionToken : Nat)
  | sessionStart (sessionId : Nat)
  | sessionStop (sessionId : Nat)
  | sessionGetRangingCount (sessionId : Nat)
  | androidGetPowerStats
  | androidSetCountryCode (countryCode : Bytes)
  deriving DecidableEq, Repr

/-- An object of a class derived from `ControlPacket` or `DataPacket`. The attributes fixed by the
class (`gid`, `mt`, `oid`) are left out, and so is `payload` except where it is all there is: the
comparison of packets ignores it (12). -/
inductive Obj where
  | controlPacket (gid mt : Nat) (payload : Bytes)
  | corePacket (mt oid : Nat) (payload : Bytes)
  | sessionConfigPacket (mt oid : Nat) (payload : Bytes)
  | sessionControlPacket (mt oid : Nat) (payload : Bytes)
  | androidPacket (mt oid : Nat) (payload : Bytes)
  | command (c : Command)
  | coreDeviceResetRsp (status : Nat)
  | coreDeviceStatusNtf (deviceState : Nat)
  | coreGetDeviceInfoRsp (status uciVersion macVersion phyVersion uciTestVersion : Nat) (vendorSpecInfo : Bytes)
  | coreGetCapsInfoRsp (status : Nat) (tlvs : List (Nat × Bytes))
  | coreSetConfigRsp (status : Nat) (parameters : List (Nat × Nat))
  | coreGetConfigRsp (status : Nat) (parameters : List (Nat × Bytes))
  | coreGenericErrorNtf (status : Nat)
  | coreQueryTimeStampRsp (status timeStamp : Nat)
  | sessionInitRspV2 (status sessionHandle : Nat)
  | sessionInitRsp (status : Nat)
  | sessionDeinitRsp (status : Nat)
  | sessionStatusNtf (sessionToken sessionState reasonCode : Nat)
  | sessionSetAppConfigRsp (status : Nat) (cfgStatus : List (Nat × Nat))
  | sessionGetAppConfigRsp (status : Nat) (tlvs : List (Nat × Bytes))
  | sessionGetCountRsp (status sessionCount : Nat)
  | sessionGetStateRsp (status sessionState : Nat)
  | sessionUpdateDtAnchorRangingRoundsRsp
  | sessionUpdateDtTagRangingRoundsRsp (status : Nat) (rangingRoundIndexes : Bytes)
  | sessionUpdateControllerMulticastListRsp (status : Nat)
  | sessionUpdateControllerMulticastListNtf (sessionToken : Nat) (controleeStatus : List (Bytes × Nat))
  | sessionQueryMaxDataSizeInRangingRsp (sessionToken maxDataSize : Nat)
  | sessionDataCreditNtf (sessionToken creditAvailability : Nat)
  | sessionDataTransferStatusNtf (sessionToken uciSequenceNumber status txCount : Nat)
  | sessionStartRsp (status : Nat)
  | sessionInfoNtf (sequenceNumber sessionToken rcrIndicator currentRangingInterval rangingMeasurementType
      macAddressIndicator : Nat) (payload : Bytes)
  | shortMacTwoWaySessionInfoNtf (sequenceNumber sessionToken rcrIndicator currentRangingInterval : Nat)
      (measurements : List Measurement) (vendorData : Bytes)
  | extendedMacTwoWaySessionInfoNtf (sequenceNumber sessionToken rcrIndicator currentRangingInterval : Nat)
      (measurements : List Measurement) (vendorData : Bytes)
  | shortMacDlTDoASessionInfoNtf (sequenceNumber sessionToken rcrIndicator currentRangingInterval : Nat)
      (measurements : List (Nat × DlTdoa))
  | extendedMacDlTDoASessionInfoNtf (sequenceNumber sessionToken rcrIndicator currentRangingInterval : Nat)
      (measurements : List (Nat × DlTdoa))
  | shortMacOwrAoaSessionInfoNtf (sequenceNumber sessionToken rcrIndicator currentRangingInterval : Nat)
      (measurements : List OwrAoa) (vendorData : Bytes)
  | extendedMacOwrAoaSessionInfoNtf (sequenceNumber sessionToken rcrIndicator currentRangingInterval : Nat)
      (measurements : List OwrAoa) (vendorData : Bytes)
  | sessionStopRsp (status : Nat)
  | sessionGetRangingCountRsp (status count : Nat)
  | androidGetPowerStatsRsp (status idleTimeMs txTimeMs rxTimeMs totalWakeCount : Nat)
  | androidSetCountryCodeRsp (status : Nat)
  | androidRangeDiagnosticsNtf (sessionToken sequenceNumber : Nat) (frameReports : List FrameReport)
  | dataPacket (dpf pbf mt : Nat) (payload : Bytes)
  | dataMessageSnd (pbf sessionHandle destinationAddress dataSequenceNumber : Nat) (applicationData : Bytes)
  | dataMessageRcv (pbf sessionHandle status sourceAddress dataSequenceNumber : Nat) (applicationData : Bytes)
  deriving DecidableEq, Repr

/-! ### Parsers of structures -/

/-- `CapTlv.parse`, 2023-2034; `ConfigParameter.parse`, 2112-2123; `AppConfigTlv.parse`, 2620-2631:
an identifier, a length, the value. -/
def tlv (s : Bytes) : Option ((Nat × Bytes) × Bytes) := do
  need s 2
  let t := idx s 0
  let count := idx s 1
  let s := s.drop 2
  need s count
  pure ((t, s.take count), s.drop count)

/-- `ConfigParameterStatus.parse`, 2183-2190; `AppConfigStatus.parse`, 2701-2708. -/
def idStatus (s : Bytes) : Option ((Nat × Nat) × Bytes) := do
  need s 2
  pure ((idx s 0, idx s 1), s.drop 2)

/-- `ControleeStatus.parse`, 3417-3427. -/
def controleeStatus (s : Bytes) : Option ((Bytes × Nat) × Bytes) := do
  need s 2
  let mac := s.take 2
  let s := s.drop 2
  need s 1
  let status ← fromInt multicastStatuses (idx s 0)
  pure ((mac, status), s.drop 1)

/-- `ShortAddressTwoWayRangingMeasurement.parse`, 3720-3747. -/
def measurement (s : Bytes) : Option (Measurement × Bytes) := do
  need s 31
  pure (⟨le s 0 2, idx s 2, idx s 3, le s 4 6, le s 6 8, idx s 8, le s 9 11, idx s 11, le s 12 14, idx s 14,
    le s 15 17, idx s 17, idx s 18, idx s 19⟩, s.drop 31)

/-- `ExtendedAddressTwoWayRangingMeasurement.parse`, 3833-3859. -/
def extMeasurement (s : Bytes) : Option (Measurement × Bytes) := do
  need s 31
  pure (⟨le s 0 8, idx s 8, idx s 9, le s 10 12, le s 12 14, idx s 14, le s 15 17, idx s 17, le s 18 20, idx s 20,
    le s 21 23, idx s 23, idx s 24, idx s 25⟩, s.drop 31)

/-- `ShortAddressOwrAoaRangingMeasurement.parse`, 3939-3957. -/
def owrAoa (s : Bytes) : Option (OwrAoa × Bytes) := do
  need s 13
  pure (⟨le s 0 2, idx s 2, idx s 3, idx s 4, le s 5 7, le s 7 9, idx s 9, le s 10 12, idx s 12⟩, s.drop 13)

/-- `ExtendedAddressOwrAoaRangingMeasurement.parse`, 4016-4034. -/
def extOwrAoa (s : Bytes) : Option (OwrAoa × Bytes) := do
  need s 19
  pure (⟨le s 0 8, idx s 8, idx s 9, idx s 10, le s 11 13, le s 13 15, idx s 15, le s 16 18, idx s 18⟩, s.drop 19)

/-- `Wgs84Location.parse`, 4085-4091. -/
def wgs84Location (s : Bytes) : Option (Bytes × Bytes) := do
  need s 12
  pure (s.take 12, s.drop 12)

/-- `RelativeLocation.parse`, 4112-4122. -/
def relativeLocation (s : Bytes) : Option (RelativeLocation × Bytes) := do
  need s 10
  pure (⟨le s 0 7 &&& 0xfffffff, (le s 0 7 >>> 28) &&& 0xfffffff, le s 7 10⟩, s.drop 10)

/-- A time stamp of `DlTdoaRangingMeasurement.parse`, 4203-4214 and 4217-4228: of five bytes when the
bit is clear, of eight when it is set. -/
def timestamp (bit : Nat) (s : Bytes) : Option ((Option Nat × Option Nat) × Bytes) :=
  if bit = 0 then do
    need s 5
    pure ((some (ofLe (s.take 5)), none), s.drop 5)
  else do
    need s 8
    pure ((none, some (ofLe (s.take 8))), s.drop 8)

/-- The end of `DlTdoaRangingMeasurement.parse`, 4243-4260: the locations and the rounds. -/
def dlTdoaTail (nw nr na : Nat) (s : Bytes) : Option ((List Bytes × List RelativeLocation × Bytes) × Bytes) := do
  need s (nw * 12)
  let ws ← records wgs84Location 12 nw s
  let s := s.drop (nw * 12)
  need s (nr * 10)
  let rs ← records relativeLocation 10 nr s
  let s := s.drop (nr * 10)
  need s na
  pure ((ws, rs, s.take na), s.drop na)

/-- The fields of `DlTdoaRangingMeasurement.parse`, 4230-4242. -/
structure DlTdoaTimes where
  anchorCfo : Nat
  cfo : Nat
  initiatorReplyTime : Nat
  responderReplyTime : Nat
  initiatorResponderTof : Nat
  deriving DecidableEq, Repr

/-- `DlTdoaRangingMeasurement.parse`, 4230-4242. -/
def dlTdoaTimes (s : Bytes) : Option (DlTdoaTimes × Bytes) := do
  need s 14
  pure (⟨le s 0 2, le s 2 4, le s 4 8, le s 8 12, le s 12 14⟩, s.drop 14)

/-- `DlTdoaRangingMeasurement.parse`, 4177-4261. -/
def dlTdoa (s : Bytes) : Option (DlTdoa × Bytes) := do
  need s 15
  let v := le s 2 4
  let (tx, s₁) ← timestamp ((v >>> 1) &&& 0x1) (s.drop 15)
  let (rx, s₂) ← timestamp ((v >>> 3) &&& 0x1) s₁
  let (t, s₃) ← dlTdoaTimes s₂
  let (l, s₄) ← dlTdoaTail ((v >>> 5) &&& 0x1) ((v >>> 6) &&& 0x1) ((v >>> 7) &&& 0xf) s₃
  pure (⟨idx s 0, idx s 1, v &&& 0x1, le s 4 6, idx s 6, idx s 7, le s 8 10, idx s 10, le s 11 13, idx s 13, idx s 14,
    tx.1, tx.2, rx.1, rx.2, t.anchorCfo, t.cfo, t.initiatorReplyTime, t.responderReplyTime, t.initiatorResponderTof,
    l.1, l.2.1, l.2.2⟩, s₄)

/-- `ShortAddressDlTdoaRangingMeasurement.parse`, 4379-4388, and
`ExtendedAddressDlTdoaRangingMeasurement.parse`, 4412-4421: an address of `w` bytes. -/
def addressedDlTdoa (w : Nat) (s : Bytes) : Option ((Nat × DlTdoa) × Bytes) := do
  need s w
  let (m, r) ← dlTdoa (s.drop w)
  pure ((le s 0 w, m), r)

/-- `FrameReportTlv.parse`, 5142-5154. -/
def frameReportTlv (s : Bytes) : Option ((Nat × Bytes) × Bytes) := do
  need s 3
  let t ← fromInt frameReportTlvTypes (idx s 0)
  let size := le s 1 3
  let s := s.drop 3
  need s size
  pure ((t, s.take size), s.drop size)

/-- `FrameReport.parse`, 5468-5482. -/
def frameReport (s : Bytes) : Option (FrameReport × Bytes) := do
  need s 4
  let (l, r) ← elements frameReportTlv (idx s 3) (s.drop 4)
  pure (⟨idx s 0, idx s 1, idx s 2, l⟩, r)

/-! ### Parsers of the command classes -/

/-- A command with nothing but a session identifier or token. -/
def tokenOnly (k : Nat → Command) (s : Bytes) : Option (Obj × Bytes) := do
  need s 4
  pure (.command (k (le s 0 4)), s.drop 4)

/-- `for n in range(count): E(int.from_bytes(span[n:n + 1]))` with the constructor of an enumeration,
which raises for other values than the members. -/
def members (l : List Nat) (count : Nat) (s : Bytes) : Option (List Nat) :=
  (List.range count).mapM fun n => fromInt l (le s n (n + 1))

/-- `CoreDeviceResetCmd.parse`, 1827-1834. -/
def coreDeviceResetCmd (mt oid : Nat) (s : Bytes) : Option (Obj × Bytes) := do
  forbid (mt ≠ 1 ∨ oid ≠ 0)
  need s 1
  let c ← fromInt resetConfigs (idx s 0)
  pure (.command (.coreDeviceReset c), s.drop 1)

/-- `CoreGetDeviceInfoCmd.parse`, 1911-1914. -/
def coreGetDeviceInfoCmd (mt oid : Nat) (s : Bytes) : Option (Obj × Bytes) := do
  forbid (mt ≠ 1 ∨ oid ≠ 2)
  pure (.command .coreGetDeviceInfo, s)

/-- `CoreGetCapsInfoCmd.parse`, 2001-2004. -/
def coreGetCapsInfoCmd (mt oid : Nat) (s : Bytes) : Option (Obj × Bytes) := do
  forbid (mt ≠ 1 ∨ oid ≠ 3)
  pure (.command .coreGetCapsInfo, s)

/-- `CoreSetConfigCmd.parse`, 2146-2158. -/
def coreSetConfigCmd (mt oid : Nat) (s : Bytes) : Option (Obj × Bytes) := do
  forbid (mt ≠ 1 ∨ oid ≠ 4)
  need s 1
  let (xs, r) ← elements tlv (idx s 0) (s.drop 1)
  pure (.command (.coreSetConfig xs), r)

/-- `CoreGetConfigCmd.parse`, 2255-2269. -/
def coreGetConfigCmd (mt oid : Nat) (s : Bytes) : Option (Obj × Bytes) := do
  forbid (mt ≠ 1 ∨ oid ≠ 5)
  need s 1
  let count := idx s 0
  let s := s.drop 1
  need s count
  let xs ← members configParameterIds count s
  pure (.command (.coreGetConfig xs), s.drop count)

/-- `CoreQueryTimeStampCmd.parse`, 2364-2367. -/
def coreQueryTimeStampCmd (mt oid : Nat) (s : Bytes) : Option (Obj × Bytes) := do
  forbid (mt ≠ 1 ∨ oid ≠ 8)
  pure (.command .coreQueryTimeStamp, s)

/-- `SessionInitCmd.parse`, 2423-2432. -/
def sessionInitCmd (mt oid : Nat) (s : Bytes) : Option (Obj × Bytes) := do
  forbid (mt ≠ 1 ∨ oid ≠ 0)
  need s 5
  let t ← fromInt sessionTypes (idx s 4)
  pure (.command (.sessionInit (le s 0 4) t), s.drop 5)

/-- `SessionDeinitCmd.parse`, 2520-2528. -/
def sessionDeinitCmd (mt oid : Nat) (s : Bytes) : Option (Obj × Bytes) := do
  forbid (mt ≠ 1 ∨ oid ≠ 1)
  tokenOnly .sessionDeinit s

/-- `SessionSetAppConfigCmd.parse`, 2658-2672. -/
def sessionSetAppConfigCmd (mt oid : Nat) (s : Bytes) : Option (Obj × Bytes) := do
  forbid (mt ≠ 1 ∨ oid ≠ 3)
  need s 5
  let (xs, r) ← elements tlv (idx s 4) (s.drop 5)
  pure (.command (.sessionSetAppConfig (le s 0 4) xs), r)

/-- `SessionGetAppConfigCmd.parse`, 2774-2790. -/
def sessionGetAppConfigCmd (mt oid : Nat) (s : Bytes) : Option (Obj × Bytes) := do
  forbid (mt ≠ 1 ∨ oid ≠ 4)
  need s 5
  let token := le s 0 4
  let count := idx s 4
  let s := s.drop 5
  need s count
  let xs ← members appConfigTlvTypes count s
  pure (.command (.sessionGetAppConfig token xs), s.drop count)

/-- `SessionGetCountCmd.parse`, 2861-2864. -/
def sessionGetCountCmd (mt oid : Nat) (s : Bytes) : Option (Obj × Bytes) := do
  forbid (mt ≠ 1 ∨ oid ≠ 5)
  pure (.command .sessionGetCount, s)

/-- `SessionGetStateCmd.parse`, 2918-2926. -/
def sessionGetStateCmd (mt oid : Nat) (s : Bytes) : Option (Obj × Bytes) := do
  forbid (mt ≠ 1 ∨ oid ≠ 6)
  tokenOnly .sessionGetState s

/-- `SessionUpdateDtAnchorRangingRoundsCmd.parse`, 2981-2984. -/
def sessionUpdateDtAnchorRangingRoundsCmd (mt oid : Nat) (s : Bytes) : Option (Obj × Bytes) := do
  forbid (mt ≠ 1 ∨ oid ≠ 8)
  pure (.command .sessionUpdateDtAnchorRangingRounds, s)

/-- `SessionUpdateDtTagRangingRoundsCmd.parse`, 3028-3041. -/
def sessionUpdateDtTagRangingRoundsCmd (mt oid : Nat) (s : Bytes) : Option (Obj × Bytes) := do
  forbid (mt ≠ 1 ∨ oid ≠ 9)
  need s 5
  let token := le s 0 4
  let count := idx s 4
  let s := s.drop 5
  need s count
  pure (.command (.sessionUpdateDtTagRangingRounds token (s.take count)), s.drop count)

/-- `SessionUpdateControllerMulticastListCmd.parse`, 3241-3253. -/
def sessionUpdateControllerMulticastListCmd (mt oid : Nat) (s : Bytes) : Option (Obj × Bytes) := do
  forbid (mt ≠ 1 ∨ oid ≠ 7)
  need s 5
  let a ← fromInt multicastActions (idx s 4)
  pure (.command (.sessionUpdateControllerMulticastList (le s 0 4) a (s.drop 5)), [])

/-- `SessionQueryMaxDataSizeInRangingCmd.parse`, 3578-3586. -/
def sessionQueryMaxDataSizeInRangingCmd (mt oid : Nat) (s : Bytes) : Option (Obj × Bytes) := do
  forbid (mt ≠ 1 ∨ oid ≠ 0xb)
  tokenOnly .sessionQueryMaxDataSizeInRanging s

/-- `SessionStartCmd.parse`, 3649-3657. -/
def sessionStartCmd (mt oid : Nat) (s : Bytes) : Option (Obj × Bytes) := do
  forbid (mt ≠ 1 ∨ oid ≠ 0)
  tokenOnly .sessionStart s

/-- `SessionStopCmd.parse`, 4843-4851. -/
def sessionStopCmd (mt oid : Nat) (s : Bytes) : Option (Obj × Bytes) := do
  forbid (mt ≠ 1 ∨ oid ≠ 1)
  tokenOnly .sessionStop s

/-- `SessionGetRangingCountCmd.parse`, 4903-4911. -/
def sessionGetRangingCountCmd (mt oid : Nat) (s : Bytes) : Option (Obj × Bytes) := do
  forbid (mt ≠ 1 ∨ oid ≠ 3)
  tokenOnly .sessionGetRangingCount s

/-- `AndroidGetPowerStatsCmd.parse`, 4970-4973. -/
def androidGetPowerStatsCmd (mt oid : Nat) (s : Bytes) : Option (Obj × Bytes) := do
  forbid (mt ≠ 1 ∨ oid ≠ 0)
  pure (.command .androidGetPowerStats, s)

/-- `AndroidSetCountryCodeCmd.parse`, 5074-5081. -/
def androidSetCountryCodeCmd (mt oid : Nat) (s : Bytes) : Option (Obj × Bytes) := do
  forbid (mt ≠ 1 ∨ oid ≠ 1)
  need s 2
  pure (.command (.androidSetCountryCode (s.take 2)), s.drop 2)

/-! ### Parsers of the other derived classes: message type, opcode, payload -/

/-- A class with the single field `status`. -/
def statusOnly (k : Nat → Obj) (s : Bytes) : Option (Obj × Bytes) := do
  need s 1
  pure (k (idx s 0), s.drop 1)

/-- `CoreDeviceResetRsp.parse`, 1855-1862. -/
def coreDeviceResetRsp (mt oid : Nat) (s : Bytes) : Option (Obj × Bytes) := do
  forbid (mt ≠ 2 ∨ oid ≠ 0)
  statusOnly .coreDeviceResetRsp s

/-- `CoreDeviceStatusNtf.parse`, 1883-1890. -/
def coreDeviceStatusNtf (mt oid : Nat) (s : Bytes) : Option (Obj × Bytes) := do
  forbid (mt ≠ 3 ∨ oid ≠ 1)
  need s 1
  let state ← fromInt deviceStates (idx s 0)
  pure (.coreDeviceStatusNtf state, s.drop 1)

/-- `CoreGetDeviceInfoRsp.parse`, 1939-1959. -/
def coreGetDeviceInfoRsp (mt oid : Nat) (s : Bytes) : Option (Obj × Bytes) := do
  forbid (mt ≠ 2 ∨ oid ≠ 2)
  need s 10
  let count := idx s 9
  let k := Obj.coreGetDeviceInfoRsp (idx s 0) (le s 1 3) (le s 3 5) (le s 5 7) (le s 7 9)
  let s := s.drop 10
  need s count
  pure (k (s.take count), s.drop count)

/-- A status and a counted list of elements of various sizes. -/
def statusTlvs (k : Nat → List (Nat × Bytes) → Obj) (s : Bytes) : Option (Obj × Bytes) := do
  need s 2
  let status := idx s 0
  let count := idx s 1
  let (xs, s) ← elements tlv count (s.drop 2)
  pure (k status xs, s)

/-- A status and a counted list of elements of two bytes. -/
def statusStatuses (k : Nat → List (Nat × Nat) → Obj) (s : Bytes) : Option (Obj × Bytes) := do
  need s 2
  let status := idx s 0
  let count := idx s 1
  let s := s.drop 2
  need s (count * 2)
  let xs ← records idStatus 2 count s
  pure (k status xs, s.drop (count * 2))

/-- `CoreGetCapsInfoRsp.parse`, 2061-2074. -/
def coreGetCapsInfoRsp (mt oid : Nat) (s : Bytes) : Option (Obj × Bytes) := do
  forbid (mt ≠ 2 ∨ oid ≠ 3)
  statusTlvs .coreGetCapsInfoRsp s

/-- `CoreSetConfigRsp.parse`, 2213-2228. -/
def coreSetConfigRsp (mt oid : Nat) (s : Bytes) : Option (Obj × Bytes) := do
  forbid (mt ≠ 2 ∨ oid ≠ 4)
  statusStatuses .coreSetConfigRsp s

/-- `CoreGetConfigRsp.parse`, 2296-2309. -/
def coreGetConfigRsp (mt oid : Nat) (s : Bytes) : Option (Obj × Bytes) := do
  forbid (mt ≠ 2 ∨ oid ≠ 5)
  statusTlvs .coreGetConfigRsp s

/-- `CoreGenericErrorNtf.parse`, 2336-2343. -/
def coreGenericErrorNtf (mt oid : Nat) (s : Bytes) : Option (Obj × Bytes) := do
  forbid (mt ≠ 3 ∨ oid ≠ 7)
  statusOnly .coreGenericErrorNtf s

/-- `CoreQueryTimeStampRsp.parse`, 2388-2397. -/
def coreQueryTimeStampRsp (mt oid : Nat) (s : Bytes) : Option (Obj × Bytes) := do
  forbid (mt ≠ 2 ∨ oid ≠ 8)
  need s 9
  pure (.coreQueryTimeStampRsp (idx s 0) (le s 1 9), s.drop 9)

/-- `SessionInitRsp_V2.parse`, 2458-2467. -/
def sessionInitRspV2 (mt oid : Nat) (s : Bytes) : Option (Obj × Bytes) := do
  forbid (mt ≠ 2 ∨ oid ≠ 0)
  need s 5
  pure (.sessionInitRspV2 (idx s 0) (le s 1 5), s.drop 5)

/-- `SessionInitRsp.parse`, 2492-2499. -/
def sessionInitRsp (mt oid : Nat) (s : Bytes) : Option (Obj × Bytes) := do
  forbid (mt ≠ 2 ∨ oid ≠ 0)
  statusOnly .sessionInitRsp s

/-- `SessionDeinitRsp.parse`, 2552-2559. -/
def sessionDeinitRsp (mt oid : Nat) (s : Bytes) : Option (Obj × Bytes) := do
  forbid (mt ≠ 2 ∨ oid ≠ 1)
  statusOnly .sessionDeinitRsp s

/-- `SessionStatusNtf.parse`, 2582-2592. -/
def sessionStatusNtf (mt oid : Nat) (s : Bytes) : Option (Obj × Bytes) := do
  forbid (mt ≠ 3 ∨ oid ≠ 2)
  need s 6
  let state ← fromInt sessionStates (idx s 4)
  pure (.sessionStatusNtf (le s 0 4) state (idx s 5), s.drop 6)

/-- `SessionSetAppConfigRsp.parse`, 2731-2746. -/
def sessionSetAppConfigRsp (mt oid : Nat) (s : Bytes) : Option (Obj × Bytes) := do
  forbid (mt ≠ 2 ∨ oid ≠ 3)
  statusStatuses .sessionSetAppConfigRsp s

/-- `SessionGetAppConfigRsp.parse`, 2821-2834. -/
def sessionGetAppConfigRsp (mt oid : Nat) (s : Bytes) : Option (Obj × Bytes) := do
  forbid (mt ≠ 2 ∨ oid ≠ 4)
  statusTlvs .sessionGetAppConfigRsp s

/-- `SessionGetCountRsp.parse`, 2885-2893. -/
def sessionGetCountRsp (mt oid : Nat) (s : Bytes) : Option (Obj × Bytes) := do
  forbid (mt ≠ 2 ∨ oid ≠ 5)
  need s 2
  pure (.sessionGetCountRsp (idx s 0) (idx s 1), s.drop 2)

/-- `SessionGetStateRsp.parse`, 2951-2959. -/
def sessionGetStateRsp (mt oid : Nat) (s : Bytes) : Option (Obj × Bytes) := do
  forbid (mt ≠ 2 ∨ oid ≠ 6)
  need s 2
  let state ← fromInt sessionStates (idx s 1)
  pure (.sessionGetStateRsp (idx s 0) state, s.drop 2)

/-- `SessionUpdateDtAnchorRangingRoundsRsp.parse`, 3004-3007. -/
def sessionUpdateDtAnchorRangingRoundsRsp (mt oid : Nat) (s : Bytes) : Option (Obj × Bytes) := do
  forbid (mt ≠ 2 ∨ oid ≠ 8)
  pure (.sessionUpdateDtAnchorRangingRoundsRsp, s)

/-- `SessionUpdateDtTagRangingRoundsRsp.parse`, 3071-3083. -/
def sessionUpdateDtTagRangingRoundsRsp (mt oid : Nat) (s : Bytes) : Option (Obj × Bytes) := do
  forbid (mt ≠ 2 ∨ oid ≠ 9)
  need s 2
  let status := idx s 0
  let count := idx s 1
  let s := s.drop 2
  need s count
  pure (.sessionUpdateDtTagRangingRoundsRsp status (s.take count), s.drop count)

/-- `SessionUpdateControllerMulticastListRsp.parse`, 3390-3397. -/
def sessionUpdateControllerMulticastListRsp (mt oid : Nat) (s : Bytes) : Option (Obj × Bytes) := do
  forbid (mt ≠ 2 ∨ oid ≠ 7)
  statusOnly .sessionUpdateControllerMulticastListRsp s

/-- `SessionUpdateControllerMulticastListNtf.parse`, 3450-3466. -/
def sessionUpdateControllerMulticastListNtf (mt oid : Nat) (s : Bytes) : Option (Obj × Bytes) := do
  forbid (mt ≠ 3 ∨ oid ≠ 7)
  need s 5
  let token := le s 0 4
  let count := idx s 4
  let s := s.drop 5
  need s (count * 3)
  let xs ← records controleeStatus 3 count s
  pure (.sessionUpdateControllerMulticastListNtf token xs, s.drop (count * 3))

/-- `SessionQueryMaxDataSizeInRangingRsp.parse`, 3611-3621. -/
def sessionQueryMaxDataSizeInRangingRsp (mt oid : Nat) (s : Bytes) : Option (Obj × Bytes) := do
  forbid (mt ≠ 2 ∨ oid ≠ 0xb)
  need s 6
  pure (.sessionQueryMaxDataSizeInRangingRsp (le s 0 4) (le s 4 6), s.drop 6)

/-- `SessionDataCreditNtf.parse`, 3497-3506. -/
def sessionDataCreditNtf (mt oid : Nat) (s : Bytes) : Option (Obj × Bytes) := do
  forbid (mt ≠ 3 ∨ oid ≠ 4)
  need s 5
  let credit ← fromInt creditAvailabilities (idx s 4)
  pure (.sessionDataCreditNtf (le s 0 4) credit, s.drop 5)

/-- `SessionDataTransferStatusNtf.parse`, 3534-3545. -/
def sessionDataTransferStatusNtf (mt oid : Nat) (s : Bytes) : Option (Obj × Bytes) := do
  forbid (mt ≠ 3 ∨ oid ≠ 5)
  need s 7
  let status ← fromInt dataTransferStatuses (idx s 5)
  pure (.sessionDataTransferStatusNtf (le s 0 4) (idx s 4) status (idx s 6), s.drop 7)

/-- `SessionStartRsp.parse`, 3681-3688. -/
def sessionStartRsp (mt oid : Nat) (s : Bytes) : Option (Obj × Bytes) := do
  forbid (mt ≠ 2 ∨ oid ≠ 0)
  statusOnly .sessionStartRsp s

/-- The classes derived from `SessionInfoNtf` with measurements of a fixed size: a counted list of
records of `size` bytes and the vendor data. -/
def counted {α : Type} (p : Bytes → Option (α × Bytes)) (size : Nat) (k : List α → Bytes → Obj) (s : Bytes) :
    Option (Obj × Bytes) := do
  need s 1
  let count := idx s 0
  let s := s.drop 1
  need s (count * size)
  let xs ← records p size count s
  pure (k xs (s.drop (count * size)), [])

/-- `ShortMacTwoWaySessionInfoNtf.parse`, 4570-4586. -/
def shortMacTwoWaySessionInfoNtf (type indicator : Nat) (k : List Measurement → Bytes → Obj) (s : Bytes) :
    Option (Obj × Bytes) := do
  forbid (type ≠ 1 ∨ indicator ≠ 0)
  counted measurement 31 k s

/-- `ExtendedMacTwoWaySessionInfoNtf.parse`, 4619-4635. -/
def extendedMacTwoWaySessionInfoNtf (type indicator : Nat) (k : List Measurement → Bytes → Obj) (s : Bytes) :
    Option (Obj × Bytes) := do
  forbid (type ≠ 1 ∨ indicator ≠ 1)
  counted extMeasurement 31 k s

/-- The two classes for DL-TDoA: a counted list of measurements of various sizes. -/
def dlTDoAs (w : Nat) (k : List (Nat × DlTdoa) → Obj) (s : Bytes) : Option (Obj × Bytes) := do
  need s 1
  let (xs, r) ← elements (addressedDlTdoa w) (idx s 0) (s.drop 1)
  pure (k xs, r)

/-- `ShortMacDlTDoASessionInfoNtf.parse`, 4667-4679. -/
def shortMacDlTDoASessionInfoNtf (type indicator : Nat) (k : List (Nat × DlTdoa) → Obj) (s : Bytes) :
    Option (Obj × Bytes) := do
  forbid (type ≠ 2 ∨ indicator ≠ 0)
  dlTDoAs 2 k s

/-- `ExtendedMacDlTDoASessionInfoNtf.parse`, 4707-4719. -/
def extendedMacDlTDoASessionInfoNtf (type indicator : Nat) (k : List (Nat × DlTdoa) → Obj) (s : Bytes) :
    Option (Obj × Bytes) := do
  forbid (type ≠ 2 ∨ indicator ≠ 1)
  dlTDoAs 8 k s

/-- `ShortMacOwrAoaSessionInfoNtf.parse`, 4748-4764. -/
def shortMacOwrAoaSessionInfoNtf (type indicator : Nat) (k : List OwrAoa → Bytes → Obj) (s : Bytes) :
    Option (Obj × Bytes) := do
  forbid (type ≠ 3 ∨ indicator ≠ 0)
  counted owrAoa 13 k s

/-- `ExtendedMacOwrAoaSessionInfoNtf.parse`, 4797-4813. -/
def extendedMacOwrAoaSessionInfoNtf (type indicator : Nat) (k : List OwrAoa → Bytes → Obj) (s : Bytes) :
    Option (Obj × Bytes) := do
  forbid (type ≠ 3 ∨ indicator ≠ 1)
  counted extOwrAoa 19 k s

/-- The classes tried by `SessionInfoNtf.parse`, 4484-4525, with the fields read before. -/
def infoChild (n t r i type indicator : Nat) (p : Bytes) : Option Obj :=
  firstChild [shortMacTwoWaySessionInfoNtf type indicator (.shortMacTwoWaySessionInfoNtf n t r i) p,
    extendedMacTwoWaySessionInfoNtf type indicator (.extendedMacTwoWaySessionInfoNtf n t r i) p,
    shortMacDlTDoASessionInfoNtf type indicator (.shortMacDlTDoASessionInfoNtf n t r i) p,
    extendedMacDlTDoASessionInfoNtf type indicator (.extendedMacDlTDoASessionInfoNtf n t r i) p,
    shortMacOwrAoaSessionInfoNtf type indicator (.shortMacOwrAoaSessionInfoNtf n t r i) p,
    extendedMacOwrAoaSessionInfoNtf type indicator (.extendedMacOwrAoaSessionInfoNtf n t r i) p]

/-- `SessionInfoNtf.parse`, 4465-4526. -/
def sessionInfoNtf (mt oid : Nat) (s : Bytes) : Option (Obj × Bytes) := do
  forbid (mt ≠ 3 ∨ oid ≠ 0)
  need s 24
  let type ← fromInt rangingMeasurementTypes (idx s 13)
  let indicator ← fromInt macAddressIndicators (idx s 15)
  let p := s.drop 24
  pure ((infoChild (le s 0 4) (le s 4 8) (idx s 8) (le s 9 13) type indicator p).getD
    (.sessionInfoNtf (le s 0 4) (le s 4 8) (idx s 8) (le s 9 13) type indicator p), [])

/-- `SessionStopRsp.parse`, 4875-4882. -/
def sessionStopRsp (mt oid : Nat) (s : Bytes) : Option (Obj × Bytes) := do
  forbid (mt ≠ 2 ∨ oid ≠ 1)
  statusOnly .sessionStopRsp s

/-- `SessionGetRangingCountRsp.parse`, 4936-4945. -/
def sessionGetRangingCountRsp (mt oid : Nat) (s : Bytes) : Option (Obj × Bytes) := do
  forbid (mt ≠ 2 ∨ oid ≠ 3)
  need s 5
  pure (.sessionGetRangingCountRsp (idx s 0) (le s 1 5), s.drop 5)

/-- `AndroidGetPowerStatsRsp.parse`, 5046-5053, with `PowerStats.parse`, 4995-5009. -/
def androidGetPowerStatsRsp (mt oid : Nat) (s : Bytes) : Option (Obj × Bytes) := do
  forbid (mt ≠ 2 ∨ oid ≠ 0)
  need s 17
  pure (.androidGetPowerStatsRsp (idx s 0) (le s 1 5) (le s 5 9) (le s 9 13) (le s 13 17), s.drop 17)

/-- `AndroidSetCountryCodeRsp.parse`, 5102-5109. -/
def androidSetCountryCodeRsp (mt oid : Nat) (s : Bytes) : Option (Obj × Bytes) := do
  forbid (mt ≠ 2 ∨ oid ≠ 1)
  statusOnly .androidSetCountryCodeRsp s

/-- `AndroidRangeDiagnosticsNtf.parse`, 5522-5538. -/
def androidRangeDiagnosticsNtf (mt oid : Nat) (s : Bytes) : Option (Obj × Bytes) := do
  forbid (mt ≠ 3 ∨ oid ≠ 2)
  need s 9
  let (xs, r) ← elements frameReport (idx s 8) (s.drop 9)
  pure (.androidRangeDiagnosticsNtf (le s 0 4) (le s 4 8) xs, r)

/-! ### Parsers of the groups -/

/-- The head of `CorePacket.parse` and of its three siblings: the opcode and the payload. -/
def opcode (members : List Nat) (s : Bytes) : Option (Nat × Bytes) := do
  need s 3
  let oid ← fromInt members (idx s 0 &&& 0x3f)
  pure (oid, s.drop 3)

/-- The classes tried by `CorePacket.parse`, in their order. -/
def coreChild (mt oid : Nat) (p : Bytes) : Option Obj :=
  firstChild [coreDeviceResetCmd mt oid p, coreDeviceResetRsp mt oid p, coreDeviceStatusNtf mt oid p,
    coreGetDeviceInfoCmd mt oid p, coreGetDeviceInfoRsp mt oid p, coreGetCapsInfoCmd mt oid p,
    coreGetCapsInfoRsp mt oid p, coreSetConfigCmd mt oid p, coreSetConfigRsp mt oid p,
    coreGetConfigCmd mt oid p, coreGetConfigRsp mt oid p, coreGenericErrorNtf mt oid p,
    coreQueryTimeStampCmd mt oid p, coreQueryTimeStampRsp mt oid p]

/-- `CorePacket.parse`, 1340-1449. -/
def corePacket (gid mt : Nat) (s : Bytes) : Option (Obj × Bytes) := do
  forbid (gid ≠ 0)
  let (oid, p) ← opcode coreOpcodes s
  pure ((coreChild mt oid p).getD (.corePacket mt oid p), [])

/-- The classes tried by `SessionConfigPacket.parse`, in their order. -/
def sessionConfigChild (mt oid : Nat) (p : Bytes) : Option Obj :=
  firstChild [sessionInitCmd mt oid p, sessionInitRspV2 mt oid p, sessionInitRsp mt oid p, sessionDeinitCmd mt oid p,
    sessionDeinitRsp mt oid p, sessionStatusNtf mt oid p, sessionSetAppConfigCmd mt oid p,
    sessionSetAppConfigRsp mt oid p, sessionGetAppConfigCmd mt oid p, sessionGetAppConfigRsp mt oid p,
    sessionGetCountCmd mt oid p, sessionGetCountRsp mt oid p, sessionGetStateCmd mt oid p,
    sessionGetStateRsp mt oid p, sessionUpdateDtAnchorRangingRoundsCmd mt oid p,
    sessionUpdateDtAnchorRangingRoundsRsp mt oid p, sessionUpdateDtTagRangingRoundsCmd mt oid p,
    sessionUpdateDtTagRangingRoundsRsp mt oid p, sessionUpdateControllerMulticastListCmd mt oid p,
    sessionUpdateControllerMulticastListRsp mt oid p, sessionUpdateControllerMulticastListNtf mt oid p,
    sessionQueryMaxDataSizeInRangingCmd mt oid p, sessionQueryMaxDataSizeInRangingRsp mt oid p]

/-- `SessionConfigPacket.parse`, 1470-1642. -/
def sessionConfigPacket (gid mt : Nat) (s : Bytes) : Option (Obj × Bytes) := do
  forbid (gid ≠ 1)
  let (oid, p) ← opcode sessionConfigOpcodes s
  pure ((sessionConfigChild mt oid p).getD (.sessionConfigPacket mt oid p), [])

/-- The classes tried by `SessionControlPacket.parse`, in their order. -/
def sessionControlChild (mt oid : Nat) (p : Bytes) : Option Obj :=
  firstChild [sessionDataCreditNtf mt oid p, sessionDataTransferStatusNtf mt oid p, sessionStartCmd mt oid p,
    sessionStartRsp mt oid p, sessionInfoNtf mt oid p, sessionStopCmd mt oid p, sessionStopRsp mt oid p,
    sessionGetRangingCountCmd mt oid p, sessionGetRangingCountRsp mt oid p]

/-- `SessionControlPacket.parse`, 1663-1737. -/
def sessionControlPacket (gid mt : Nat) (s : Bytes) : Option (Obj × Bytes) := do
  forbid (gid ≠ 2)
  let (oid, p) ← opcode sessionControlOpcodes s
  pure ((sessionControlChild mt oid p).getD (.sessionControlPacket mt oid p), [])

/-- The classes tried by `AndroidPacket.parse`, in their order. -/
def androidChild (mt oid : Nat) (p : Bytes) : Option Obj :=
  firstChild [androidGetPowerStatsCmd mt oid p, androidGetPowerStatsRsp mt oid p, androidSetCountryCodeCmd mt oid p,
    androidSetCountryCodeRsp mt oid p, androidRangeDiagnosticsNtf mt oid p]

/-- `AndroidPacket.parse`, 1758-1804. -/
def androidPacket (gid mt : Nat) (s : Bytes) : Option (Obj × Bytes) := do
  forbid (gid ≠ 0xc)
  let (oid, p) ← opcode androidOpcodes s
  pure ((androidChild mt oid p).getD (.androidPacket mt oid p), [])

/-- `ControlPacket.parse_all`, 1112-1150 and 15-19. -/
def parseControl (s : Bytes) : Option Obj := do
  need s 1
  let gid ← fromInt groupIds (idx s 0 &&& 0xf)
  let mt ← fromInt messageTypes ((idx s 0 >>> 5) &&& 0x7)
  let p := s.drop 1
  pure ((firstChild [corePacket gid mt p, sessionConfigPacket gid mt p, sessionControlPacket gid mt p,
    androidPacket gid mt p]).getD (.controlPacket gid mt p))

/-- `DataMessageSnd.parse`, 1233-1251. -/
def dataMessageSnd (dpf pbf mt : Nat) (s : Bytes) : Option (Obj × Bytes) := do
  forbid (dpf ≠ 1 ∨ mt ≠ 0)
  need s 16
  let size := le s 14 16
  let k := Obj.dataMessageSnd pbf (le s 0 4) (le s 4 12) (le s 12 14)
  let s := s.drop 16
  need s size
  pure (k (s.take size), s.drop size)

/-- `DataMessageRcv.parse`, 1288-1307. -/
def dataMessageRcv (dpf pbf mt : Nat) (s : Bytes) : Option (Obj × Bytes) := do
  forbid (dpf ≠ 2 ∨ mt ≠ 0)
  need s 17
  let size := le s 15 17
  let k := Obj.dataMessageRcv pbf (le s 0 4) (idx s 4) (le s 5 13) (le s 13 15)
  let s := s.drop 17
  need s size
  pure (k (s.take size), s.drop size)

/-- `DataPacket.parse_all`, 1176-1202 and 15-19. -/
def parseData (s : Bytes) : Option Obj := do
  need s 4
  let dpf ← fromInt dataPacketFormats (idx s 0 &&& 0xf)
  let pbf ← fromInt pbfs ((idx s 0 >>> 4) &&& 0x1)
  let mt ← fromInt messageTypes ((idx s 0 >>> 5) &&& 0x7)
  let p := s.drop 4
  pure ((firstChild [dataMessageSnd dpf pbf mt p, dataMessageRcv dpf pbf mt p]).getD (.dataPacket dpf pbf mt p))

/-! ### Serialisers -/

/-- `_span.append(v)`: raises `ValueError` above 255. -/
def byte (v : Nat) : Option Bytes := if v < 256 then some [UInt8.ofNat v] else none

/-- `if v > max: v &= max` and `int.to_bytes(v, length=k, byteorder='little')`. -/
def int (k v : Nat) : Bytes := leBytes k (if 256 ^ k - 1 < v then v &&& (256 ^ k - 1) else v)

/-- `if len(l) > 255: del l[255:]`, then the number of elements and the elements. -/
def list {α : Type} (f : α → Option Bytes) (l : List α) : Option Bytes := do
  let l := l.take 255
  let n ← byte l.length
  let xs ← l.mapM f
  pure (n ++ xs.flatten)

/-- `ConfigParameter.serialize`, 2125-2130: the length is not limited. -/
def configParameter (p : Nat × Bytes) : Option Bytes := do
  let id ← byte p.1
  let n ← byte p.2.length
  pure (id ++ n ++ p.2)

/-- `AppConfigTlv.serialize`, 2633-2641. -/
def appConfigTlv (p : Nat × Bytes) : Option Bytes := do
  let id ← byte p.1
  let v := p.2.take 255
  let n ← byte v.length
  pure (id ++ n ++ v)

/-- `Controlee.serialize`, 3121-3128, and `Controlee_V2_0_16_Byte_Version.serialize`, 3161-3169,
`Controlee_V2_0_32_Byte_Version.serialize`, 3202-3210: address, subsession, key (none in the first). -/
def controlee (c : Bytes × Nat × Bytes) : Option Bytes := some (c.1 ++ int 4 c.2.1 ++ c.2.2)

/-- `SessionUpdateControllerMulticastListCmdPayload.serialize`, 3292-3300, and its variants with keys,
3329-3337, 3366-3374. -/
def controlees (l : List (Bytes × Nat × Bytes)) : Option Bytes := list controlee l

/-- `gid` and `oid` as the `__post_init__` of the classes set them. -/
def Command.code : Command → Nat × Nat
  | coreDeviceReset _ => (0, 0)
  | coreGetDeviceInfo => (0, 2)
  | coreGetCapsInfo => (0, 3)
  | coreSetConfig _ => (0, 4)
  | coreGetConfig _ => (0, 5)
  | coreQueryTimeStamp => (0, 8)
  | sessionInit .. => (1, 0)
  | sessionDeinit _ => (1, 1)
  | sessionSetAppConfig .. => (1, 3)
  | sessionGetAppConfig .. => (1, 4)
  | sessionGetCount => (1, 5)
  | sessionGetState _ => (1, 6)
  | sessionUpdateDtAnchorRangingRounds => (1, 8)
  | sessionUpdateDtTagRangingRounds .. => (1, 9)
  | sessionUpdateControllerMulticastList .. => (1, 7)
  | sessionQueryMaxDataSizeInRanging _ => (1, 0xb)
  | sessionStart _ => (2, 0)
  | sessionStop _ => (2, 1)
  | sessionGetRangingCount _ => (2, 3)
  | androidGetPowerStats => (0xc, 0)
  | androidSetCountryCode _ => (0xc, 1)

/-- The part of `serialize` written in the class of the command: `CoreDeviceResetCmd` 1836-1839,
`CoreGetDeviceInfoCmd` 1916-1918, `CoreGetCapsInfoCmd` 2006-2008, `CoreSetConfigCmd` 2160-2168,
`CoreGetConfigCmd` 2271-2279, `CoreQueryTimeStampCmd` 2369-2371, `SessionInitCmd` 2434-2441, `SessionDeinitCmd` 2530-2536,
`SessionSetAppConfigCmd` 2674-2686, `SessionGetAppConfigCmd` 2792-2804, `SessionGetCountCmd`
2866-2868, `SessionGetStateCmd` 2928-2934, `SessionUpdateDtAnchorRangingRoundsCmd` 2986-2988,
`SessionUpdateDtTagRangingRoundsCmd` 3043-3054, `SessionUpdateControllerMulticastListCmd` 3255-3263,
`SessionQueryMaxDataSizeInRangingCmd` 3588-3594,
`SessionStartCmd` 3659-3665, `SessionStopCmd` 4853-4859, `SessionGetRangingCountCmd` 4913-4919,
`AndroidGetPowerStatsCmd` 4975-4977, `AndroidSetCountryCodeCmd` 5083-5086. -/
def Command.body : Command → Option Bytes
  | coreDeviceReset c => byte c
  | coreGetDeviceInfo | coreGetCapsInfo | coreQueryTimeStamp | sessionGetCount | sessionUpdateDtAnchorRangingRounds
  | androidGetPowerStats => some []
  | coreSetConfig ps => list configParameter ps
  | coreGetConfig ids => list byte ids
  | sessionInit id ty => do
    let ty ← byte ty
    pure (int 4 id ++ ty)
  | sessionDeinit t | sessionGetState t | sessionQueryMaxDataSizeInRanging t | sessionStart t | sessionStop t
  | sessionGetRangingCount t => some (int 4 t)
  | sessionSetAppConfig t tlvs => do
    let l ← list appConfigTlv tlvs
    pure (int 4 t ++ l)
  | sessionGetAppConfig t ids => do
    let l ← list byte ids
    pure (int 4 t ++ l)
  | sessionUpdateDtTagRangingRounds t v => do
    let v := v.take 255
    let n ← byte v.length
    pure (int 4 t ++ n ++ v)
  | sessionUpdateControllerMulticastList t a p => do
    let a ← byte a
    pure (int 4 t ++ a ++ p)
  | androidSetCountryCode c => some c

/-- `serialize` of a command: the class, its group (`CorePacket` 1451-1456 and siblings) and
`ControlPacket` 1152-1160, with `mt = MessageType.COMMAND`. -/
def Command.serialize (c : Command) : Option Bytes := do
  let p ← c.body
  let oid ← byte c.code.2
  let h ← byte (c.code.1 ||| (1 <<< 5))
  pure (h ++ (oid ++ [0, 0] ++ p))

/-- `DataMessageSnd.serialize`, 1253-1269, and `DataPacket.serialize`, 1204-1215, of an object with
the boundary flag `pbf`: `int.to_bytes` raises `OverflowError` for more than 65535 bytes of data. -/
def serializeData (pbf sessionHandle destinationAddress dataSequenceNumber : Nat) (applicationData : Bytes) : Option Bytes :=
  if 65535 < applicationData.length then none
  else some ([UInt8.ofNat (1 ||| (pbf <<< 4) ||| (0 <<< 5)), 0, 0, 0] ++ (int 4 sessionHandle ++ int 8 destinationAddress
    ++ int 2 dataSequenceNumber ++ leBytes 2 applicationData.length ++ applicationData))

end Pica.Py
