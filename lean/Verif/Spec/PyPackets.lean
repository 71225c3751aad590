import Verif.Model.PyPackets
/-!
When a parser and a serialiser of `uci.py` belong together, and the objects that can be written: the ranges of their fields.
-/

namespace Pica.Spec
open Py (Obj Command OwrAoa RelativeLocation DlTdoa FrameReport)

/-- The serialiser `f` and the parser `p` of a structure agree on the values `F`: what is written is read back, whatever comes
after it, and what is read is such a value and is written with as many bytes as were read. -/
def PyCodec {α : Type} (p : Bytes → Option (α × Bytes)) (f : α → Option Bytes) (F : α → Prop) : Prop :=
  (∀ x, F x → ∃ b, f x = some b ∧ ∀ r, p (b ++ r) = some (x, r)) ∧
  (∀ s x r, p s = some (x, r) → F x ∧ ∃ b, f x = some b ∧ b.length + r.length = s.length)

/-- A list with at most 255 elements, each of them in range. -/
def Listed {α : Type} (F : α → Prop) (l : List α) : Prop := l.length ≤ 255 ∧ ∀ x ∈ l, F x

/-- An identifier and a value of at most 255 bytes. -/
def TlvFits (p : Nat × Bytes) : Prop := p.1 < 2 ^ 8 ∧ p.2.length ≤ 255

/-- An identifier and a status. -/
def PairFits (p : Nat × Nat) : Prop := p.1 < 2 ^ 8 ∧ p.2 < 2 ^ 8

/-- An address of two bytes and a status of a multicast update. -/
def ControleeStatusFits (p : Bytes × Nat) : Prop := p.1.length = 2 ∧ p.2 ∈ Py.multicastStatuses

/-- A measurement with an address of so many bits. -/
def MeasurementFits (address : Nat) (m : Py.Measurement) : Prop :=
  m.macAddress < 2 ^ address ∧ m.status < 2 ^ 8 ∧ m.nlos < 2 ^ 8 ∧ m.distance < 2 ^ 16 ∧ m.aoaAzimuth < 2 ^ 16 ∧
  m.aoaAzimuthFom < 2 ^ 8 ∧ m.aoaElevation < 2 ^ 16 ∧ m.aoaElevationFom < 2 ^ 8 ∧ m.aoaDestinationAzimuth < 2 ^ 16 ∧
  m.aoaDestinationAzimuthFom < 2 ^ 8 ∧ m.aoaDestinationElevation < 2 ^ 16 ∧ m.aoaDestinationElevationFom < 2 ^ 8 ∧
  m.slotIndex < 2 ^ 8 ∧ m.rssi < 2 ^ 8

/-- A one way measurement. -/
def OwrAoaFits (address : Nat) (m : OwrAoa) : Prop :=
  m.macAddress < 2 ^ address ∧ m.status < 2 ^ 8 ∧ m.nlos < 2 ^ 8 ∧ m.frameSequenceNumber < 2 ^ 8 ∧ m.blockIndex < 2 ^ 16 ∧
  m.aoaAzimuth < 2 ^ 16 ∧ m.aoaAzimuthFom < 2 ^ 8 ∧ m.aoaElevation < 2 ^ 16 ∧ m.aoaElevationFom < 2 ^ 8

/-- A location. -/
def RelativeFits (l : RelativeLocation) : Prop := l.x < 2 ^ 28 ∧ l.y < 2 ^ 28 ∧ l.z < 2 ^ 24

/-- Exactly one of the two time stamps, of 40 or of 64 bits. -/
def StampFits (short long : Option Nat) : Prop :=
  (∃ v, short = some v ∧ v < 2 ^ 40 ∧ long = none) ∨ (∃ v, long = some v ∧ v < 2 ^ 64 ∧ short = none)

/-- A DL-TDoA measurement. -/
def DlTdoaFits (m : DlTdoa) : Prop :=
  m.status < 2 ^ 8 ∧ m.messageType < 2 ^ 8 ∧ m.txTimestampType < 2 ∧ m.blockIndex < 2 ^ 16 ∧ m.roundIndex < 2 ^ 8 ∧
  m.nlos < 2 ^ 8 ∧ m.aoaAzimuth < 2 ^ 16 ∧ m.aoaAzimuthFom < 2 ^ 8 ∧ m.aoaElevation < 2 ^ 16 ∧ m.aoaElevationFom < 2 ^ 8 ∧
  m.rssi < 2 ^ 8 ∧ StampFits m.txTimestamp40 m.txTimestamp64 ∧ StampFits m.rxTimestamp40 m.rxTimestamp64 ∧
  m.anchorCfo < 2 ^ 16 ∧ m.cfo < 2 ^ 16 ∧ m.initiatorReplyTime < 2 ^ 32 ∧ m.responderReplyTime < 2 ^ 32 ∧
  m.initiatorResponderTof < 2 ^ 16 ∧ m.wgs84Location.length ≤ 1 ∧ (∀ w ∈ m.wgs84Location, w.length = 12) ∧
  m.relativeLocation.length ≤ 1 ∧ (∀ l ∈ m.relativeLocation, RelativeFits l) ∧ m.activeRangingRounds.length ≤ 15

/-- The same with an address. -/
def AddressedFits (address : Nat) (m : Nat × DlTdoa) : Prop := m.1 < 2 ^ address ∧ DlTdoaFits m.2

/-- An element of a frame report. -/
def FrameReportTlvFits (p : Nat × Bytes) : Prop := p.1 ∈ Py.frameReportTlvTypes ∧ p.2.length < 2 ^ 16

/-- A frame report. -/
def FrameReportFits (r : FrameReport) : Prop :=
  r.uwbMsgId < 2 ^ 8 ∧ r.action < 2 ^ 8 ∧ r.antennaSet < 2 ^ 8 ∧ Listed FrameReportTlvFits r.frameReportTlvs

/-- The fields that all session notifications have. -/
def InfoFits (n t r i : Nat) : Prop := n < 2 ^ 32 ∧ t < 2 ^ 32 ∧ r < 2 ^ 8 ∧ i < 2 ^ 32

/-- The commands with all fields in range. The identifiers asked for must be listed in the enumeration. -/
def CommandFits : Command → Prop
  | .coreDeviceReset c => c ∈ Py.resetConfigs
  | .coreGetDeviceInfo | .coreGetCapsInfo | .coreQueryTimeStamp | .sessionGetCount | .sessionUpdateDtAnchorRangingRounds
  | .androidGetPowerStats => True
  | .coreSetConfig l => Listed TlvFits l
  | .coreGetConfig l => Listed (· ∈ Py.configParameterIds) l
  | .sessionInit t s => t < 2 ^ 32 ∧ s ∈ Py.sessionTypes
  | .sessionDeinit t | .sessionGetState t | .sessionQueryMaxDataSizeInRanging t | .sessionStart t | .sessionStop t
  | .sessionGetRangingCount t => t < 2 ^ 32
  | .sessionSetAppConfig t l => t < 2 ^ 32 ∧ Listed TlvFits l
  | .sessionGetAppConfig t l => t < 2 ^ 32 ∧ Listed (· ∈ Py.appConfigTlvTypes) l
  | .sessionUpdateDtTagRangingRounds t v => t < 2 ^ 32 ∧ v.length ≤ 255
  | .sessionUpdateControllerMulticastList t a _ => t < 2 ^ 32 ∧ a ∈ Py.multicastActions
  | .androidSetCountryCode c => c.length = 2

/-- The objects of the classes of messages with all fields in range. The bare packets are not among them. -/
def ObjFits : Obj → Prop
  | .command c => CommandFits c
  | .controlPacket .. | .corePacket .. | .sessionConfigPacket .. | .sessionControlPacket .. | .androidPacket ..
  | .sessionInfoNtf .. | .dataPacket .. => False
  | .coreDeviceResetRsp s | .coreGenericErrorNtf s | .sessionInitRsp s | .sessionDeinitRsp s
  | .sessionUpdateControllerMulticastListRsp s | .sessionStartRsp s | .sessionStopRsp s | .androidSetCountryCodeRsp s =>
    s < 2 ^ 8
  | .coreDeviceStatusNtf s => s ∈ Py.deviceStates
  | .coreGetDeviceInfoRsp s a b c d v =>
    s < 2 ^ 8 ∧ a < 2 ^ 16 ∧ b < 2 ^ 16 ∧ c < 2 ^ 16 ∧ d < 2 ^ 16 ∧ v.length ≤ 255
  | .coreGetCapsInfoRsp s l | .sessionGetAppConfigRsp s l | .coreGetConfigRsp s l => s < 2 ^ 8 ∧ Listed TlvFits l
  | .coreSetConfigRsp s l | .sessionSetAppConfigRsp s l => s < 2 ^ 8 ∧ Listed PairFits l
  | .coreQueryTimeStampRsp s t => s < 2 ^ 8 ∧ t < 2 ^ 64
  | .sessionInitRspV2 s n | .sessionGetRangingCountRsp s n => s < 2 ^ 8 ∧ n < 2 ^ 32
  | .sessionStatusNtf t s r => t < 2 ^ 32 ∧ s ∈ Py.sessionStates ∧ r < 2 ^ 8
  | .sessionGetCountRsp s n => s < 2 ^ 8 ∧ n < 2 ^ 8
  | .sessionGetStateRsp s t => s < 2 ^ 8 ∧ t ∈ Py.sessionStates
  | .sessionUpdateDtAnchorRangingRoundsRsp => True
  | .sessionUpdateDtTagRangingRoundsRsp s v => s < 2 ^ 8 ∧ v.length ≤ 255
  | .sessionUpdateControllerMulticastListNtf t l => t < 2 ^ 32 ∧ Listed ControleeStatusFits l
  | .sessionQueryMaxDataSizeInRangingRsp t n => t < 2 ^ 32 ∧ n < 2 ^ 16
  | .sessionDataCreditNtf t c => t < 2 ^ 32 ∧ c ∈ Py.creditAvailabilities
  | .sessionDataTransferStatusNtf t n s c => t < 2 ^ 32 ∧ n < 2 ^ 8 ∧ s ∈ Py.dataTransferStatuses ∧ c < 2 ^ 8
  | .shortMacTwoWaySessionInfoNtf n t r i l _ => InfoFits n t r i ∧ Listed (MeasurementFits 16) l
  | .extendedMacTwoWaySessionInfoNtf n t r i l _ => InfoFits n t r i ∧ Listed (MeasurementFits 64) l
  | .shortMacDlTDoASessionInfoNtf n t r i l => InfoFits n t r i ∧ Listed (AddressedFits 16) l
  | .extendedMacDlTDoASessionInfoNtf n t r i l => InfoFits n t r i ∧ Listed (AddressedFits 64) l
  | .shortMacOwrAoaSessionInfoNtf n t r i l _ => InfoFits n t r i ∧ Listed (OwrAoaFits 16) l
  | .extendedMacOwrAoaSessionInfoNtf n t r i l _ => InfoFits n t r i ∧ Listed (OwrAoaFits 64) l
  | .androidGetPowerStatsRsp s a b c d => s < 2 ^ 8 ∧ a < 2 ^ 32 ∧ b < 2 ^ 32 ∧ c < 2 ^ 32 ∧ d < 2 ^ 32
  | .androidRangeDiagnosticsNtf t n l => t < 2 ^ 32 ∧ n < 2 ^ 32 ∧ Listed FrameReportFits l
  | .dataMessageSnd p h d n v => p ≤ 1 ∧ h < 2 ^ 32 ∧ d < 2 ^ 64 ∧ n < 2 ^ 16 ∧ v.length < 2 ^ 16
  | .dataMessageRcv p h s a n v => p ≤ 1 ∧ h < 2 ^ 32 ∧ s < 2 ^ 8 ∧ a < 2 ^ 64 ∧ n < 2 ^ 16 ∧ v.length < 2 ^ 16

/-- The same, the identifiers asked for being any byte: the packet description has ranges of them without a name
(`src/uci_packets.pdl` 241-264). -/
def FitsOpen (o : Obj) : Prop :=
  ObjFits o ∨ (∃ l, o = .command (.coreGetConfig l) ∧ Listed (· < 2 ^ 8) l) ∨
    (∃ t l, o = .command (.sessionGetAppConfig t l) ∧ t < 2 ^ 32 ∧ Listed (· < 2 ^ 8) l)

/-- A packet of a class that is there for derived classes only, with a payload that none of them takes. -/
def Bare : Obj → Prop
  | .controlPacket .. | .corePacket .. | .sessionConfigPacket .. | .sessionControlPacket .. | .androidPacket ..
  | .sessionInfoNtf .. | .dataPacket .. => True
  | _ => False

/-- An object of a class derived from `DataPacket`. -/
def IsData : Obj → Prop
  | .dataPacket .. | .dataMessageSnd .. | .dataMessageRcv .. => True
  | _ => False

/-- Bytes are read as an object, by the class it is derived from. -/
def ReadAs (b : Bytes) (o : Obj) : Prop := (IsData o ∧ Py.parseData b = some o) ∨ (¬ IsData o ∧ Py.parseControl b = some o)

end Pica.Spec
