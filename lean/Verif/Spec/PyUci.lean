import Verif.Model.PyUci
import Verif.Spec.Wire
/-!
The objects of the Python host that stand for the messages of the UCI: the class of the same name, with the same fields as
numbers. The Python class of the response to a multicast list update has no list of controlees.
-/

namespace Pica.Spec
open Py (Obj)

/-- The bytes of a control message with any values in the unused bits. -/
def IsControl (mt : Nat) (code : UInt8 × UInt8) (payload b : Bytes) : Prop :=
  ∃ b₀ b₁ r₂ r₃ : UInt8, b = b₀ :: b₁ :: r₂ :: r₃ :: payload ∧
    b₀.toNat / 32 = mt ∧ b₀.toNat % 16 = code.1.toNat ∧ b₁.toNat % 64 = code.2.toNat

/-- The object for a response. -/
def pyRsp : Rsp → Obj
  | .coreDeviceReset s => .coreDeviceResetRsp s.code.toNat
  | .coreGetDeviceInfo s a b c d v => .coreGetDeviceInfoRsp s.code.toNat a.toNat b.toNat c.toNat d.toNat v
  | .coreGetCapsInfo s t => .coreGetCapsInfoRsp s.code.toNat (t.map fun x => (x.t.code.toNat, x.v))
  | .coreSetConfig s p => .coreSetConfigRsp s.code.toNat (p.map fun x => (x.id.code.toNat, x.status.code.toNat))
  | .coreGetConfig s p => .coreGetConfigRsp s.code.toNat (p.map fun x => (x.id.code.toNat, x.value))
  | .sessionInit s => .sessionInitRsp s.code.toNat
  | .sessionDeinit s => .sessionDeinitRsp s.code.toNat
  | .sessionGetCount s n => .sessionGetCountRsp s.code.toNat n.toNat
  | .sessionSetAppConfig s c =>
    .sessionSetAppConfigRsp s.code.toNat (c.map fun x => (x.cfgId.code.toNat, x.status.code.toNat))
  | .sessionGetAppConfig s t => .sessionGetAppConfigRsp s.code.toNat (t.map fun x => (x.cfgId.code.toNat, x.v))
  | .sessionGetState s t => .sessionGetStateRsp s.code.toNat t.code.toNat
  | .sessionUpdateMulticast s _ => .sessionUpdateControllerMulticastListRsp s.code.toNat
  | .sessionStart s => .sessionStartRsp s.code.toNat
  | .sessionStop s => .sessionStopRsp s.code.toNat
  | .sessionGetRangingCount s n => .sessionGetRangingCountRsp s.code.toNat n.toNat
  | .androidGetPowerStats s => .androidGetPowerStatsRsp s.status.code.toNat s.idleTimeMs.toNat s.txTimeMs.toNat
      s.rxTimeMs.toNat s.totalWakeCount.toNat
  | .androidSetCountryCode s => .androidSetCountryCodeRsp s.code.toNat

/-- The response to a multicast list update. -/
def IsMulticastRsp : Rsp → Prop
  | .sessionUpdateMulticast .. => True
  | _ => False

instance (r : Rsp) : Decidable (IsMulticastRsp r) := by cases r <;> (unfold IsMulticastRsp; infer_instance)

/-- A measurement. -/
def pyMeasurement (m : Measurement) : Py.Measurement where
  macAddress := m.macAddress.toNat
  status := m.status.code.toNat
  nlos := m.nlos.toNat
  distance := m.distance.toNat
  aoaAzimuth := m.aoaAzimuth.toNat
  aoaAzimuthFom := m.aoaAzimuthFom.toNat
  aoaElevation := m.aoaElevation.toNat
  aoaElevationFom := m.aoaElevationFom.toNat
  aoaDestinationAzimuth := m.aoaDestinationAzimuth.toNat
  aoaDestinationAzimuthFom := m.aoaDestinationAzimuthFom.toNat
  aoaDestinationElevation := m.aoaDestinationElevation.toNat
  aoaDestinationElevationFom := m.aoaDestinationElevationFom.toNat
  slotIndex := m.slotIndex.toNat
  rssi := m.rssi.toNat

/-- The object for a notification. -/
def pyNtf : Ntf → Obj
  | .coreDeviceStatus s => .coreDeviceStatusNtf s.code.toNat
  | .sessionStatus t s r => .sessionStatusNtf t.toNat s.code.toNat r.toNat
  | .sessionUpdateMulticast t c =>
    .sessionUpdateControllerMulticastListNtf t.toNat (c.map fun x => (x.macAddress.1, x.status.code.toNat))
  | .sessionDataCredit t a => .sessionDataCreditNtf t.toNat a.code.toNat
  | .sessionDataTransferStatus t n s c => .sessionDataTransferStatusNtf t.toNat n.toNat s.code.toNat c.toNat
  | .sessionInfo n t r i m v =>
    .shortMacTwoWaySessionInfoNtf n.toNat t.toNat r.toNat i.toNat (m.map pyMeasurement) v

/-- The object for a data message with a boundary flag. -/
def pyData (pbf : Nat) (d : DataMessageRcv) : Obj :=
  .dataMessageRcv pbf d.sessionHandle.toNat d.status.code.toNat d.sourceAddress.toNat d.dataSequenceNumber.toNat
    d.applicationData

/-- The object for a command. -/
def pyCmd : Cmd → Py.Command
  | .coreDeviceReset c => .coreDeviceReset c.code.toNat
  | .coreGetDeviceInfo => .coreGetDeviceInfo
  | .coreGetCapsInfo => .coreGetCapsInfo
  | .coreSetConfig ps => .coreSetConfig (ps.map fun p => (p.id.code.toNat, p.value))
  | .coreGetConfig ids => .coreGetConfig (ids.map fun i => i.code.toNat)
  | .sessionInit id ty => .sessionInit id.toNat ty.code.toNat
  | .sessionDeinit t => .sessionDeinit t.toNat
  | .sessionGetCount => .sessionGetCount
  | .sessionSetAppConfig t l => .sessionSetAppConfig t.toNat (l.map fun p => (p.cfgId.code.toNat, p.v))
  | .sessionGetAppConfig t l => .sessionGetAppConfig t.toNat (l.map fun i => i.code.toNat)
  | .sessionGetState t => .sessionGetState t.toNat
  | .sessionUpdateMulticast t a p => .sessionUpdateControllerMulticastList t.toNat a.code.toNat p
  | .sessionStart t => .sessionStart t.toNat
  | .sessionStop t => .sessionStop t.toNat
  | .sessionGetRangingCount t => .sessionGetRangingCount t.toNat
  | .androidGetPowerStats => .androidGetPowerStats
  | .androidSetCountryCode c => .androidSetCountryCode c.1

/-- What is left of an object when it is serialised: integers of four bytes modulo 2³², lists of at most 255 elements, values of
parameters of a session of at most 255 bytes. -/
def pyCut : Py.Command → Py.Command
  | .coreSetConfig ps => .coreSetConfig (ps.take 255)
  | .coreGetConfig ids => .coreGetConfig (ids.take 255)
  | .sessionInit id ty => .sessionInit (id % 2 ^ 32) ty
  | .sessionDeinit t => .sessionDeinit (t % 2 ^ 32)
  | .sessionSetAppConfig t l => .sessionSetAppConfig (t % 2 ^ 32) ((l.take 255).map fun p => (p.1, p.2.take 255))
  | .sessionGetAppConfig t l => .sessionGetAppConfig (t % 2 ^ 32) (l.take 255)
  | .sessionGetState t => .sessionGetState (t % 2 ^ 32)
  | .sessionUpdateDtTagRangingRounds t v => .sessionUpdateDtTagRangingRounds (t % 2 ^ 32) (v.take 255)
  | .sessionUpdateControllerMulticastList t a p => .sessionUpdateControllerMulticastList (t % 2 ^ 32) a p
  | .sessionQueryMaxDataSizeInRanging t => .sessionQueryMaxDataSizeInRanging (t % 2 ^ 32)
  | .sessionStart t => .sessionStart (t % 2 ^ 32)
  | .sessionStop t => .sessionStop (t % 2 ^ 32)
  | .sessionGetRangingCount t => .sessionGetRangingCount (t % 2 ^ 32)
  | o => o

/-- The fields of one byte, among what is left, are in range. -/
def PyFits : Py.Command → Prop
  | .coreDeviceReset c => c < 256
  | .coreSetConfig ps => ∀ p ∈ ps.take 255, p.1 < 256 ∧ p.2.length < 256
  | .coreGetConfig ids => ∀ i ∈ ids.take 255, i < 256
  | .sessionInit _ ty => ty < 256
  | .sessionSetAppConfig _ l => ∀ p ∈ l.take 255, p.1 < 256
  | .sessionGetAppConfig _ l => ∀ i ∈ l.take 255, i < 256
  | .sessionUpdateControllerMulticastList _ a _ => a < 256
  | _ => True

/-- What the Python host makes of a response that carries nothing but this status: an object of a class whose only field is the
status, or one of a class without fields of its own, where the status is left in the payload. -/
def Refusal (status : Nat) : Py.Obj → Prop
  | .coreDeviceResetRsp s | .sessionInitRsp s | .sessionDeinitRsp s | .sessionUpdateControllerMulticastListRsp s
  | .sessionStartRsp s | .sessionStopRsp s | .androidSetCountryCodeRsp s => s = status
  | .corePacket 2 _ p | .sessionConfigPacket 2 _ p | .sessionControlPacket 2 _ p | .androidPacket 2 _ p => p = [UInt8.ofNat status]
  | .controlPacket _ 2 p => ∃ x y z, p = [x, y, z, UInt8.ofNat status]
  | _ => False

end Pica.Spec
