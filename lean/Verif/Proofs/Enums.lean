import Verif.Model.Enums

namespace Pica

/-- The tags of a closed enumeration are all listed and have distinct codes. -/
class LawfulWireEnum (E : Type) [WireEnum E] : Prop where
  complete : ∀ e : E, e ∈ WireEnum.all (E := E)
  inj : ∀ e e' : E, WireEnum.toU8 e = WireEnum.toU8 e' → e = e'

theorem WireEnum.ofU8?_toU8 {E : Type} [WireEnum E] [LawfulWireEnum E] (e : E) :
    WireEnum.ofU8? (WireEnum.toU8 e) = some e := by
  unfold WireEnum.ofU8?
  cases h : (WireEnum.all (E := E)).find? (fun x => WireEnum.toU8 x == WireEnum.toU8 e) with
  | none =>
    have := List.find?_eq_none.mp h e (LawfulWireEnum.complete e)
    simp at this
  | some x =>
    have := List.find?_some h
    simp only [beq_iff_eq] at this
    rw [LawfulWireEnum.inj _ _ this]

theorem WireEnum.toU8_ofU8? {E : Type} [WireEnum E] {b : UInt8} {e : E}
    (h : WireEnum.ofU8? b = some e) : WireEnum.toU8 e = b := by
  have := List.find?_some h
  simpa using this

theorem WireEnum.ofU8?_eq_some {E : Type} [WireEnum E] [LawfulWireEnum E] {b : UInt8} {e : E} :
    WireEnum.ofU8? b = some e ↔ WireEnum.toU8 e = b := by
  constructor
  · exact WireEnum.toU8_ofU8?
  · intro h; rw [← h]; exact WireEnum.ofU8?_toU8 e

instance : LawfulWireEnum PacketBoundaryFlag where
  complete := by intro e; cases e <;> decide
  inj := by intro a b; cases a <;> cases b <;> decide

instance : LawfulWireEnum MessageType where
  complete := by intro e; cases e <;> decide
  inj := by intro a b; cases a <;> cases b <;> decide

instance : LawfulWireEnum GroupId where
  complete := by intro e; cases e <;> decide
  inj := by intro a b; cases a <;> cases b <;> decide

instance : LawfulWireEnum DataPacketFormat where
  complete := by intro e; cases e <;> decide
  inj := by intro a b; cases a <;> cases b <;> decide

instance : LawfulWireEnum CoreOpcodeId where
  complete := by intro e; cases e <;> decide
  inj := by intro a b; cases a <;> cases b <;> decide

instance : LawfulWireEnum SessionConfigOpcodeId where
  complete := by intro e; cases e <;> decide
  inj := by intro a b; cases a <;> cases b <;> decide

instance : LawfulWireEnum SessionControlOpcodeId where
  complete := by intro e; cases e <;> decide
  inj := by intro a b; cases a <;> cases b <;> decide

instance : LawfulWireEnum AndroidOpcodeId where
  complete := by intro e; cases e <;> decide
  inj := by intro a b; cases a <;> cases b <;> decide

instance : LawfulWireEnum CreditAvailability where
  complete := by intro e; cases e <;> decide
  inj := by intro a b; cases a <;> cases b <;> decide

instance : LawfulWireEnum DataTransferNtfStatusCode where
  complete := by intro e; cases e <;> decide
  inj := by intro a b; cases a <;> cases b <;> decide

instance : LawfulWireEnum ResetConfig where
  complete := by intro e; cases e <;> decide
  inj := by intro a b; cases a <;> cases b <;> decide

instance : LawfulWireEnum DeviceType where
  complete := by intro e; cases e <;> decide
  inj := by intro a b; cases a <;> cases b <;> decide

instance : LawfulWireEnum RangingRoundUsage where
  complete := by intro e; cases e <;> decide
  inj := by intro a b; cases a <;> cases b <;> decide

instance : LawfulWireEnum StsConfig where
  complete := by intro e; cases e <;> decide
  inj := by intro a b; cases a <;> cases b <;> decide

instance : LawfulWireEnum MultiNodeMode where
  complete := by intro e; cases e <;> decide
  inj := by intro a b; cases a <;> cases b <;> decide

instance : LawfulWireEnum ChannelNumber where
  complete := by intro e; cases e <;> decide
  inj := by intro a b; cases a <;> cases b <;> decide

instance : LawfulWireEnum MacFcsType where
  complete := by intro e; cases e <;> decide
  inj := by intro a b; cases a <;> cases b <;> decide

instance : LawfulWireEnum AoaResultReq where
  complete := by intro e; cases e <;> decide
  inj := by intro a b; cases a <;> cases b <;> decide

instance : LawfulWireEnum SessionInfoNtfConfig where
  complete := by intro e; cases e <;> decide
  inj := by intro a b; cases a <;> cases b <;> decide

instance : LawfulWireEnum DeviceRole where
  complete := by intro e; cases e <;> decide
  inj := by intro a b; cases a <;> cases b <;> decide

instance : LawfulWireEnum RframeConfig where
  complete := by intro e; cases e <;> decide
  inj := by intro a b; cases a <;> cases b <;> decide

instance : LawfulWireEnum RssiReporting where
  complete := by intro e; cases e <;> decide
  inj := by intro a b; cases a <;> cases b <;> decide

instance : LawfulWireEnum PsduDataRate where
  complete := by intro e; cases e <;> decide
  inj := by intro a b; cases a <;> cases b <;> decide

instance : LawfulWireEnum PreambleDuration where
  complete := by intro e; cases e <;> decide
  inj := by intro a b; cases a <;> cases b <;> decide

instance : LawfulWireEnum LinkLayerMode where
  complete := by intro e; cases e <;> decide
  inj := by intro a b; cases a <;> cases b <;> decide

instance : LawfulWireEnum RangingTimeStruct where
  complete := by intro e; cases e <;> decide
  inj := by intro a b; cases a <;> cases b <;> decide

instance : LawfulWireEnum PrfMode where
  complete := by intro e; cases e <;> decide
  inj := by intro a b; cases a <;> cases b <;> decide

instance : LawfulWireEnum ScheduleMode where
  complete := by intro e; cases e <;> decide
  inj := by intro a b; cases a <;> cases b <;> decide

instance : LawfulWireEnum KeyRotation where
  complete := by intro e; cases e <;> decide
  inj := by intro a b; cases a <;> cases b <;> decide

instance : LawfulWireEnum MacAddressMode where
  complete := by intro e; cases e <;> decide
  inj := by intro a b; cases a <;> cases b <;> decide

instance : LawfulWireEnum HoppingMode where
  complete := by intro e; cases e <;> decide
  inj := by intro a b; cases a <;> cases b <;> decide

instance : LawfulWireEnum BprfPhrDataRate where
  complete := by intro e; cases e <;> decide
  inj := by intro a b; cases a <;> cases b <;> decide

instance : LawfulWireEnum StsLength where
  complete := by intro e; cases e <;> decide
  inj := by intro a b; cases a <;> cases b <;> decide

instance : LawfulWireEnum SessionDataTransferStatusNtfConfig where
  complete := by intro e; cases e <;> decide
  inj := by intro a b; cases a <;> cases b <;> decide

instance : LawfulWireEnum DeviceState where
  complete := by intro e; cases e <;> decide
  inj := by intro a b; cases a <;> cases b <;> decide

instance : LawfulWireEnum SessionState where
  complete := by intro e; cases e <;> decide
  inj := by intro a b; cases a <;> cases b <;> decide

instance : LawfulWireEnum MulticastUpdateStatus where
  complete := by intro e; cases e <;> decide
  inj := by intro a b; cases a <;> cases b <;> decide

instance : LawfulWireEnum MacAddressIndicator where
  complete := by intro e; cases e <;> decide
  inj := by intro a b; cases a <;> cases b <;> decide

instance : LawfulWireEnum SessionType where
  complete := by intro e; cases e <;> decide
  inj := by intro a b; cases a <;> cases b <;> decide

instance : LawfulWireEnum RangingMeasurementType where
  complete := by intro e; cases e <;> decide
  inj := by intro a b; cases a <;> cases b <;> decide

instance : LawfulWireEnum UpdateMulticastListAction where
  complete := by intro e; cases e <;> decide
  inj := by intro a b; cases a <;> cases b <;> decide

end Pica
