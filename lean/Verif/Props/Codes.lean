import Verif.Model.EnumNames
import Verif.Model.PyEnums
import Verif.Model.PyUci
import Verif.Proofs.Enums
import Verif.Proofs.MacAddress
/-! C94: the emulator and the Python package have the same enumerations. -/

namespace Pica.Props

/-- A Python class has the tags of a closed enumeration of the emulator, with their codes, and no others. -/
def SameTags (E : Type) [WireEnum E] [NamedEnum E] (class_ : String) : Prop :=
  ∃ c ∈ Py.classes, c.name = class_ ∧ c.closed = true ∧
    c.members = (WireEnum.all (E := E)).map fun e => (NamedEnum.name e, (WireEnum.toU8 e).toNat)

/-- A Python class has the tags of an open enumeration of the emulator outside of its ranges, with their codes, none of those
within its ranges, and takes every other value. -/
def SameNames {E : Type} (named nested : List (String × E)) (code : E → UInt8) (class_ : String) : Prop :=
  ∃ c ∈ Py.classes, c.name = class_ ∧ c.closed = false ∧ c.members = named.map (fun x => (x.1, (code x.2).toNat)) ∧
    ∀ x ∈ nested, ∀ m ∈ c.members, m.1 ≠ x.1 ∧ m.2 ≠ (code x.2).toNat

instance (E : Type) [WireEnum E] [NamedEnum E] (c : String) : Decidable (SameTags E c) := by
  unfold SameTags; infer_instance

instance {E : Type} (l k : List (String × E)) (f : E → UInt8) (c : String) : Decidable (SameNames l k f c) := by
  unfold SameNames; infer_instance

/-- C94: every closed enumeration of the packet description has the same tags and codes on both sides. -/
theorem C94_closed :
    SameTags PacketBoundaryFlag "PacketBoundaryFlag" ∧
    SameTags MessageType "MessageType" ∧
    SameTags GroupId "GroupId" ∧
    SameTags DataPacketFormat "DataPacketFormat" ∧
    SameTags CoreOpcodeId "CoreOpcodeId" ∧
    SameTags SessionConfigOpcodeId "SessionConfigOpcodeId" ∧
    SameTags SessionControlOpcodeId "SessionControlOpcodeId" ∧
    SameTags AndroidOpcodeId "AndroidOpcodeId" ∧
    SameTags CreditAvailability "CreditAvailability" ∧
    SameTags DataTransferNtfStatusCode "DataTransferNtfStatusCode" ∧
    SameTags ResetConfig "ResetConfig" ∧
    SameTags DeviceType "DeviceType" ∧
    SameTags RangingRoundUsage "RangingRoundUsage" ∧
    SameTags StsConfig "StsConfig" ∧
    SameTags MultiNodeMode "MultiNodeMode" ∧
    SameTags ChannelNumber "ChannelNumber" ∧
    SameTags MacFcsType "MacFcsType" ∧
    SameTags AoaResultReq "AoaResultReq" ∧
    SameTags SessionInfoNtfConfig "SessionInfoNtfConfig" ∧
    SameTags DeviceRole "DeviceRole" ∧
    SameTags RframeConfig "RframeConfig" ∧
    SameTags RssiReporting "RssiReporting" ∧
    SameTags PsduDataRate "PsduDataRate" ∧
    SameTags PreambleDuration "PreambleDuration" ∧
    SameTags LinkLayerMode "LinkLayerMode" ∧
    SameTags RangingTimeStruct "RangingTimeStruct" ∧
    SameTags PrfMode "PrfMode" ∧
    SameTags ScheduleMode "ScheduleMode" ∧
    SameTags KeyRotation "KeyRotation" ∧
    SameTags MacAddressMode "MacAddressMode" ∧
    SameTags HoppingMode "HoppingMode" ∧
    SameTags BprfPhrDataRate "BprfPhrDataRate" ∧
    SameTags StsLength "StsLength" ∧
    SameTags SessionDataTransferStatusNtfConfig "SessionDataTransferStatusNtfConfig" ∧
    SameTags DeviceState "DeviceState" ∧
    SameTags SessionState "SessionState" ∧
    SameTags MulticastUpdateStatus "MulticastUpdateStatus" ∧
    SameTags MacAddressIndicator "MacAddressIndicator" ∧
    SameTags SessionType "SessionType" ∧
    SameTags RangingMeasurementType "RangingMeasurementType" ∧
    SameTags UpdateMulticastListAction "UpdateMulticastListAction" := by
  decide +kernel

/-- C94: the open enumerations have the same tags and codes outside of their ranges; the tags within the
ranges have no name in the Python package. -/
theorem C94_open :
    SameNames Status.named Status.nested Status.code "Status" ∧
    SameNames ReasonCode.named ReasonCode.nested ReasonCode.code "ReasonCode" ∧
    SameNames ConfigParameterId.named ConfigParameterId.nested ConfigParameterId.code "ConfigParameterId" ∧
    SameNames AppConfigTlvType.named AppConfigTlvType.nested AppConfigTlvType.code "AppConfigTlvType" ∧
    SameNames CapTlvType.named CapTlvType.nested CapTlvType.code "CapTlvType" := by
  decide +kernel

/-- C94: `from_int` returns exactly for the codes the emulator takes. -/
theorem C94_fromInt {E : Type} [WireEnum E] [LawfulWireEnum E] [NamedEnum E] {class_ : String} (h : SameTags E class_) :
    ∃ c ∈ Py.classes, c.name = class_ ∧ ∀ v : Nat, c.fromInt v =
      if v < 256 then (WireEnum.ofU8? (E := E) (UInt8.ofNat v)).map fun e => (WireEnum.toU8 e).toNat else none := by
  obtain ⟨c, hc, hn, hcl, hm⟩ := h
  refine ⟨c, hc, hn, fun v => ?_⟩
  unfold Py.IntEnum.fromInt
  rw [hcl, hm, List.map_map]
  have key : v ∈ (WireEnum.all (E := E)).map (Prod.snd ∘ fun e => (NamedEnum.name e, (WireEnum.toU8 e).toNat)) ↔
      ∃ e : E, (WireEnum.toU8 e).toNat = v := by
    rw [List.mem_map]
    exact ⟨fun ⟨e, _, he⟩ => ⟨e, he⟩, fun ⟨e, he⟩ => ⟨e, LawfulWireEnum.complete e, he⟩⟩
  split
  · rename_i hv
    obtain ⟨e, rfl⟩ := key.mp hv
    rw [if_pos (UInt8.toNat_lt _), UInt8.ofNat_toNat, WireEnum.ofU8?_toU8]
    rfl
  · rename_i hv
    rw [if_pos rfl]
    split
    · rename_i hlt
      cases he : WireEnum.ofU8? (E := E) (UInt8.ofNat v) with
      | none => rfl
      | some e =>
        have := WireEnum.toU8_ofU8? he
        exact absurd (key.mpr ⟨e, by rw [this, UInt8.toNat_ofNat_of_lt' hlt]⟩) hv
    · rfl

/-- Two tags of an enumeration have different codes, and a byte is the code of a tag or refused. -/
theorem C94_distinct {E : Type} [WireEnum E] [LawfulWireEnum E] (a b : E) :
    (WireEnum.toU8 a = WireEnum.toU8 b ↔ a = b) ∧ WireEnum.ofU8? (WireEnum.toU8 a) = some a :=
  ⟨⟨LawfulWireEnum.inj a b, fun h => h ▸ rfl⟩, WireEnum.ofU8?_toU8 a⟩

/-- C94: of the open enumerations the emulator refuses eight types of application parameters, which the Python package takes,
and nothing else. -/
theorem C94_refused (b : UInt8) : Status.isTag b = true ∧ ReasonCode.isTag b = true ∧ ConfigParameterId.isTag b = true ∧
    CapTlvType.isTag b = true ∧
    (AppConfigTlvType.isTag b = false ↔ b.toNat ∈ [0x1c, 0x1e, 0x33, 0x34, 0x36, 0x37, 0x38, 0x39]) := by
  exact forall_u8 (P := fun b => Status.isTag b = true ∧ ReasonCode.isTag b = true ∧ ConfigParameterId.isTag b = true ∧
    CapTlvType.isTag b = true ∧
    (AppConfigTlvType.isTag b = false ↔ b.toNat ∈ [0x1c, 0x1e, 0x33, 0x34, 0x36, 0x37, 0x38, 0x39])) (by decide +kernel) b

/-- The members of a Python class. -/
def codes (class_ : String) : List Nat := (Py.classes.filter fun c => c.name = class_).flatMap fun c => c.members.map Prod.snd

/-- C94: the model of the Python package uses these codes. -/
theorem C94_used :
    Py.pbfs = codes "PacketBoundaryFlag" ∧ Py.messageTypes = codes "MessageType" ∧ Py.groupIds = codes "GroupId" ∧
    Py.dataPacketFormats = codes "DataPacketFormat" ∧ Py.coreOpcodes = codes "CoreOpcodeId" ∧
    Py.sessionConfigOpcodes = codes "SessionConfigOpcodeId" ∧ Py.sessionControlOpcodes = codes "SessionControlOpcodeId" ∧
    Py.androidOpcodes = codes "AndroidOpcodeId" ∧ Py.creditAvailabilities = codes "CreditAvailability" ∧
    Py.dataTransferStatuses = codes "DataTransferNtfStatusCode" ∧ Py.deviceStates = codes "DeviceState" ∧
    Py.sessionStates = codes "SessionState" ∧ Py.multicastStatuses = codes "MulticastUpdateStatus" ∧
    Py.macAddressIndicators = codes "MacAddressIndicator" ∧ Py.rangingMeasurementTypes = codes "RangingMeasurementType" := by
  decide +kernel

/-- The channels have gaps. -/
example : ∃ c ∈ Py.classes, c.name = "ChannelNumber" ∧ c.fromInt 9 = some 9 ∧ c.fromInt 7 = none := by decide +kernel

example : SameTags ChannelNumber "ChannelNumber" ∧ ¬SameTags ChannelNumber "DeviceRole" := by decide +kernel

end Pica.Props
