import Verif.Proofs.Packets
import Verif.Model.HostPackets
/-! C47, C48: the bytes of commands, responses and notifications. The layouts are those of
`Verif/Spec/Wire.lean`. -/

namespace Pica.Props
open Spec Codec

/-- C47: bytes are parsed as the command `c` exactly when they have its layout. The top three bits of
the first byte are the message type, the low four the group; the low six bits of the second byte are
the opcode; the other bits of these bytes and the next two bytes are arbitrary. -/
theorem C47_command_iff (bytes : Bytes) (c : Cmd) :
    (∃ p, ControlPacket.decode bytes = some p ∧ p.mt = .command ∧ Cmd.parse p.gid p.payload = .ok (some c)) ↔
      cmdFits c ∧ ∃ b₀ b₁ r₂ r₃ : UInt8, bytes = b₀ :: b₁ :: r₂ :: r₃ :: cmdPayload c ∧
        b₀.toNat / 32 = 1 ∧ b₀.toNat % 16 = (cmdCode c).1.toNat ∧ b₁.toNat % 64 = (cmdCode c).2.toNat := by
  constructor
  · rintro ⟨p, hd, hm, hp⟩
    obtain ⟨hf, hg, b, r₂, r₃, hpl, hb⟩ := layout_of_parse c p.gid p.payload hp
    cases bytes with
    | nil => cases hd
    | cons b₀ r =>
      obtain ⟨h1, h2, rfl⟩ := ControlPacket.decode_cons.mp hd
      rw [hm] at h2
      exact ⟨hf, b₀, b, r₂, r₃, by rw [hpl], h2, by rw [h1, hg], hb⟩
  · rintro ⟨hf, b₀, b₁, r₂, r₃, rfl, h0, hg, hb⟩
    have : ∃ g : GroupId, g.code = (cmdCode c).1 := by
      cases c
      case coreDeviceReset | coreGetDeviceInfo | coreGetCapsInfo | coreSetConfig | coreGetConfig =>
        exact ⟨.core, rfl⟩
      case sessionStart | sessionStop | sessionGetRangingCount => exact ⟨.sessionControl, rfl⟩
      case androidGetPowerStats | androidSetCountryCode => exact ⟨.vendorAndroid, rfl⟩
      all_goals exact ⟨.sessionConfig, rfl⟩
    obtain ⟨g, hgc⟩ := this
    refine ⟨⟨g, .command, b₁ :: r₂ :: r₃ :: cmdPayload c⟩, ControlPacket.decode_cons.mpr ⟨?_, h0, rfl⟩, rfl,
      parse_of_layout c hf g hgc b₁ r₂ r₃ hb⟩
    rw [hg, hgc]

/-- C47: a command serialised as the packet description prescribes is parsed as itself. -/
theorem C47_command_roundtrip (c : Cmd) (hf : cmdFits c) :
    ∃ p, ControlPacket.decode (controlBytes 1 (cmdCode c) (cmdPayload c)) = some p ∧ p.mt = .command ∧
      Cmd.parse p.gid p.payload = .ok (some c) := by
  refine (C47_command_iff _ c).mpr ⟨hf, _, _, _, _, rfl, ?_⟩
  cases c <;> (simp only [cmdCode]; decide)

/-- C47: different commands have different bytes. -/
theorem C47_command_injective (c d : Cmd) (hc : cmdFits c) (hd : cmdFits d)
    (h : controlBytes 1 (cmdCode c) (cmdPayload c) = controlBytes 1 (cmdCode d) (cmdPayload d)) : c = d := by
  obtain ⟨p, hp, -, hpc⟩ := C47_command_roundtrip c hc
  obtain ⟨q, hq, -, hqd⟩ := C47_command_roundtrip d hd
  rw [h] at hp
  cases hp.symm.trans hq
  cases hpc.symm.trans hqd
  rfl

/-! ### C48 -/

theorem header_eq (g : GroupId) (m : MessageType) : ControlPacket.header g m = m.code * 32 + g.code := by
  cases g <;> cases m <;> decide +kernel

theorem decode_header (g : GroupId) (m : MessageType) (q : Bytes) :
    ControlPacket.decode ((m.code * 32 + g.code) :: q) = some ⟨g, m, q⟩ := by
  refine ControlPacket.decode_cons.mpr ⟨?_, ?_, rfl⟩ <;> dsimp only <;> cases g <;> cases m <;> decide +kernel

theorem decodeOid_eq {E : Type} [WireEnum E] [LawfulWireEnum E] (e : E) (h : (WireEnum.toU8 e).toNat < 64)
    (a b : UInt8) (q : Bytes) : decodeOid E (WireEnum.toU8 e :: a :: b :: q) = some (e, q) := by
  have : WireEnum.toU8 e &&& 0x3f = WireEnum.toU8 e := and_3f_eq.mpr (Nat.mod_eq_of_lt h)
  simp [decodeOid, this, WireEnum.ofU8?_toU8]

/-! Layouts of the payloads. -/

theorem lay_deviceInfo : Full Rsp.deviceInfoCodec (fun (_, _, _, _, _, v) => v.length ≤ 255)
    (fun (s, a, b, c, d, v) => s.code :: (u16le a ++ u16le b ++ u16le c ++ u16le d ++ lv v)) := by
  refine Full.congr (describes_seq describes_status (describes_seq describes_u16 (describes_seq describes_u16
    (describes_seq describes_u16 (describes_seq describes_u16 describes_bytes8))))).full ?_ ?_
  · simp
  · intro x; simp [lv]
theorem lay_list {α : Type} {a : Codec α} {w f} (h : Describes a w f) :
    Full (seq status (counted8 a)) (fun (_, l) => l.length ≤ 255 ∧ ∀ x ∈ l, w x)
      (fun (s, l) => s.code :: many f l) := by
  refine Full.congr (describes_seq describes_status (describes_counted8 h)).full ?_ ?_
  · simp
  · intro x; simp [many]
theorem lay_count : Full (seq status u8) (fun _ => True) (fun (s, n) => [s.code, n]) :=
  Full.congr (describes_seq describes_status describes_u8).full (by simp) (by simp)
theorem lay_state : Full (seq status (enum SessionState)) (fun _ => True) (fun (s, n) => [s.code, n.code]) :=
  Full.congr (describes_seq describes_status (describes_enum SessionState)).full (by simp) (fun _ => rfl)
theorem lay_rangingCount : Full (seq status u32) (fun _ => True) (fun (s, n) => s.code :: u32le n) :=
  Full.congr (describes_seq describes_status describes_u32).full (by simp) (fun _ => rfl)
theorem lay_powerStats : Full Pdl.powerStats (fun _ => True) (fun s =>
    s.status.code :: (u32le s.idleTimeMs ++ u32le s.txTimeMs ++ u32le s.rxTimeMs ++ u32le s.totalWakeCount)) :=
  Full.congr describes_powerStats.full (by simp) (by simp)
theorem lay_configParameter : Describes Pdl.configParameter
    (fun p => p.value.length ≤ 255) (fun p => p.id.code :: lv p.value) :=
  Describes.congr describes_configParameter (by simp) (fun _ => rfl)
theorem lay_configParameterStatus : Describes Pdl.configParameterStatus
    (fun _ => True) (fun p => [p.id.code, p.status.code]) :=
  Describes.congr describes_configParameterStatus (by simp) (fun _ => rfl)
theorem lay_appConfigStatus : Describes Pdl.appConfigStatus
    (fun p => AppConfigTlvType.isTag p.cfgId.code) (fun p => [p.cfgId.code, p.status.code]) :=
  Describes.congr describes_appConfigStatus (by simp) (fun _ => rfl)
theorem lay_controleeStatus : Describes Pdl.controleeStatus
    (fun _ => True) (fun p => p.macAddress.1 ++ [p.status.code]) :=
  Describes.congr describes_controleeStatus (by simp) (fun _ => rfl)
theorem lay_measurement : Describes Pdl.measurement (fun _ => True) measurementBytes := by
  refine Describes.congr (describes_iso
    (describes_seq describes_u16 (describes_seq describes_status (describes_seq describes_u8
      (describes_seq describes_u16 (describes_seq describes_u16 (describes_seq describes_u8
      (describes_seq describes_u16 (describes_seq describes_u8 (describes_seq describes_u16
      (describes_seq describes_u8 (describes_seq describes_u16 (describes_seq describes_u8
      (describes_seq describes_u8 (describes_seq describes_u8
      (describes_seq (describes_reserved 8) (describes_reserved 3)))))))))))))))) (fun _ => rfl)) ?_ ?_
  · simp
  · intro x
    simp [measurementBytes, List.replicate]
theorem lay_sessionInfo : Full Ntf.sessionInfoCodec
    (fun (_, _, _, _, _, _, _, _, m, _) => m.length ≤ 255)
    (fun (n, t, r, i, mt, _, ind, _, m, v) =>
      u32le n ++ u32le t ++ [r] ++ u32le i ++ [WireEnum.toU8 mt, 0, WireEnum.toU8 ind] ++ List.replicate 8 0
      ++ many measurementBytes m ++ v) := by
  refine Full.congr (full_seq describes_u32 (full_seq describes_u32 (full_seq describes_u8 (full_seq describes_u32
    (full_seq (describes_enum RangingMeasurementType) (full_seq (describes_reserved 1)
    (full_seq (describes_enum MacAddressIndicator) (full_seq (describes_reserved 8)
    (full_seq (describes_counted8 lay_measurement) full_rest))))))))) ?_ ?_
  · simp
  · intro x
    simp [many, List.replicate]
theorem lay_sessionStatus : Full (seq u32 (seq (enum SessionState) u8)) (fun _ => True)
    (fun (t, s, r) => u32le t ++ [s.code, r]) :=
  Full.congr (describes_seq describes_u32 (describes_seq (describes_enum SessionState) describes_u8)).full
    (by simp) (fun _ => rfl)
theorem lay_multicastNtf : Full (seq u32 (counted8 Pdl.controleeStatus)) (fun x => x.2.length ≤ 255)
    (fun (t, c) => u32le t ++ many (fun x => x.macAddress.1 ++ [x.status.code]) c) :=
  Full.congr (describes_seq describes_u32 (describes_counted8 lay_controleeStatus)).full
    (by simp) (fun _ => rfl)
theorem lay_credit : Full (seq u32 (enum CreditAvailability)) (fun _ => True)
    (fun (t, a) => u32le t ++ [a.code]) :=
  Full.congr (describes_seq describes_u32 (describes_enum CreditAvailability)).full (by simp) (fun _ => rfl)
theorem lay_transferStatus : Full (seq u32 (seq u8 (seq (enum DataTransferNtfStatusCode) u8))) (fun _ => True)
    (fun (t, n, s, c) => u32le t ++ [n, s.code, c]) :=
  Full.congr (describes_seq describes_u32 (describes_seq describes_u8 (describes_seq
    (describes_enum DataTransferNtfStatusCode) describes_u8))).full (by simp) (fun _ => rfl)
theorem lay_dataRcv : Full Pdl.dataMessageRcv (fun d => d.applicationData.length ≤ 65535)
    (fun d => u32le d.sessionHandle ++ [d.status.code] ++ u64le d.sourceAddress ++ u16le d.dataSequenceNumber
      ++ leBytes 2 d.applicationData.length ++ d.applicationData) := by
  refine Full.congr (describes_iso (describes_seq describes_u32 (describes_seq describes_status
    (describes_seq describes_u64 (describes_seq describes_u16 describes_bytes16)))) (fun _ => rfl)).full ?_ ?_
  · simp
  · intro x; simp

theorem rsp_payload (r : Rsp) (p : Bytes) : r.encodePayload = some p ↔ rspFits r ∧ p = rspPayload r := by
  cases r
  case coreDeviceReset s => exact describes_status.enc _ _
  case coreGetDeviceInfo s a b c d v => exact lay_deviceInfo.enc (s, a, b, c, d, v) p
  case coreGetCapsInfo s t => exact (lay_list describes_capTlv).enc (s, t) p
  case coreSetConfig s t =>
    have := (lay_list lay_configParameterStatus).enc (s, t) p
    simp only [implies_true, and_true] at this
    exact this
  case coreGetConfig s t => exact (lay_list lay_configParameter).enc (s, t) p
  case sessionInit s => exact describes_status.enc _ _
  case sessionDeinit s => exact describes_status.enc _ _
  case sessionGetCount s n => exact lay_count.enc (s, n) p
  case sessionSetAppConfig s t => exact (lay_list lay_appConfigStatus).enc (s, t) p
  case sessionGetAppConfig s t => exact (lay_list describes_appConfigTlv).enc (s, t) p
  case sessionGetState s n => exact lay_state.enc (s, n) p
  case sessionUpdateMulticast s t =>
    have := (lay_list lay_controleeStatus).enc (s, t) p
    simp only [implies_true, and_true] at this
    exact this
  case sessionStart s => exact describes_status.enc _ _
  case sessionStop s => exact describes_status.enc _ _
  case sessionGetRangingCount s n => exact lay_rangingCount.enc (s, n) p
  case androidGetPowerStats s => exact lay_powerStats.enc s p
  case androidSetCountryCode s => exact describes_status.enc _ _

/-- C48: a response is encoded exactly when it fits, with the layout of the specification. -/
theorem C48_rsp_bytes (r : Rsp) (b : Bytes) :
    (Packet.rsp r).encode = some b ↔ rspFits r ∧ b = controlBytes 2 (rspCode r) (rspPayload r) := by
  simp only [Packet.encode, Rsp.toControlPacket, Option.map_eq_some_iff, rsp_payload]
  have hh : ControlPacket.header r.gid .response :: r.oid :: (0 : UInt8) :: (0 : UInt8) :: rspPayload r
      = controlBytes 2 (rspCode r) (rspPayload r) := by
    rw [header_eq]; cases r <;> rfl
  constructor
  · rintro ⟨_, ⟨_, ⟨hf, rfl⟩, rfl⟩, rfl⟩; exact ⟨hf, hh⟩
  · rintro ⟨hf, rfl⟩; exact ⟨_, ⟨_, ⟨hf, rfl⟩, rfl⟩, hh⟩

theorem ntf_payload (n : Ntf) (p : Bytes) : n.encodePayload = some p ↔ ntfFits n ∧ p = ntfPayload n := by
  cases n
  case coreDeviceStatus s => exact (describes_enum DeviceState).enc _ _
  case sessionStatus t s r => exact lay_sessionStatus.enc (t, s, r) p
  case sessionUpdateMulticast t c => exact lay_multicastNtf.enc (t, c) p
  case sessionDataCredit t a => exact lay_credit.enc (t, a) p
  case sessionDataTransferStatus t n s c => exact lay_transferStatus.enc (t, n, s, c) p
  case sessionInfo n t r i m v =>
    exact lay_sessionInfo.enc (n, t, r, i, .twoWay, (), .shortAddress, (), m, v) p

/-- C48: a notification is encoded exactly when it fits, with the layout of the specification. -/
theorem C48_ntf_bytes (n : Ntf) (b : Bytes) :
    (Packet.ntf n).encode = some b ↔ ntfFits n ∧ b = controlBytes 3 (ntfCode n) (ntfPayload n) := by
  simp only [Packet.encode, Ntf.toControlPacket, Option.map_eq_some_iff, ntf_payload]
  have hh : ControlPacket.header n.gid .notification :: n.oid :: (0 : UInt8) :: (0 : UInt8) :: ntfPayload n
      = controlBytes 3 (ntfCode n) (ntfPayload n) := by
    rw [header_eq]; cases n <;> rfl
  constructor
  · rintro ⟨_, ⟨_, ⟨hf, rfl⟩, rfl⟩, rfl⟩; exact ⟨hf, hh⟩
  · rintro ⟨hf, rfl⟩; exact ⟨_, ⟨_, ⟨hf, rfl⟩, rfl⟩, hh⟩

/-- C48: the bytes of a data message to the host. -/
theorem C48_data_bytes (d : DataMessageRcv) (b : Bytes) :
    (Packet.data d).encode = some b ↔ d.applicationData.length ≤ 65535 ∧
      b = [0x02, 0, 0, 0] ++ u32le d.sessionHandle ++ [d.status.code] ++ u64le d.sourceAddress
        ++ u16le d.dataSequenceNumber ++ leBytes 2 d.applicationData.length ++ d.applicationData := by
  simp only [Packet.encode, DataMessageRcv.encode, Option.map_eq_some_iff, lay_dataRcv.enc]
  constructor
  · rintro ⟨_, ⟨hf, rfl⟩, rfl⟩
    refine ⟨hf, ?_⟩
    simp [DataPacket.encode, DataPacket.header, DataPacketFormat.code, PacketBoundaryFlag.code, MessageType.code]
  · rintro ⟨hf, rfl⟩
    refine ⟨_, ⟨hf, rfl⟩, ?_⟩
    simp [DataPacket.encode, DataPacket.header, DataPacketFormat.code, PacketBoundaryFlag.code, MessageType.code]

theorem core_oid (e : CoreOpcodeId) (q : Bytes) :
    decodeOid CoreOpcodeId (e.code :: 0 :: 0 :: q) = some (e, q) :=
  decodeOid_eq e (by cases e <;> decide) 0 0 q
theorem config_oid (e : SessionConfigOpcodeId) (q : Bytes) :
    decodeOid SessionConfigOpcodeId (e.code :: 0 :: 0 :: q) = some (e, q) :=
  decodeOid_eq e (by cases e <;> decide) 0 0 q
theorem control_oid (e : SessionControlOpcodeId) (q : Bytes) :
    decodeOid SessionControlOpcodeId (e.code :: 0 :: 0 :: q) = some (e, q) :=
  decodeOid_eq e (by cases e <;> decide) 0 0 q
theorem android_oid (e : AndroidOpcodeId) (q : Bytes) :
    decodeOid AndroidOpcodeId (e.code :: 0 :: 0 :: q) = some (e, q) :=
  decodeOid_eq e (by cases e <;> decide) 0 0 q

theorem bind_of {α β : Type} {x : Option α} {a : α} {f : α → Option β} {y : Option β} (h : x = some a)
    (hf : f a = y) : x.bind f = y := by rw [h]; exact hf
theorem map_of {α β : Type} {x : Option α} {a : α} {f : α → β} {y : β} (h : x = some a)
    (hf : f a = y) : x.map f = some y := by rw [h]; exact congrArg some hf

/-- C48: the host reads a response back from its bytes. -/
theorem C48_rsp_roundtrip (r : Rsp) (b : Bytes) (h : (Packet.rsp r).encode = some b) :
    HostMessage.parse b = some (.rsp r) := by
  obtain ⟨hf, rfl⟩ := (C48_rsp_bytes r b).mp h
  have key : ∃ g : GroupId, g.code = (rspCode r).1 ∧
      Rsp.parse g ((rspCode r).2 :: 0 :: 0 :: rspPayload r) = some r := by
    cases r
    case coreDeviceReset s =>
      refine ⟨.core, rfl, ?_⟩
      unfold Rsp.parse
      refine bind_of (core_oid .deviceReset _) ?_
      exact map_of (describes_status.full.dec s trivial) rfl
    case coreGetDeviceInfo s a b c d v =>
      refine ⟨.core, rfl, ?_⟩
      unfold Rsp.parse
      refine bind_of (core_oid .getDeviceInfo _) ?_
      exact map_of (lay_deviceInfo.dec (s, a, b, c, d, v) hf) rfl
    case coreGetCapsInfo s t =>
      refine ⟨.core, rfl, ?_⟩
      unfold Rsp.parse
      refine bind_of (core_oid .getCapsInfo _) ?_
      exact map_of ((lay_list describes_capTlv).dec (s, t) hf) rfl
    case coreSetConfig s t =>
      refine ⟨.core, rfl, ?_⟩
      unfold Rsp.parse
      refine bind_of (core_oid .setConfig _) ?_
      exact map_of ((lay_list lay_configParameterStatus).dec (s, t) ⟨hf, fun _ _ => trivial⟩) rfl
    case coreGetConfig s t =>
      refine ⟨.core, rfl, ?_⟩
      unfold Rsp.parse
      refine bind_of (core_oid .getConfig _) ?_
      exact map_of ((lay_list lay_configParameter).dec (s, t) hf) rfl
    case sessionInit s =>
      refine ⟨.sessionConfig, rfl, ?_⟩
      unfold Rsp.parse
      refine bind_of (config_oid .init _) ?_
      exact map_of (describes_status.full.dec s trivial) rfl
    case sessionDeinit s =>
      refine ⟨.sessionConfig, rfl, ?_⟩
      unfold Rsp.parse
      refine bind_of (config_oid .deinit _) ?_
      exact map_of (describes_status.full.dec s trivial) rfl
    case sessionGetCount s n =>
      refine ⟨.sessionConfig, rfl, ?_⟩
      unfold Rsp.parse
      refine bind_of (config_oid .getCount _) ?_
      exact map_of (lay_count.dec (s, n) trivial) rfl
    case sessionSetAppConfig s t =>
      refine ⟨.sessionConfig, rfl, ?_⟩
      unfold Rsp.parse
      refine bind_of (config_oid .setAppConfig _) ?_
      exact map_of ((lay_list lay_appConfigStatus).dec (s, t) hf) rfl
    case sessionGetAppConfig s t =>
      refine ⟨.sessionConfig, rfl, ?_⟩
      unfold Rsp.parse
      refine bind_of (config_oid .getAppConfig _) ?_
      exact map_of ((lay_list describes_appConfigTlv).dec (s, t) hf) rfl
    case sessionGetState s n =>
      refine ⟨.sessionConfig, rfl, ?_⟩
      unfold Rsp.parse
      refine bind_of (config_oid .getState _) ?_
      exact map_of (lay_state.dec (s, n) trivial) rfl
    case sessionUpdateMulticast s t =>
      refine ⟨.sessionConfig, rfl, ?_⟩
      unfold Rsp.parse
      refine bind_of (config_oid .updateControllerMulticastList _) ?_
      exact map_of ((lay_list lay_controleeStatus).dec (s, t) ⟨hf, fun _ _ => trivial⟩) rfl
    case sessionStart s =>
      refine ⟨.sessionControl, rfl, ?_⟩
      unfold Rsp.parse
      refine bind_of (control_oid .start _) ?_
      exact map_of (describes_status.full.dec s trivial) rfl
    case sessionStop s =>
      refine ⟨.sessionControl, rfl, ?_⟩
      unfold Rsp.parse
      refine bind_of (control_oid .stop _) ?_
      exact map_of (describes_status.full.dec s trivial) rfl
    case sessionGetRangingCount s n =>
      refine ⟨.sessionControl, rfl, ?_⟩
      unfold Rsp.parse
      refine bind_of (control_oid .getRangingCount _) ?_
      exact map_of (lay_rangingCount.dec (s, n) trivial) rfl
    case androidGetPowerStats s =>
      refine ⟨.vendorAndroid, rfl, ?_⟩
      unfold Rsp.parse
      refine bind_of (android_oid .getPowerStats _) ?_
      exact map_of (lay_powerStats.dec s trivial) rfl
    case androidSetCountryCode s =>
      refine ⟨.vendorAndroid, rfl, ?_⟩
      unfold Rsp.parse
      refine bind_of (android_oid .setCountryCode _) ?_
      exact map_of (describes_status.full.dec s trivial) rfl
  obtain ⟨g, hg, hp⟩ := key
  have : controlBytes 2 (rspCode r) (rspPayload r)
      = (MessageType.response.code * 32 + g.code) :: (rspCode r).2 :: 0 :: 0 :: rspPayload r := by
    rw [hg]; rfl
  unfold HostMessage.parse
  rw [this, decode_header]
  simp [hp]

/-- C48: the host reads a notification back from its bytes. -/
theorem C48_ntf_roundtrip (n : Ntf) (b : Bytes) (h : (Packet.ntf n).encode = some b) :
    HostMessage.parse b = some (.ntf n) := by
  obtain ⟨hf, rfl⟩ := (C48_ntf_bytes n b).mp h
  have key : ∃ g : GroupId, g.code = (ntfCode n).1 ∧
      Ntf.parse g ((ntfCode n).2 :: 0 :: 0 :: ntfPayload n) = some n := by
    cases n
    case coreDeviceStatus s =>
      refine ⟨.core, rfl, ?_⟩
      unfold Ntf.parse
      refine bind_of (core_oid .deviceStatus _) ?_
      exact map_of ((describes_enum DeviceState).full.dec s trivial) rfl
    case sessionStatus t s r =>
      refine ⟨.sessionConfig, rfl, ?_⟩
      unfold Ntf.parse
      refine bind_of (config_oid .status _) ?_
      exact map_of (lay_sessionStatus.dec (t, s, r) trivial) rfl
    case sessionUpdateMulticast t c =>
      refine ⟨.sessionConfig, rfl, ?_⟩
      unfold Ntf.parse
      refine bind_of (config_oid .updateControllerMulticastList _) ?_
      exact map_of (lay_multicastNtf.dec (t, c) hf) rfl
    case sessionDataCredit t a =>
      refine ⟨.sessionControl, rfl, ?_⟩
      unfold Ntf.parse
      refine bind_of (control_oid .dataCredit _) ?_
      exact map_of (lay_credit.dec (t, a) trivial) rfl
    case sessionDataTransferStatus t n s c =>
      refine ⟨.sessionControl, rfl, ?_⟩
      unfold Ntf.parse
      refine bind_of (control_oid .dataTransferStatus _) ?_
      exact map_of (lay_transferStatus.dec (t, n, s, c) trivial) rfl
    case sessionInfo n t r i m v =>
      refine ⟨.sessionControl, rfl, ?_⟩
      unfold Ntf.parse
      refine bind_of (control_oid .start _) ?_
      exact bind_of (lay_sessionInfo.dec (n, t, r, i, .twoWay, (), .shortAddress, (), m, v) hf) rfl
  obtain ⟨g, hg, hp⟩ := key
  have : controlBytes 3 (ntfCode n) (ntfPayload n)
      = (MessageType.notification.code * 32 + g.code) :: (ntfCode n).2 :: 0 :: 0 :: ntfPayload n := by
    rw [hg]; rfl
  unfold HostMessage.parse
  rw [this, decode_header]
  simp [hp]

/-- C48: the host reads a data message back from its bytes. -/
theorem C48_data_roundtrip (d : DataMessageRcv) (b : Bytes) (h : (Packet.data d).encode = some b) :
    DataMessageRcv.parse b = some d := by
  simp only [Packet.encode, DataMessageRcv.encode, Option.map_eq_some_iff, lay_dataRcv.enc] at h
  obtain ⟨_, ⟨hf, rfl⟩, rfl⟩ := h
  have := lay_dataRcv.dec d hf
  unfold DataMessageRcv.parse
  have hd : ∀ q, DataPacket.decode (DataPacket.encode ⟨.dataRcv, .complete, .data, q⟩)
      = some ⟨.dataRcv, .complete, .data, q⟩ := by
    intro q
    have h1 : (WireEnum.ofU8? (DataPacket.header .dataRcv .complete .data &&& 0x0f) : Option DataPacketFormat)
        = some .dataRcv := by decide +kernel
    have h2 : (WireEnum.ofU8? ((DataPacket.header .dataRcv .complete .data >>> 4) &&& 0x01) :
        Option PacketBoundaryFlag) = some .complete := by decide +kernel
    have h3 : (WireEnum.ofU8? (DataPacket.header .dataRcv .complete .data >>> 5) : Option MessageType)
        = some .data := by decide +kernel
    simp [DataPacket.encode, DataPacket.decode, h1, h2, h3]
  rw [hd]
  exact this

/-! Concrete cases. -/

/-- SESSION_SET_APP_CONFIG of two parameters, with garbage in the reserved bits. -/
example : ∃ p, ControlPacket.decode [0x31, 0xc3, 7, 9, 5, 0, 0, 0, 2, 0x05, 1, 2, 0x07, 4, 1, 2, 3, 4] = some p ∧
    p.mt = .command ∧
    Cmd.parse p.gid p.payload = .ok (some (.sessionSetAppConfig 5 [⟨⟨0x05⟩, [2]⟩, ⟨⟨0x07⟩, [1, 2, 3, 4]⟩])) :=
  (C47_command_iff _ _).mpr ⟨by unfold cmdFits; decide, 0x31, 0xc3, 7, 9, rfl, by decide⟩

example : cmdFits (.sessionSetAppConfig 5 [⟨⟨0x05⟩, [2]⟩, ⟨⟨0x07⟩, [1, 2, 3, 4]⟩]) := by unfold cmdFits; decide

example : (Packet.rsp (.sessionGetCount .ok 3)).encode = some [0x41, 0x05, 0, 0, 0, 3] := by decide +kernel

example : (Packet.ntf (.sessionStatus 1 .sessionStateActive 0)).encode = some [0x61, 0x02, 0, 0, 1, 0, 0, 0, 2, 0] := by
  decide +kernel

example : (Packet.data ⟨1, .ok, 2, 3, [4]⟩).encode =
    some [2, 0, 0, 0, 1, 0, 0, 0, 0, 2, 0, 0, 0, 0, 0, 0, 0, 3, 0, 1, 0, 4] := by decide +kernel

end Pica.Props
