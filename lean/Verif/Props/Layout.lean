import Verif.Proofs.LayoutParse
import Verif.Props.Codec
/-! C99: the packets of the emulator have the layouts of the packet description. -/

namespace Pica.Props
open Spec
open Spec.Pdl (Matches IsWritten)

/-- Agreement with a layout can be computed. -/
def agreesDecidable : ∀ p b, Decidable (Spec.Pdl.Agrees p b)
  | [], [] => isTrue trivial
  | none :: p, _ :: b => agreesDecidable p b
  | some x :: p, y :: b => @instDecidableAnd (y = x) (Spec.Pdl.Agrees p b) inferInstance (agreesDecidable p b)
  | [], _ :: _ => isFalse id
  | none :: _, [] => isFalse id
  | some _ :: _, [] => isFalse id

instance (p : Spec.Pdl.Pattern) (b : Bytes) : Decidable (Matches p b) := agreesDecidable p _

/-! ### What the emulator writes -/

theorem rspCode_lt (r : Rsp) : ((rspCode r).1.toNat < 16 ∧ 2 < 8) ∧ (rspCode r).2.toNat < 64 := by
  cases r <;> (simp only [rspCode]; decide)

theorem ntfCode_lt (n : Ntf) : ((ntfCode n).1.toNat < 16 ∧ 3 < 8) ∧ (ntfCode n).2.toNat < 64 := by
  cases n <;> (simp only [ntfCode]; decide)

theorem cmdCode_lt (c : Cmd) : ((cmdCode c).1.toNat < 16 ∧ 1 < 8) ∧ (cmdCode c).2.toNat < 64 := by
  cases c <;> (simp only [cmdCode]; decide)

/-- A response is written exactly with the bits its packet has in the description, the reserved ones being 0, and is written
exactly when its fields are in range. -/
theorem C99_response_written (r : Rsp) (b : Bytes) :
    (Packet.rsp r).encode = some b ↔ rspFits r ∧ IsWritten (bitsFor (ofRsp r)) b := by
  rw [ofRsp_bits, head_written_iff (rspCode_lt r)]
  have hh : ControlPacket.header r.gid .response = UInt8.ofNat (2 * 32 + (rspCode r).1.toNat) ∧
      r.oid = UInt8.ofNat (rspCode r).2.toNat := by
    cases r <;> exact ⟨by simp only [Rsp.gid, rspCode]; decide +kernel, by simp only [Rsp.oid, rspCode]; decide +kernel⟩
  simp only [Packet.encode, Rsp.toControlPacket, Option.map_map, Option.map_eq_some_iff, Function.comp_apply,
    ControlPacket.encode, rsp_written, hh.1, hh.2]
  constructor
  · rintro ⟨p, ⟨hf, hp⟩, rfl⟩
    exact ⟨hf, p, rfl, hp⟩
  · rintro ⟨hf, p, rfl, hp⟩
    exact ⟨p, ⟨hf, hp⟩, rfl⟩

/-- The head of group 0, a response, opcode 3; a status; one capability, of type 0xc7 and of two bytes. -/
example : IsWritten (bitsFor (ofRsp (.coreGetCapsInfo .ok [⟨⟨0xc7⟩, [1, 2]⟩]))) [0x40, 3, 0, 0, 0, 1, 0xc7, 2, 1, 2] := by
  decide +kernel

/-- The same for notifications. -/
theorem C99_notification_written (n : Ntf) (b : Bytes) :
    (Packet.ntf n).encode = some b ↔ ntfFits n ∧ IsWritten (bitsFor (ofNtf n)) b := by
  rw [ofNtf_bits, head_written_iff (ntfCode_lt n)]
  have hh : ControlPacket.header n.gid .notification = UInt8.ofNat (3 * 32 + (ntfCode n).1.toNat) ∧
      n.oid = UInt8.ofNat (ntfCode n).2.toNat := by
    cases n <;> exact ⟨by simp only [Ntf.gid, ntfCode]; decide +kernel, by simp only [Ntf.oid, ntfCode]; decide +kernel⟩
  simp only [Packet.encode, Ntf.toControlPacket, Option.map_map, Option.map_eq_some_iff, Function.comp_apply,
    ControlPacket.encode, ntf_written, hh.1, hh.2]
  constructor
  · rintro ⟨p, ⟨hf, hp⟩, rfl⟩
    exact ⟨hf, p, rfl, hp⟩
  · rintro ⟨hf, p, rfl, hp⟩
    exact ⟨p, ⟨hf, hp⟩, rfl⟩

/-- A measurement: the distance in its fifth and sixth bytes, eleven reserved bytes at its end. -/
example : IsWritten (bitsFor (ofNtf (.sessionInfo 7 0x04030201 0 200 [{
      macAddress := 0x1234, status := .ok, nlos := 0, distance := 0x0203, aoaAzimuth := 0x0405, aoaAzimuthFom := 6, aoaElevation := 0x0708, aoaElevationFom := 9,
      aoaDestinationAzimuth := 0x0a0b, aoaDestinationAzimuthFom := 12, aoaDestinationElevation := 0x0d0e,
      aoaDestinationElevationFom := 15, slotIndex := 16, rssi := 17 }] [0xee])))
    [0x62, 0, 0, 0, 7, 0, 0, 0, 1, 2, 3, 4, 0, 200, 0, 0, 0, 1, 0, 0, 0, 0, 0, 0, 0, 0, 0, 0, 1,
      0x34, 0x12, 0, 0, 3, 2, 5, 4, 6, 8, 7, 9, 0x0b, 0x0a, 12, 0x0e, 0x0d, 15, 16, 17, 0, 0, 0, 0, 0, 0, 0, 0, 0, 0, 0,
      0xee] := by
  decide +kernel

/-- The same for data; the emulator only writes complete messages. -/
theorem C99_data_written (d : DataMessageRcv) (b : Bytes) :
    (Packet.data d).encode = some b ↔ d.applicationData.length ≤ 65535 ∧ IsWritten (bitsFor (ofDataRcv 0 d)) b := by
  have hh : IsWritten (Py.dataPat 2 0 0) [2, 0, 0, 0] := by decide +kernel
  have hd : DataPacket.header .dataRcv .complete .data = 2 := by decide +kernel
  rw [ofDataRcv_bits]
  simp only [Packet.encode, DataMessageRcv.encode, Option.map_eq_some_iff, DataPacket.encode, lays_dataRcv.enc, hd]
  constructor
  · rintro ⟨p, ⟨hf, hp⟩, rfl⟩
    exact ⟨hf, hh.append hp⟩
  · rintro ⟨hf, hb⟩
    obtain ⟨b₁, b₂, rfl, h1, h2⟩ := written_split (k := 4) (by simp [Py.dataPat, Spec.Pdl.nat_length, Spec.Pdl.gap]) hb
    refine ⟨b₂, ⟨hf, h2⟩, ?_⟩
    rw [Spec.Pdl.written_unique h1 hh]
    rfl

example : IsWritten (bitsFor (ofDataRcv 0 ⟨5, .ok, 0x0102030405060708, 9, [10, 11]⟩))
    [2, 0, 0, 0, 5, 0, 0, 0, 0, 8, 7, 6, 5, 4, 3, 2, 1, 9, 0, 2, 0, 10, 11] := by decide +kernel

/-! ### What the emulator reads -/

/-- Bytes are parsed as a command exactly when its fields are in range and the bytes have the bits its packet has in the
description, whatever the reserved ones. -/
theorem C99_command_read (c : Cmd) (b : Bytes) :
    (∃ p, ControlPacket.decode b = some p ∧ p.mt = .command ∧ Cmd.parse p.gid p.payload = .ok (some c)) ↔
      cmdFits c ∧ Matches (bitsFor (ofCmd c)) b := by
  rw [C47_command_iff, ofCmd_bits, head_matches_iff (cmdCode_lt c), ← cmd_bits]
  simp only [Spec.Pdl.matches_octets]
  constructor
  · rintro ⟨hf, b₀, b₁, r₂, r₃, rfl, h0, hg, hb⟩
    exact ⟨hf, b₀, b₁, r₂, r₃, _, rfl, hg, h0, hb, rfl⟩
  · rintro ⟨hf, b₀, b₁, r₂, r₃, q, rfl, hg, h0, hb, rfl⟩
    exact ⟨hf, b₀, b₁, r₂, r₃, rfl, h0, hg, hb⟩

/-- The reserved bits are set. -/
example : Matches (bitsFor (ofCmd (.sessionSetAppConfig 0x04030201 [⟨⟨0x09⟩, [0xe8, 3, 0, 0]⟩])))
    [0x31, 0xc3, 0xff, 10, 1, 2, 3, 4, 1, 9, 4, 0xe8, 3, 0, 0] := by decide +kernel

/-- The controlees of a multicast update, of each of the three kinds of key. -/
theorem C99_controlees_read (n : Nat) (hn : n = 0 ∨ n = 16 ∨ n = 32) (l : List (WireControlee n)) (b : Bytes) :
    (Pdl.controleeList n).decFull b = some l ↔ l.length ≤ 255 ∧ Matches (controleeBits l) b := by
  rw [controlee_bits hn]
  exact (layf_controlees n).dec b l

example : Matches (controleeBits (n := 0) [⟨⟨[1, 2], rfl⟩, 0x06050403, ⟨[], rfl⟩⟩, ⟨⟨[7, 8], rfl⟩, 9, ⟨[], rfl⟩⟩])
    [2, 1, 2, 3, 4, 5, 6, 7, 8, 9, 0, 0, 0] := by decide +kernel

/-- Bytes are parsed as data from a host exactly when they have its layout. -/
theorem C99_data_read (m : DataMessageSnd) (pbf : PacketBoundaryFlag) (b : Bytes) :
    (∃ p, DataPacket.decode b = some p ∧ p.dpf = .dataSnd ∧ p.pbf = pbf ∧ p.mt = .data ∧
      Pdl.dataMessageSnd.decFull p.payload = some m) ↔
      m.applicationData.length ≤ 65535 ∧ Matches (bitsFor (ofDataSnd pbf.code.toNat m)) b := by
  have hp : pbf.code.toNat < 2 := by cases pbf <;> decide
  rw [ofDataSnd_bits, dataHead_matches_iff ⟨by decide, hp, by decide⟩]
  simp only [lays_dataSnd.full.dec, data_decode_iff]
  constructor
  · rintro ⟨p, ⟨b₀, r₁, r₂, r₃, rfl, h1, h2, h3⟩, h4, rfl, h5, hf, hm⟩
    rw [h4] at h1; rw [h5] at h3
    exact ⟨hf, _, _, _, _, _, rfl, h1, h2, h3, hm⟩
  · rintro ⟨hf, b₀, r₁, r₂, r₃, q, rfl, h1, h2, h3, hm⟩
    exact ⟨⟨.dataSnd, pbf, .data, q⟩, ⟨b₀, r₁, r₂, r₃, rfl, h1, h2, h3⟩, rfl, rfl, rfl, hf, hm⟩

example : Matches (bitsFor (ofDataSnd 1 ⟨5, 0x0102030405060708, 9, [10, 11]⟩))
    [0x11, 0xff, 0xff, 0xff, 5, 0, 0, 0, 8, 7, 6, 5, 4, 3, 2, 1, 9, 0, 2, 0, 10, 11] := by decide +kernel

/-! ### What a host reads with the same code -/

/-- A host parses bytes as a response exactly when they have its layout. -/
theorem C99_response_read (r : Rsp) (b : Bytes) :
    HostMessage.parse b = some (.rsp r) ↔ rspFits r ∧ Matches (bitsFor (ofRsp r)) b := by
  rw [ofRsp_bits, head_matches_iff (rspCode_lt r)]
  constructor
  · intro h
    obtain ⟨p, hp, h⟩ := Option.bind_eq_some_iff.1 h
    split at h
    · rename_i hm
      obtain ⟨r', hr, he⟩ := Option.map_eq_some_iff.1 h
      cases he
      obtain ⟨hf, hg, b₁, r₂, r₃, q, hq, ho, hb⟩ := (rsp_parse r _ _).1 hr
      cases b with
      | nil => cases hp
      | cons b₀ s =>
        obtain ⟨h1, h2, rfl⟩ := ControlPacket.decode_cons.mp hp
        rw [hm] at h2
        exact ⟨hf, b₀, b₁, r₂, r₃, q, by rw [hq], by rw [h1, hg], h2, ho, hb⟩
    · obtain ⟨r', hr, he⟩ := Option.map_eq_some_iff.1 h
      cases he
    · cases h
  · rintro ⟨hf, b₀, b₁, r₂, r₃, q, rfl, h1, h2, h3, hq⟩
    have : ∃ g : GroupId, g.code = (rspCode r).1 := by
      cases r
      case coreDeviceReset | coreGetDeviceInfo | coreGetCapsInfo | coreSetConfig | coreGetConfig =>
        exact ⟨.core, rfl⟩
      case sessionStart | sessionStop | sessionGetRangingCount => exact ⟨.sessionControl, rfl⟩
      case androidGetPowerStats | androidSetCountryCode => exact ⟨.vendorAndroid, rfl⟩
      all_goals exact ⟨.sessionConfig, rfl⟩
    obtain ⟨g, hg⟩ := this
    have hd : ControlPacket.decode (b₀ :: b₁ :: r₂ :: r₃ :: q) = some ⟨g, .response, b₁ :: r₂ :: r₃ :: q⟩ :=
      ControlPacket.decode_cons.mpr ⟨by rw [h1, hg], h2, rfl⟩
    unfold HostMessage.parse
    rw [hd]
    exact Option.map_eq_some_iff.2 ⟨r, (rsp_parse r _ _).2 ⟨hf, hg, b₁, r₂, r₃, q, rfl, h3, hq⟩, rfl⟩

/-- The same for notifications. -/
theorem C99_notification_read (n : Ntf) (b : Bytes) :
    HostMessage.parse b = some (.ntf n) ↔ ntfFits n ∧ Matches (bitsFor (ofNtf n)) b := by
  rw [ofNtf_bits, head_matches_iff (ntfCode_lt n)]
  constructor
  · intro h
    obtain ⟨p, hp, h⟩ := Option.bind_eq_some_iff.1 h
    split at h
    · obtain ⟨r', hr, he⟩ := Option.map_eq_some_iff.1 h
      cases he
    · rename_i hm
      obtain ⟨r', hr, he⟩ := Option.map_eq_some_iff.1 h
      cases he
      obtain ⟨hf, hg, b₁, r₂, r₃, q, hq, ho, hb⟩ := (ntf_parse n _ _).1 hr
      cases b with
      | nil => cases hp
      | cons b₀ s =>
        obtain ⟨h1, h2, rfl⟩ := ControlPacket.decode_cons.mp hp
        rw [hm] at h2
        exact ⟨hf, b₀, b₁, r₂, r₃, q, by rw [hq], by rw [h1, hg], h2, ho, hb⟩
    · cases h
  · rintro ⟨hf, b₀, b₁, r₂, r₃, q, rfl, h1, h2, h3, hq⟩
    have : ∃ g : GroupId, g.code = (ntfCode n).1 := by
      cases n
      case coreDeviceStatus => exact ⟨.core, rfl⟩
      case sessionStatus | sessionUpdateMulticast => exact ⟨.sessionConfig, rfl⟩
      all_goals exact ⟨.sessionControl, rfl⟩
    obtain ⟨g, hg⟩ := this
    have hd : ControlPacket.decode (b₀ :: b₁ :: r₂ :: r₃ :: q) = some ⟨g, .notification, b₁ :: r₂ :: r₃ :: q⟩ :=
      ControlPacket.decode_cons.mpr ⟨by rw [h1, hg], h2, rfl⟩
    unfold HostMessage.parse
    rw [hd]
    exact Option.map_eq_some_iff.2 ⟨n, (ntf_parse n _ _).2 ⟨hf, hg, b₁, r₂, r₃, q, rfl, h3, hq⟩, rfl⟩

/-- The same for data. -/
theorem C99_data_received (d : DataMessageRcv) (b : Bytes) :
    DataMessageRcv.parse b = some d ↔
      d.applicationData.length ≤ 65535 ∧ ∃ pbf : PacketBoundaryFlag, Matches (bitsFor (ofDataRcv pbf.code.toNat d)) b := by
  have hp : ∀ f : PacketBoundaryFlag, f.code.toNat < 2 := fun f => by cases f <;> decide
  have hs : ∀ f : PacketBoundaryFlag, Matches (bitsFor (ofDataRcv f.code.toNat d)) b ↔ _ := fun f => by
    rw [ofDataRcv_bits, dataHead_matches_iff ⟨by decide, hp f, by decide⟩]
  simp only [hs, DataMessageRcv.parse, Option.bind_eq_some_iff, data_decode_iff]
  constructor
  · rintro ⟨p, ⟨b₀, r₁, r₂, r₃, rfl, h1, h2, h3⟩, h⟩
    split at h
    · rename_i hc
      obtain ⟨hf, hm⟩ := (lays_dataRcv.full.dec _ _).1 h
      rw [hc.1] at h1; rw [hc.2] at h3
      exact ⟨hf, p.pbf, _, _, _, _, _, rfl, h1, h2, h3, hm⟩
    · cases h
  · rintro ⟨hf, f, b₀, r₁, r₂, r₃, q, rfl, h1, h2, h3, hm⟩
    exact ⟨⟨.dataRcv, f, .data, q⟩, ⟨b₀, r₁, r₂, r₃, rfl, h1, h2, h3⟩,
      (if_pos ⟨rfl, rfl⟩).trans ((lays_dataRcv.full.dec _ _).2 ⟨hf, hm⟩)⟩

/-! ### One packet for given bytes -/

/-- No bytes have the layouts of two commands, of two responses or of two notifications. -/
theorem C99_one (b : Bytes) :
    (∀ c c', cmdFits c → cmdFits c' → Matches (bitsFor (ofCmd c)) b → Matches (bitsFor (ofCmd c')) b → c = c') ∧
    (∀ r r', rspFits r → rspFits r' → Matches (bitsFor (ofRsp r)) b → Matches (bitsFor (ofRsp r')) b → r = r') ∧
    (∀ n n', ntfFits n → ntfFits n' → Matches (bitsFor (ofNtf n)) b → Matches (bitsFor (ofNtf n')) b → n = n') := by
  refine ⟨fun c c' h h' hm hm' => ?_, fun r r' h h' hm hm' => ?_, fun n n' h h' hm hm' => ?_⟩
  · obtain ⟨p, hp, -, hc⟩ := (C99_command_read c b).2 ⟨h, hm⟩
    obtain ⟨q, hq, -, hc'⟩ := (C99_command_read c' b).2 ⟨h', hm'⟩
    cases hp.symm.trans hq
    cases hc.symm.trans hc'
    rfl
  · cases ((C99_response_read r b).2 ⟨h, hm⟩).symm.trans ((C99_response_read r' b).2 ⟨h', hm'⟩)
    rfl
  · cases ((C99_notification_read n b).2 ⟨h, hm⟩).symm.trans ((C99_notification_read n' b).2 ⟨h', hm'⟩)
    rfl

example : cmdFits (.coreDeviceReset .uwbsReset) ∧ Matches (bitsFor (ofCmd (.coreDeviceReset .uwbsReset))) [0x20, 0, 0, 1, 0] :=
  ⟨trivial, by decide +kernel⟩

end Pica.Props
