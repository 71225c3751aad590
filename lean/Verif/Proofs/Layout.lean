import Verif.Proofs.Lays
import Verif.Proofs.PyTakenPacket
import Verif.Model.HostPackets
/-! The messages of the emulator have the layouts of the packet description. -/

namespace Pica
open Spec Codec
open Spec.Pdl (Pattern nat gap octets Agrees Matches Takes IsWritten takes_nil octets_cons octets_append octets_leBytes
  octets_length nat_length matches_octets written_octets written_unique)
open Py (firstPat opcodePat dataPat listPat)
set_option linter.unusedSimpArgs false

/-! ### Heads -/

/-- The four bytes before the payload of a control packet. -/
def headBits (g mt oid : Nat) : Pattern := firstPat g mt ++ opcodePat oid

theorem headBits_length (g mt oid : Nat) : (headBits g mt oid).length = 8 * 4 := by
  simp [headBits, firstPat, opcodePat, nat_length, gap]

theorem head_written {g mt oid : Nat} (h : (g < 16 ∧ mt < 8) ∧ oid < 64) :
    IsWritten (headBits g mt oid) [UInt8.ofNat (mt * 32 + g), UInt8.ofNat oid, 0, 0] := by
  obtain ⟨⟨hg, hm⟩, ho⟩ := h
  have h1 : IsWritten (firstPat g mt) [UInt8.ofNat (mt * 32 + g)] := by
    revert g
    intro g hg
    have : ∀ m : Fin 8, ∀ g : Fin 16, IsWritten (firstPat g m) [UInt8.ofNat (m.1 * 32 + g)] := by decide +kernel
    exact this ⟨mt, hm⟩ ⟨g, hg⟩
  have h2 : IsWritten (opcodePat oid) [UInt8.ofNat oid, 0, 0] := by
    have : ∀ o : Fin 64, IsWritten (opcodePat o) [UInt8.ofNat o.1, 0, 0] := by decide +kernel
    exact this ⟨oid, ho⟩
  exact h1.append h2

theorem head_written_iff {g mt oid : Nat} (h : (g < 16 ∧ mt < 8) ∧ oid < 64) {p : Pattern} {b : Bytes} :
    IsWritten (headBits g mt oid ++ p) b ↔
      ∃ q, b = UInt8.ofNat (mt * 32 + g) :: UInt8.ofNat oid :: 0 :: 0 :: q ∧ IsWritten p q := by
  constructor
  · intro hb
    obtain ⟨b₁, b₂, rfl, h1, h2⟩ := written_split (headBits_length g mt oid) hb
    rw [written_unique h1 (head_written h)]
    exact ⟨b₂, rfl, h2⟩
  · rintro ⟨q, rfl, hq⟩
    exact (head_written h).append hq

theorem head_matches_iff {g mt oid : Nat} (h : (g < 16 ∧ mt < 8) ∧ oid < 64) {p : Pattern} {s : Bytes} :
    Matches (headBits g mt oid ++ p) s ↔
      ∃ b₀ b₁ r₂ r₃ q, s = b₀ :: b₁ :: r₂ :: r₃ :: q ∧ b₀.toNat % 16 = g ∧ b₀.toNat / 32 = mt ∧ b₁.toNat % 64 = oid ∧
        Matches p q := by
  obtain ⟨⟨hg, hm⟩, ho⟩ := h
  have hand : ∀ b : UInt8, b.toNat &&& 0xf = b.toNat % 16 := fun b => Nat.and_two_pow_sub_one_eq_mod _ 4
  have hshr : ∀ b : UInt8, (b.toNat >>> 5) &&& 0x7 = b.toNat / 32 := fun b => by
    rw [show (7 : Nat) = 2 ^ 3 - 1 from rfl, Nat.and_two_pow_sub_one_eq_mod, Nat.shiftRight_eq_div_pow]
    have := b.toNat_lt
    omega
  have hop : ∀ b : UInt8, b.toNat &&& 0x3f = b.toNat % 64 := fun b => Nat.and_two_pow_sub_one_eq_mod _ 6
  unfold headBits
  rw [List.append_assoc]
  constructor
  · intro hs
    obtain ⟨h1, h2, h3, h4⟩ := Py.fw_first hg hm hs.takes
    obtain ⟨h5, h6⟩ := Py.fw_opcode (l := [oid]) ho (by simp) h4
    simp only [Py.opcode, Option.bind_eq_bind, Option.bind_eq_some_iff, Py.need_iff, Py.fromInt_iff, Option.pure_def,
      Option.some.injEq, Prod.mk.injEq, and_true] at h5
    obtain ⟨_, h7, v, ⟨_, h8⟩, h9⟩ := h5
    match s, h1, h7 with
    | b₀ :: b₁ :: r₂ :: r₃ :: q, _, _ =>
      refine ⟨b₀, b₁, r₂, r₃, q, rfl, (hand b₀).symm.trans h2, (hshr b₀).symm.trans h3, ?_, h6.matches⟩
      rw [← hop, ← h9, ← h8]
      rfl
    | [_], _, h7 | [_, _], _, h7 | [_, _, _], _, h7 => simp at h7
    | [], h1, _ => simp at h1
  · rintro ⟨b₀, b₁, r₂, r₃, q, rfl, rfl, rfl, rfl, hq⟩
    have h1 := Py.rd_first (s := b₀ :: b₁ :: r₂ :: r₃ :: q) (by simp)
    have h2 := Py.rd_opcode (l := [b₁.toNat % 64]) (s := b₁ :: r₂ :: r₃ :: q) (oid := b₁.toNat % 64) (p := q) (by
      simp only [Py.opcode, Option.bind_eq_bind, Option.bind_eq_some_iff, Py.need_iff, Py.fromInt_iff, Option.pure_def,
        Option.some.injEq, Prod.mk.injEq]
      exact ⟨(), by simp, _, ⟨by simp [Py.idx, hop], rfl⟩, by simp [Py.idx, hop], rfl⟩)
    have e1 : Py.idx (b₀ :: b₁ :: r₂ :: r₃ :: q) 0 = b₀.toNat := rfl
    rw [e1, hand, hshr] at h1
    exact (h1.append (h2.append hq.takes)).matches

/-! ### Structures -/

theorem lays_capType : Lays capType (fun x => CapTlvType.isTag x.code) (fun x => nat 8 x.code.toNat) :=
  lays_of describes_capType (by
    intro bs x r h
    cases bs with
    | nil => cases h
    | cons b bs =>
      simp only [capType] at h
      split at h
      · cases h; exact ⟨by assumption, rfl⟩
      · cases h) fun x => by simp [octets_cons, Spec.Pdl.octets_nil]

def lvPat (v : Bytes) : Pattern := nat 8 v.length ++ octets v
def measurementBits (m : Measurement) : Pattern :=
  nat 16 m.macAddress.toNat ++ (nat 8 m.status.code.toNat ++ (nat 8 m.nlos.toNat ++ (nat 16 m.distance.toNat ++
    (nat 16 m.aoaAzimuth.toNat ++ (nat 8 m.aoaAzimuthFom.toNat ++ (nat 16 m.aoaElevation.toNat ++
    (nat 8 m.aoaElevationFom.toNat ++ (nat 16 m.aoaDestinationAzimuth.toNat ++ (nat 8 m.aoaDestinationAzimuthFom.toNat ++
    (nat 16 m.aoaDestinationElevation.toNat ++ (nat 8 m.aoaDestinationElevationFom.toNat ++ (nat 8 m.slotIndex.toNat ++
    (nat 8 m.rssi.toNat ++ (gap 64 ++ gap 24))))))))))))))
def powerStatsBits (s : PowerStats) : Pattern :=
  nat 8 s.status.code.toNat ++ (nat 32 s.idleTimeMs.toNat ++ (nat 32 s.txTimeMs.toNat ++ (nat 32 s.rxTimeMs.toNat ++
    nat 32 s.totalWakeCount.toNat)))

theorem lays_configParameter : Lays Pdl.configParameter (fun x => x.value.length ≤ 255)
    (fun x => nat 8 x.id.code.toNat ++ lvPat x.value) :=
  (lays_iso (lays_seq lays_configId lays_bytes8) (fun _ => rfl) (fun _ => rfl)).congr (fun _ => by simp) fun _ => rfl
theorem lays_configParameterStatus : Lays Pdl.configParameterStatus (fun _ => True)
    (fun x => nat 8 x.id.code.toNat ++ nat 8 x.status.code.toNat) :=
  (lays_iso (lays_seq lays_configId lays_status) (fun _ => rfl) (fun _ => rfl)).congr (fun _ => by simp) fun _ => rfl
theorem lays_capTlv : Lays Pdl.capTlv (fun x => CapTlvType.isTag x.t.code ∧ x.v.length ≤ 255)
    (fun x => nat 8 x.t.code.toNat ++ lvPat x.v) :=
  (lays_iso (lays_seq lays_capType lays_bytes8) (fun _ => rfl) (fun _ => rfl)).congr (fun _ => by simp) fun _ => rfl
theorem lays_appConfigTlv : Lays Pdl.appConfigTlv (fun x => AppConfigTlvType.isTag x.cfgId.code ∧ x.v.length ≤ 255)
    (fun x => nat 8 x.cfgId.code.toNat ++ lvPat x.v) :=
  (lays_iso (lays_seq lays_tlvType lays_bytes8) (fun _ => rfl) (fun _ => rfl)).congr (fun _ => by simp) fun _ => rfl
theorem lays_appConfigStatus : Lays Pdl.appConfigStatus (fun x => AppConfigTlvType.isTag x.cfgId.code)
    (fun x => nat 8 x.cfgId.code.toNat ++ nat 8 x.status.code.toNat) :=
  (lays_iso (lays_seq lays_tlvType lays_status) (fun _ => rfl) (fun _ => rfl)).congr (fun _ => by simp) fun _ => rfl
theorem lays_controleeStatus : Lays Pdl.controleeStatus (fun _ => True)
    (fun x => octets x.macAddress.1 ++ nat 8 x.status.code.toNat) :=
  (lays_iso (lays_seq (lays_arr 2) (lays_enum _)) (fun _ => rfl) (fun _ => rfl)).congr (fun _ => by simp) fun _ => rfl
theorem lays_controlee (n : Nat) : Lays (Pdl.controlee n) (fun _ => True)
    (fun x => octets x.shortAddress.1 ++ (nat 32 x.subsessionId.toNat ++ octets x.subsessionKey.1)) :=
  (lays_iso (lays_seq (lays_arr 2) (lays_seq lays_u32 (lays_arr n))) (fun _ => rfl) (fun _ => rfl)).congr (fun _ => by simp)
    fun _ => rfl
theorem lays_measurement : Lays Pdl.measurement (fun _ => True) measurementBits :=
  (lays_iso (lays_seq lays_u16 (lays_seq lays_status (lays_seq lays_u8 (lays_seq lays_u16 (lays_seq lays_u16 (lays_seq lays_u8
    (lays_seq lays_u16 (lays_seq lays_u8 (lays_seq lays_u16 (lays_seq lays_u8 (lays_seq lays_u16 (lays_seq lays_u8
    (lays_seq lays_u8 (lays_seq lays_u8 (lays_seq (lays_reserved 8) (lays_reserved 3)))))))))))))))) (fun _ => rfl)
    (fun _ => rfl)).congr (fun _ => by simp) fun _ => rfl
theorem lays_powerStats : Lays Pdl.powerStats (fun _ => True) powerStatsBits :=
  (lays_iso (lays_seq lays_status (lays_seq lays_u32 (lays_seq lays_u32 (lays_seq lays_u32 lays_u32)))) (fun _ => rfl)
    (fun _ => rfl)).congr (fun _ => by simp) fun _ => rfl

/-! ### Payloads -/

/-- The bits of the payload of a command. -/
def cmdBits : Cmd → Pattern
  | .coreDeviceReset c => nat 8 c.code.toNat
  | .coreGetDeviceInfo | .coreGetCapsInfo | .sessionGetCount | .androidGetPowerStats => []
  | .coreSetConfig l => listPat (fun x => nat 8 x.id.code.toNat ++ lvPat x.value) l
  | .coreGetConfig l => listPat (fun x => nat 8 x.code.toNat) l
  | .sessionInit i t => nat 32 i.toNat ++ nat 8 t.code.toNat
  | .sessionSetAppConfig t l => nat 32 t.toNat ++ listPat (fun x => nat 8 x.cfgId.code.toNat ++ lvPat x.v) l
  | .sessionGetAppConfig t l => nat 32 t.toNat ++ listPat (fun x => nat 8 x.code.toNat) l
  | .sessionUpdateMulticast t a p => nat 32 t.toNat ++ (nat 8 a.code.toNat ++ octets p)
  | .sessionDeinit t | .sessionGetState t | .sessionStart t | .sessionStop t | .sessionGetRangingCount t => nat 32 t.toNat
  | .androidSetCountryCode c => octets c.1

/-- The bits of the payload of a response. -/
def rspBits : Rsp → Pattern
  | .coreDeviceReset s | .sessionInit s | .sessionDeinit s | .sessionStart s | .sessionStop s
  | .androidSetCountryCode s => nat 8 s.code.toNat
  | .coreGetDeviceInfo s a b c d v =>
    nat 8 s.code.toNat ++ (nat 16 a.toNat ++ (nat 16 b.toNat ++ (nat 16 c.toNat ++ (nat 16 d.toNat ++ lvPat v))))
  | .coreGetCapsInfo s l => nat 8 s.code.toNat ++ listPat (fun x => nat 8 x.t.code.toNat ++ lvPat x.v) l
  | .coreSetConfig s l => nat 8 s.code.toNat ++ listPat (fun x => nat 8 x.id.code.toNat ++ nat 8 x.status.code.toNat) l
  | .coreGetConfig s l => nat 8 s.code.toNat ++ listPat (fun x => nat 8 x.id.code.toNat ++ lvPat x.value) l
  | .sessionGetCount s n => nat 8 s.code.toNat ++ nat 8 n.toNat
  | .sessionSetAppConfig s l =>
    nat 8 s.code.toNat ++ listPat (fun x => nat 8 x.cfgId.code.toNat ++ nat 8 x.status.code.toNat) l
  | .sessionGetAppConfig s l => nat 8 s.code.toNat ++ listPat (fun x => nat 8 x.cfgId.code.toNat ++ lvPat x.v) l
  | .sessionGetState s t => nat 8 s.code.toNat ++ nat 8 t.code.toNat
  | .sessionUpdateMulticast s l =>
    nat 8 s.code.toNat ++ listPat (fun x => octets x.macAddress.1 ++ nat 8 x.status.code.toNat) l
  | .sessionGetRangingCount s n => nat 8 s.code.toNat ++ nat 32 n.toNat
  | .androidGetPowerStats s => powerStatsBits s

/-- The bits of the payload of a notification. -/
def ntfBits : Ntf → Pattern
  | .coreDeviceStatus s => nat 8 s.code.toNat
  | .sessionStatus t s r => nat 32 t.toNat ++ (nat 8 s.code.toNat ++ nat 8 r.toNat)
  | .sessionUpdateMulticast t l =>
    nat 32 t.toNat ++ listPat (fun x => octets x.macAddress.1 ++ nat 8 x.status.code.toNat) l
  | .sessionDataCredit t a => nat 32 t.toNat ++ nat 8 a.code.toNat
  | .sessionDataTransferStatus t n s c => nat 32 t.toNat ++ (nat 8 n.toNat ++ (nat 8 s.code.toNat ++ nat 8 c.toNat))
  | .sessionInfo n t r i l v =>
    nat 32 n.toNat ++ (nat 32 t.toNat ++ (nat 8 r.toNat ++ (nat 32 i.toNat ++ (nat 8 1 ++ (gap 8 ++ (nat 8 0 ++ (gap 64 ++
      (listPat measurementBits l ++ octets v))))))))

/-! The same in terms of the packet description. -/

open Spec.Pdl in
theorem configParameter_bits (x : ConfigParameter) : patterns (ofConfigParameter x) [] Spec.Pdl.configParameter = nat 8 x.id.code.toNat ++ lvPat x.value := by
  simp [ofConfigParameter, byte, Spec.Pdl.configParameter, patterns, Field.pattern, Values.int, Values.length, Values.bytes, Values.get, lvPat,
    measurementBits, powerStatsBits]
open Spec.Pdl in
theorem configParameterStatus_bits (x : ConfigParameterStatus) : patterns (ofConfigParameterStatus x) [] Spec.Pdl.configParameterStatus = nat 8 x.id.code.toNat ++ nat 8 x.status.code.toNat := by
  simp [ofConfigParameterStatus, byte, Spec.Pdl.configParameterStatus, patterns, Field.pattern, Values.int, Values.length, Values.bytes, Values.get, lvPat,
    measurementBits, powerStatsBits]
open Spec.Pdl in
theorem capTlv_bits (x : CapTlv) : patterns (ofCapTlv x) [] Spec.Pdl.capTlv = nat 8 x.t.code.toNat ++ lvPat x.v := by
  simp [ofCapTlv, byte, Spec.Pdl.capTlv, patterns, Field.pattern, Values.int, Values.length, Values.bytes, Values.get, lvPat,
    measurementBits, powerStatsBits]
open Spec.Pdl in
theorem appConfigTlv_bits (x : AppConfigTlv) : patterns (ofAppConfigTlv x) [] Spec.Pdl.appConfigTlv = nat 8 x.cfgId.code.toNat ++ lvPat x.v := by
  simp [ofAppConfigTlv, byte, Spec.Pdl.appConfigTlv, patterns, Field.pattern, Values.int, Values.length, Values.bytes, Values.get, lvPat,
    measurementBits, powerStatsBits]
open Spec.Pdl in
theorem appConfigStatus_bits (x : AppConfigStatus) : patterns (ofAppConfigStatus x) [] Spec.Pdl.appConfigStatus = nat 8 x.cfgId.code.toNat ++ nat 8 x.status.code.toNat := by
  simp [ofAppConfigStatus, byte, Spec.Pdl.appConfigStatus, patterns, Field.pattern, Values.int, Values.length, Values.bytes, Values.get, lvPat,
    measurementBits, powerStatsBits]
open Spec.Pdl in
theorem controleeStatus_bits (x : ControleeStatus) : patterns (ofControleeStatus x) [] Spec.Pdl.controleeStatus = octets x.macAddress.1 ++ nat 8 x.status.code.toNat := by
  simp [ofControleeStatus, byte, Spec.Pdl.controleeStatus, patterns, Field.pattern, Values.int, Values.length, Values.bytes, Values.get, lvPat,
    measurementBits, powerStatsBits]
open Spec.Pdl in
theorem measurement_bits (x : Measurement) : patterns (ofMeasurement x) [] Spec.Pdl.shortAddressTwoWayRangingMeasurement = measurementBits x := by
  simp [ofMeasurement, byte, Spec.Pdl.shortAddressTwoWayRangingMeasurement, patterns, Field.pattern, Values.int, Values.length, Values.bytes, Values.get, lvPat,
    measurementBits, powerStatsBits]
open Spec.Pdl in
theorem powerStats_bits (x : PowerStats) : patterns (ofPowerStats x) [] Spec.Pdl.powerStats = powerStatsBits x := by
  simp [ofPowerStats, byte, Spec.Pdl.powerStats, patterns, Field.pattern, Values.int, Values.length, Values.bytes, Values.get, lvPat,
    measurementBits, powerStatsBits]

theorem ofCmd_bits (c : Cmd) :
    bitsFor (ofCmd c) = headBits (cmdCode c).1.toNat 1 (cmdCode c).2.toNat ++ cmdBits c := by
  cases c <;> simp [ofCmd, cmdCode, cmdBits, Spec.Pdl.octets_nil, Spec.Pdl.Packet.pattern, Spec.Pdl.Packet.within, Spec.Pdl.patterns,
    Spec.Pdl.Field.pattern, Spec.Pdl.Values.int, Spec.Pdl.Values.get, Spec.Pdl.Values.length, Spec.Pdl.Values.bytes, Spec.Pdl.Values.ints,
    Spec.Pdl.Values.records, Spec.Pdl.Values.record, List.flatMap_map, headBits, firstPat, opcodePat, dataPat, listPat, lvPat, byte, bitsFor,
    Spec.Pdl.controlPacket, Spec.Pdl.corePacket, Spec.Pdl.sessionConfigPacket, Spec.Pdl.sessionControlPacket, Spec.Pdl.androidPacket,
    configParameter_bits, configParameterStatus_bits, capTlv_bits, appConfigTlv_bits, appConfigStatus_bits, controleeStatus_bits, measurement_bits, powerStats_bits,
    Spec.Pdl.coreDeviceResetCmd, Spec.Pdl.coreGetDeviceInfoCmd, Spec.Pdl.coreGetCapsInfoCmd, Spec.Pdl.coreSetConfigCmd, Spec.Pdl.coreGetConfigCmd, Spec.Pdl.sessionInitCmd, Spec.Pdl.sessionDeinitCmd, Spec.Pdl.sessionGetCountCmd, Spec.Pdl.sessionSetAppConfigCmd, Spec.Pdl.sessionGetAppConfigCmd, Spec.Pdl.sessionGetStateCmd, Spec.Pdl.sessionUpdateControllerMulticastListCmd, Spec.Pdl.sessionStartCmd, Spec.Pdl.sessionStopCmd, Spec.Pdl.sessionGetRangingCountCmd, Spec.Pdl.androidGetPowerStatsCmd, Spec.Pdl.androidSetCountryCodeCmd]

theorem ofRsp_bits (c : Rsp) :
    bitsFor (ofRsp c) = headBits (rspCode c).1.toNat 2 (rspCode c).2.toNat ++ rspBits c := by
  cases c <;> simp [ofRsp, rspCode, rspBits, Spec.Pdl.octets_nil, Spec.Pdl.Packet.pattern, Spec.Pdl.Packet.within, Spec.Pdl.patterns,
    Spec.Pdl.Field.pattern, Spec.Pdl.Values.int, Spec.Pdl.Values.get, Spec.Pdl.Values.length, Spec.Pdl.Values.bytes, Spec.Pdl.Values.ints,
    Spec.Pdl.Values.records, Spec.Pdl.Values.record, List.flatMap_map, headBits, firstPat, opcodePat, dataPat, listPat, lvPat, byte, bitsFor,
    Spec.Pdl.controlPacket, Spec.Pdl.corePacket, Spec.Pdl.sessionConfigPacket, Spec.Pdl.sessionControlPacket, Spec.Pdl.androidPacket,
    configParameter_bits, configParameterStatus_bits, capTlv_bits, appConfigTlv_bits, appConfigStatus_bits, controleeStatus_bits, measurement_bits, powerStats_bits,
    Spec.Pdl.coreDeviceResetRsp, Spec.Pdl.coreGetDeviceInfoRsp, Spec.Pdl.coreGetCapsInfoRsp, Spec.Pdl.coreSetConfigRsp, Spec.Pdl.coreGetConfigRsp, Spec.Pdl.sessionInitRsp, Spec.Pdl.sessionDeinitRsp, Spec.Pdl.sessionGetCountRsp, Spec.Pdl.sessionSetAppConfigRsp, Spec.Pdl.sessionGetAppConfigRsp, Spec.Pdl.sessionGetStateRsp, Spec.Pdl.sessionUpdateControllerMulticastListRsp, Spec.Pdl.sessionStartRsp, Spec.Pdl.sessionStopRsp, Spec.Pdl.sessionGetRangingCountRsp, Spec.Pdl.androidGetPowerStatsRsp, Spec.Pdl.androidSetCountryCodeRsp]

theorem ofNtf_bits (c : Ntf) :
    bitsFor (ofNtf c) = headBits (ntfCode c).1.toNat 3 (ntfCode c).2.toNat ++ ntfBits c := by
  cases c <;> simp [ofNtf, ntfCode, ntfBits, Spec.Pdl.octets_nil, Spec.Pdl.Packet.pattern, Spec.Pdl.Packet.within, Spec.Pdl.patterns,
    Spec.Pdl.Field.pattern, Spec.Pdl.Values.int, Spec.Pdl.Values.get, Spec.Pdl.Values.length, Spec.Pdl.Values.bytes, Spec.Pdl.Values.ints,
    Spec.Pdl.Values.records, Spec.Pdl.Values.record, List.flatMap_map, headBits, firstPat, opcodePat, dataPat, listPat, lvPat, byte, bitsFor,
    Spec.Pdl.controlPacket, Spec.Pdl.corePacket, Spec.Pdl.sessionConfigPacket, Spec.Pdl.sessionControlPacket, Spec.Pdl.androidPacket,
    configParameter_bits, configParameterStatus_bits, capTlv_bits, appConfigTlv_bits, appConfigStatus_bits, controleeStatus_bits, measurement_bits, powerStats_bits,
    Spec.Pdl.coreDeviceStatusNtf, Spec.Pdl.sessionStatusNtf, Spec.Pdl.sessionUpdateControllerMulticastListNtf, Spec.Pdl.sessionDataCreditNtf, Spec.Pdl.sessionDataTransferStatusNtf, Spec.Pdl.shortMacTwoWaySessionInfoNtf, Spec.Pdl.sessionInfoNtf]

end Pica
