import Verif.Proofs.Layout
/-! The parsers and serialisers of the messages, by the layouts of their payloads. -/

namespace Pica
open Spec Codec
open Spec.Pdl (Pattern nat gap octets Agrees Matches Takes IsWritten)
open Py (firstPat opcodePat dataPat listPat)
set_option linter.unusedSimpArgs false

theorem lay_listOf {α : Type} {a : Codec α} {f g : α → Prop} {p : α → Pattern} (h : Lays a f p) (hg : ∀ x, f x ↔ g x) :
    LaysFull (seq status (counted8 a)) (fun x => x.2.length ≤ 255 ∧ ∀ y ∈ x.2, g y)
      (fun x => nat 8 x.1.code.toNat ++ listPat p x.2) := by
  obtain rfl : f = g := funext fun x => propext (hg x)
  exact (lays_seq lays_status (lays_counted8 h)).full.congr (fun _ => by simp) fun _ => rfl

theorem lay_countOf {α : Type} {a : Codec α} {p : α → Pattern} (h : Lays a (fun _ => True) p) :
    LaysFull (seq status (counted8 a)) (fun x => x.2.length ≤ 255) (fun x => nat 8 x.1.code.toNat ++ listPat p x.2) :=
  (lay_listOf h fun _ => Iff.rfl).congr (fun _ => by simp) fun _ => rfl

theorem layf_deviceInfo : LaysFull Rsp.deviceInfoCodec (fun x => x.2.2.2.2.2.length ≤ 255)
    (fun x => nat 8 x.1.code.toNat ++ (nat 16 x.2.1.toNat ++ (nat 16 x.2.2.1.toNat ++ (nat 16 x.2.2.2.1.toNat ++
      (nat 16 x.2.2.2.2.1.toNat ++ lvPat x.2.2.2.2.2))))) :=
  (lays_seq lays_status (lays_seq lays_u16 (lays_seq lays_u16 (lays_seq lays_u16 (lays_seq lays_u16 lays_bytes8))))).full.congr
    (fun _ => by simp) fun _ => rfl
theorem layf_count : LaysFull (seq status u8) (fun _ => True) (fun x => nat 8 x.1.code.toNat ++ nat 8 x.2.toNat) :=
  (lays_seq lays_status lays_u8).full.congr (fun _ => by simp) fun _ => rfl
theorem layf_state : LaysFull (seq status (enum SessionState)) (fun _ => True)
    (fun x => nat 8 x.1.code.toNat ++ nat 8 x.2.code.toNat) :=
  (lays_seq lays_status (lays_enum SessionState)).full.congr (fun _ => by simp) fun _ => rfl
theorem layf_rangingCount : LaysFull (seq status u32) (fun _ => True) (fun x => nat 8 x.1.code.toNat ++ nat 32 x.2.toNat) :=
  (lays_seq lays_status lays_u32).full.congr (fun _ => by simp) fun _ => rfl
theorem layf_sessionStatus : LaysFull (seq u32 (seq (enum SessionState) u8)) (fun _ => True)
    (fun x => nat 32 x.1.toNat ++ (nat 8 x.2.1.code.toNat ++ nat 8 x.2.2.toNat)) :=
  (lays_seq lays_u32 (lays_seq (lays_enum SessionState) lays_u8)).full.congr (fun _ => by simp) fun _ => rfl
theorem layf_multicastNtf : LaysFull (seq u32 (counted8 Pdl.controleeStatus)) (fun x => x.2.length ≤ 255)
    (fun x => nat 32 x.1.toNat ++ listPat (fun x => octets x.macAddress.1 ++ nat 8 x.status.code.toNat) x.2) :=
  (lays_seq lays_u32 (lays_counted8 lays_controleeStatus)).full.congr (fun _ => by simp) fun _ => rfl
theorem layf_credit : LaysFull (seq u32 (enum CreditAvailability)) (fun _ => True)
    (fun x => nat 32 x.1.toNat ++ nat 8 x.2.code.toNat) :=
  (lays_seq lays_u32 (lays_enum CreditAvailability)).full.congr (fun _ => by simp) fun _ => rfl
theorem layf_transferStatus : LaysFull (seq u32 (seq u8 (seq (enum DataTransferNtfStatusCode) u8))) (fun _ => True)
    (fun x => nat 32 x.1.toNat ++ (nat 8 x.2.1.toNat ++ (nat 8 x.2.2.1.code.toNat ++ nat 8 x.2.2.2.toNat))) :=
  (lays_seq lays_u32 (lays_seq lays_u8 (lays_seq (lays_enum DataTransferNtfStatusCode) lays_u8))).full.congr
    (fun _ => by simp) fun _ => rfl
theorem layf_sessionInfo : LaysFull Ntf.sessionInfoCodec (fun (_, _, _, _, _, _, _, _, m, _) => m.length ≤ 255)
    (fun (n, t, r, i, mt, _, ind, _, m, v) =>
      nat 32 n.toNat ++ (nat 32 t.toNat ++ (nat 8 r.toNat ++ (nat 32 i.toNat ++ (nat 8 (WireEnum.toU8 mt).toNat ++ (gap 8 ++
        (nat 8 (WireEnum.toU8 ind).toNat ++ (gap 64 ++ (listPat measurementBits m ++ octets v))))))))) :=
  (layf_seq lays_u32 (layf_seq lays_u32 (layf_seq lays_u8 (layf_seq lays_u32 (layf_seq (lays_enum RangingMeasurementType)
    (layf_seq (lays_reserved 1) (layf_seq (lays_enum MacAddressIndicator) (layf_seq (lays_reserved 8)
    (layf_seq (lays_counted8 lays_measurement) layf_rest))))))))).congr (fun _ => by simp) fun _ => rfl

/-! ### Serialisers -/

theorem rsp_written (r : Rsp) (p : Bytes) : r.encodePayload = some p ↔ rspFits r ∧ IsWritten (rspBits r) p := by
  cases r
  case coreGetDeviceInfo s a b c d v => exact layf_deviceInfo.enc (s, a, b, c, d, v) p
  case coreGetCapsInfo s t => exact (lay_listOf lays_capTlv fun _ => Iff.rfl).enc (s, t) p
  case coreSetConfig s t => exact (lay_countOf lays_configParameterStatus).enc (s, t) p
  case coreGetConfig s t => exact (lay_listOf lays_configParameter fun _ => Iff.rfl).enc (s, t) p
  case sessionGetCount s n => exact layf_count.enc (s, n) p
  case sessionSetAppConfig s t => exact (lay_listOf lays_appConfigStatus fun _ => Iff.rfl).enc (s, t) p
  case sessionGetAppConfig s t => exact (lay_listOf lays_appConfigTlv fun _ => Iff.rfl).enc (s, t) p
  case sessionGetState s n => exact layf_state.enc (s, n) p
  case sessionUpdateMulticast s t => exact (lay_countOf lays_controleeStatus).enc (s, t) p
  case sessionGetRangingCount s n => exact layf_rangingCount.enc (s, n) p
  case androidGetPowerStats s => exact lays_powerStats.enc s p
  all_goals exact lays_status.enc _ _

theorem ntf_written (n : Ntf) (p : Bytes) : n.encodePayload = some p ↔ ntfFits n ∧ IsWritten (ntfBits n) p := by
  cases n
  case coreDeviceStatus s => exact (lays_enum DeviceState).enc s p
  case sessionStatus t s r => exact layf_sessionStatus.enc (t, s, r) p
  case sessionUpdateMulticast t l => exact layf_multicastNtf.enc (t, l) p
  case sessionDataCredit t a => exact layf_credit.enc (t, a) p
  case sessionDataTransferStatus t n s c => exact layf_transferStatus.enc (t, n, s, c) p
  case sessionInfo n t r i m v => exact layf_sessionInfo.enc (n, t, r, i, .twoWay, (), .shortAddress, (), m, v) p

/-! ### Parsers -/

theorem decodeOid_iff {E : Type} [WireEnum E] [LawfulWireEnum E] {p q : Bytes} {e : E} :
    decodeOid E p = some (e, q) ↔ ∃ b r₂ r₃, p = b :: r₂ :: r₃ :: q ∧ b.toNat % 64 = (WireEnum.toU8 e).toNat := by
  constructor
  · intro h
    unfold decodeOid at h
    split at h
    · simp only [Option.map_eq_some_iff, WireEnum.ofU8?_eq_some, Prod.mk.injEq] at h
      obtain ⟨_, hb, rfl, rfl⟩ := h
      exact ⟨_, _, _, rfl, and_3f_eq.mp hb.symm⟩
    · cases h
  · rintro ⟨b, r₂, r₃, rfl, hb⟩
    simp only [decodeOid, Option.map_eq_some_iff, Prod.mk.injEq, and_true, exists_eq_right, WireEnum.ofU8?_eq_some]
    exact (and_3f_eq.mpr hb).symm

/-- A payload after the opcode. -/
def Opcoded (oid : UInt8) (pat : Pattern) (p : Bytes) : Prop :=
  ∃ b r₂ r₃ q, p = b :: r₂ :: r₃ :: q ∧ b.toNat % 64 = oid.toNat ∧ Matches pat q

theorem rsp_parse (r : Rsp) (g : GroupId) (p : Bytes) :
    Rsp.parse g p = some r ↔ rspFits r ∧ g.code = (rspCode r).1 ∧ Opcoded (rspCode r).2 (rspBits r) p := by
  constructor
  · intro h
    unfold Rsp.parse at h
    split at h
    · obtain ⟨⟨oid, q⟩, h1, h2⟩ := Option.bind_eq_some_iff.1 h
      obtain ⟨b, r₂, r₃, rfl, hb⟩ := decodeOid_iff.1 h1
      dsimp only at h2
      split at h2
      · obtain ⟨x, hx, rfl⟩ := Option.map_eq_some_iff.1 h2
        obtain ⟨hf, hm⟩ := (lays_status.full.dec _ _).1 hx
        exact ⟨hf, rfl, _, _, _, _, rfl, hb, hm⟩
      · obtain ⟨x, hx, rfl⟩ := Option.map_eq_some_iff.1 h2
        obtain ⟨hf, hm⟩ := (layf_deviceInfo.dec _ _).1 hx
        exact ⟨hf, rfl, _, _, _, _, rfl, hb, hm⟩
      · obtain ⟨x, hx, rfl⟩ := Option.map_eq_some_iff.1 h2
        obtain ⟨hf, hm⟩ := ((lay_listOf lays_capTlv fun _ => Iff.rfl).dec _ _).1 hx
        exact ⟨hf, rfl, _, _, _, _, rfl, hb, hm⟩
      · obtain ⟨x, hx, rfl⟩ := Option.map_eq_some_iff.1 h2
        obtain ⟨hf, hm⟩ := ((lay_countOf lays_configParameterStatus).dec _ _).1 hx
        exact ⟨hf, rfl, _, _, _, _, rfl, hb, hm⟩
      · obtain ⟨x, hx, rfl⟩ := Option.map_eq_some_iff.1 h2
        obtain ⟨hf, hm⟩ := ((lay_listOf lays_configParameter fun _ => Iff.rfl).dec _ _).1 hx
        exact ⟨hf, rfl, _, _, _, _, rfl, hb, hm⟩
      · cases h2
    · obtain ⟨⟨oid, q⟩, h1, h2⟩ := Option.bind_eq_some_iff.1 h
      obtain ⟨b, r₂, r₃, rfl, hb⟩ := decodeOid_iff.1 h1
      dsimp only at h2
      split at h2
      · obtain ⟨x, hx, rfl⟩ := Option.map_eq_some_iff.1 h2
        obtain ⟨hf, hm⟩ := (lays_status.full.dec _ _).1 hx
        exact ⟨hf, rfl, _, _, _, _, rfl, hb, hm⟩
      · obtain ⟨x, hx, rfl⟩ := Option.map_eq_some_iff.1 h2
        obtain ⟨hf, hm⟩ := (lays_status.full.dec _ _).1 hx
        exact ⟨hf, rfl, _, _, _, _, rfl, hb, hm⟩
      · obtain ⟨x, hx, rfl⟩ := Option.map_eq_some_iff.1 h2
        obtain ⟨hf, hm⟩ := ((lay_listOf lays_appConfigStatus fun _ => Iff.rfl).dec _ _).1 hx
        exact ⟨hf, rfl, _, _, _, _, rfl, hb, hm⟩
      · obtain ⟨x, hx, rfl⟩ := Option.map_eq_some_iff.1 h2
        obtain ⟨hf, hm⟩ := ((lay_listOf lays_appConfigTlv fun _ => Iff.rfl).dec _ _).1 hx
        exact ⟨hf, rfl, _, _, _, _, rfl, hb, hm⟩
      · obtain ⟨x, hx, rfl⟩ := Option.map_eq_some_iff.1 h2
        obtain ⟨hf, hm⟩ := (layf_count.dec _ _).1 hx
        exact ⟨hf, rfl, _, _, _, _, rfl, hb, hm⟩
      · obtain ⟨x, hx, rfl⟩ := Option.map_eq_some_iff.1 h2
        obtain ⟨hf, hm⟩ := (layf_state.dec _ _).1 hx
        exact ⟨hf, rfl, _, _, _, _, rfl, hb, hm⟩
      · obtain ⟨x, hx, rfl⟩ := Option.map_eq_some_iff.1 h2
        obtain ⟨hf, hm⟩ := ((lay_countOf lays_controleeStatus).dec _ _).1 hx
        exact ⟨hf, rfl, _, _, _, _, rfl, hb, hm⟩
      · cases h2
    · obtain ⟨⟨oid, q⟩, h1, h2⟩ := Option.bind_eq_some_iff.1 h
      obtain ⟨b, r₂, r₃, rfl, hb⟩ := decodeOid_iff.1 h1
      dsimp only at h2
      split at h2
      · obtain ⟨x, hx, rfl⟩ := Option.map_eq_some_iff.1 h2
        obtain ⟨hf, hm⟩ := (lays_status.full.dec _ _).1 hx
        exact ⟨hf, rfl, _, _, _, _, rfl, hb, hm⟩
      · obtain ⟨x, hx, rfl⟩ := Option.map_eq_some_iff.1 h2
        obtain ⟨hf, hm⟩ := (lays_status.full.dec _ _).1 hx
        exact ⟨hf, rfl, _, _, _, _, rfl, hb, hm⟩
      · obtain ⟨x, hx, rfl⟩ := Option.map_eq_some_iff.1 h2
        obtain ⟨hf, hm⟩ := (layf_rangingCount.dec _ _).1 hx
        exact ⟨hf, rfl, _, _, _, _, rfl, hb, hm⟩
      · cases h2
    · obtain ⟨⟨oid, q⟩, h1, h2⟩ := Option.bind_eq_some_iff.1 h
      obtain ⟨b, r₂, r₃, rfl, hb⟩ := decodeOid_iff.1 h1
      dsimp only at h2
      split at h2
      · obtain ⟨x, hx, rfl⟩ := Option.map_eq_some_iff.1 h2
        obtain ⟨hf, hm⟩ := (lays_powerStats.full.dec _ _).1 hx
        exact ⟨hf, rfl, _, _, _, _, rfl, hb, hm⟩
      · obtain ⟨x, hx, rfl⟩ := Option.map_eq_some_iff.1 h2
        obtain ⟨hf, hm⟩ := (lays_status.full.dec _ _).1 hx
        exact ⟨hf, rfl, _, _, _, _, rfl, hb, hm⟩
      · cases h2
    · cases h
  · rintro ⟨hf, hg, b, r₂, r₃, q, rfl, hb, hm⟩
    have hg' : ∀ g' : GroupId, g.code = g'.code → g = g' := fun g' h => LawfulWireEnum.inj g g' h
    have core : ∀ e : CoreOpcodeId, b.toNat % 64 = e.code.toNat → decodeOid CoreOpcodeId (b :: r₂ :: r₃ :: q) = some (e, q) :=
      fun e h => decodeOid_iff.2 ⟨_, _, _, rfl, h⟩
    have config : ∀ e : SessionConfigOpcodeId, b.toNat % 64 = e.code.toNat →
        decodeOid SessionConfigOpcodeId (b :: r₂ :: r₃ :: q) = some (e, q) := fun e h => decodeOid_iff.2 ⟨_, _, _, rfl, h⟩
    have control : ∀ e : SessionControlOpcodeId, b.toNat % 64 = e.code.toNat →
        decodeOid SessionControlOpcodeId (b :: r₂ :: r₃ :: q) = some (e, q) := fun e h => decodeOid_iff.2 ⟨_, _, _, rfl, h⟩
    have android : ∀ e : AndroidOpcodeId, b.toNat % 64 = e.code.toNat →
        decodeOid AndroidOpcodeId (b :: r₂ :: r₃ :: q) = some (e, q) := fun e h => decodeOid_iff.2 ⟨_, _, _, rfl, h⟩
    have bnd : ∀ {α β : Type} {x : Option α} {y : α} {f : α → Option β} {z : Option β}, x = some y → f y = z → x.bind f = z := by
      rintro _ _ _ _ _ _ rfl h; exact h
    have mp : ∀ {α β : Type} {x : Option α} {y : α} {f : α → β} {z : β}, x = some y → f y = z → x.map f = some z := by
      rintro _ _ _ _ _ _ rfl rfl; rfl
    cases r
    case coreDeviceReset s =>
      cases hg' .core hg
      exact bnd (core .deviceReset hb) (mp ((lays_status.full.dec q s).2 ⟨hf, hm⟩) rfl)
    case coreGetDeviceInfo s a b c d v =>
      cases hg' .core hg
      exact bnd (core .getDeviceInfo hb) (mp ((layf_deviceInfo.dec q (s, a, b, c, d, v)).2 ⟨hf, hm⟩) rfl)
    case coreGetCapsInfo s t =>
      cases hg' .core hg
      exact bnd (core .getCapsInfo hb) (mp (((lay_listOf lays_capTlv fun _ => Iff.rfl).dec q (s, t)).2 ⟨hf, hm⟩) rfl)
    case coreSetConfig s t =>
      cases hg' .core hg
      exact bnd (core .setConfig hb) (mp (((lay_countOf lays_configParameterStatus).dec q (s, t)).2 ⟨hf, hm⟩) rfl)
    case coreGetConfig s t =>
      cases hg' .core hg
      exact bnd (core .getConfig hb) (mp (((lay_listOf lays_configParameter fun _ => Iff.rfl).dec q (s, t)).2 ⟨hf, hm⟩) rfl)
    case sessionInit s =>
      cases hg' .sessionConfig hg
      exact bnd (config .init hb) (mp ((lays_status.full.dec q s).2 ⟨hf, hm⟩) rfl)
    case sessionDeinit s =>
      cases hg' .sessionConfig hg
      exact bnd (config .deinit hb) (mp ((lays_status.full.dec q s).2 ⟨hf, hm⟩) rfl)
    case sessionGetCount s n =>
      cases hg' .sessionConfig hg
      exact bnd (config .getCount hb) (mp ((layf_count.dec q (s, n)).2 ⟨hf, hm⟩) rfl)
    case sessionSetAppConfig s t =>
      cases hg' .sessionConfig hg
      exact bnd (config .setAppConfig hb) (mp (((lay_listOf lays_appConfigStatus fun _ => Iff.rfl).dec q (s, t)).2 ⟨hf, hm⟩) rfl)
    case sessionGetAppConfig s t =>
      cases hg' .sessionConfig hg
      exact bnd (config .getAppConfig hb) (mp (((lay_listOf lays_appConfigTlv fun _ => Iff.rfl).dec q (s, t)).2 ⟨hf, hm⟩) rfl)
    case sessionGetState s n =>
      cases hg' .sessionConfig hg
      exact bnd (config .getState hb) (mp ((layf_state.dec q (s, n)).2 ⟨hf, hm⟩) rfl)
    case sessionUpdateMulticast s t =>
      cases hg' .sessionConfig hg
      exact bnd (config .updateControllerMulticastList hb) (mp (((lay_countOf lays_controleeStatus).dec q (s, t)).2 ⟨hf, hm⟩) rfl)
    case sessionStart s =>
      cases hg' .sessionControl hg
      exact bnd (control .start hb) (mp ((lays_status.full.dec q s).2 ⟨hf, hm⟩) rfl)
    case sessionStop s =>
      cases hg' .sessionControl hg
      exact bnd (control .stop hb) (mp ((lays_status.full.dec q s).2 ⟨hf, hm⟩) rfl)
    case sessionGetRangingCount s n =>
      cases hg' .sessionControl hg
      exact bnd (control .getRangingCount hb) (mp ((layf_rangingCount.dec q (s, n)).2 ⟨hf, hm⟩) rfl)
    case androidGetPowerStats s =>
      cases hg' .vendorAndroid hg
      exact bnd (android .getPowerStats hb) (mp ((lays_powerStats.full.dec q s).2 ⟨hf, hm⟩) rfl)
    case androidSetCountryCode s =>
      cases hg' .vendorAndroid hg
      exact bnd (android .setCountryCode hb) (mp ((lays_status.full.dec q s).2 ⟨hf, hm⟩) rfl)

theorem ntf_parse (n : Ntf) (g : GroupId) (p : Bytes) :
    Ntf.parse g p = some n ↔ ntfFits n ∧ g.code = (ntfCode n).1 ∧ Opcoded (ntfCode n).2 (ntfBits n) p := by
  constructor
  · intro h
    unfold Ntf.parse at h
    split at h
    · obtain ⟨⟨oid, q⟩, h1, h2⟩ := Option.bind_eq_some_iff.1 h
      obtain ⟨b, r₂, r₃, rfl, hb⟩ := decodeOid_iff.1 h1
      dsimp only at h2
      split at h2
      · obtain ⟨x, hx, rfl⟩ := Option.map_eq_some_iff.1 h2
        obtain ⟨hf, hm⟩ := ((lays_enum DeviceState).full.dec _ _).1 hx
        exact ⟨hf, rfl, _, _, _, _, rfl, hb, hm⟩
      · cases h2
    · obtain ⟨⟨oid, q⟩, h1, h2⟩ := Option.bind_eq_some_iff.1 h
      obtain ⟨b, r₂, r₃, rfl, hb⟩ := decodeOid_iff.1 h1
      dsimp only at h2
      split at h2
      · obtain ⟨x, hx, rfl⟩ := Option.map_eq_some_iff.1 h2
        obtain ⟨hf, hm⟩ := (layf_sessionStatus.dec _ _).1 hx
        exact ⟨hf, rfl, _, _, _, _, rfl, hb, hm⟩
      · obtain ⟨x, hx, rfl⟩ := Option.map_eq_some_iff.1 h2
        obtain ⟨hf, hm⟩ := (layf_multicastNtf.dec _ _).1 hx
        exact ⟨hf, rfl, _, _, _, _, rfl, hb, hm⟩
      · cases h2
    · obtain ⟨⟨oid, q⟩, h1, h2⟩ := Option.bind_eq_some_iff.1 h
      obtain ⟨b, r₂, r₃, rfl, hb⟩ := decodeOid_iff.1 h1
      dsimp only at h2
      split at h2
      · obtain ⟨⟨n, t, r, i, mt, u, ind, v, m, w⟩, hx, h3⟩ := Option.bind_eq_some_iff.1 h2
        obtain ⟨hf, hm⟩ := (layf_sessionInfo.dec _ _).1 hx
        dsimp only at h3
        split at h3
        · rename_i hc
          obtain ⟨rfl, rfl⟩ := hc
          cases h3
          exact ⟨hf, rfl, _, _, _, _, rfl, hb, hm⟩
        · cases h3
      · obtain ⟨x, hx, rfl⟩ := Option.map_eq_some_iff.1 h2
        obtain ⟨hf, hm⟩ := (layf_credit.dec _ _).1 hx
        exact ⟨hf, rfl, _, _, _, _, rfl, hb, hm⟩
      · obtain ⟨x, hx, rfl⟩ := Option.map_eq_some_iff.1 h2
        obtain ⟨hf, hm⟩ := (layf_transferStatus.dec _ _).1 hx
        exact ⟨hf, rfl, _, _, _, _, rfl, hb, hm⟩
      · cases h2
    · cases h
  · rintro ⟨hf, hg, b, r₂, r₃, q, rfl, hb, hm⟩
    have hg' : ∀ g' : GroupId, g.code = g'.code → g = g' := fun g' h => LawfulWireEnum.inj g g' h
    have core : ∀ e : CoreOpcodeId, b.toNat % 64 = e.code.toNat → decodeOid CoreOpcodeId (b :: r₂ :: r₃ :: q) = some (e, q) :=
      fun e h => decodeOid_iff.2 ⟨_, _, _, rfl, h⟩
    have config : ∀ e : SessionConfigOpcodeId, b.toNat % 64 = e.code.toNat →
        decodeOid SessionConfigOpcodeId (b :: r₂ :: r₃ :: q) = some (e, q) := fun e h => decodeOid_iff.2 ⟨_, _, _, rfl, h⟩
    have control : ∀ e : SessionControlOpcodeId, b.toNat % 64 = e.code.toNat →
        decodeOid SessionControlOpcodeId (b :: r₂ :: r₃ :: q) = some (e, q) := fun e h => decodeOid_iff.2 ⟨_, _, _, rfl, h⟩
    have bnd : ∀ {α β : Type} {x : Option α} {y : α} {f : α → Option β} {z : Option β}, x = some y → f y = z → x.bind f = z := by
      rintro _ _ _ _ _ _ rfl h; exact h
    have mp : ∀ {α β : Type} {x : Option α} {y : α} {f : α → β} {z : β}, x = some y → f y = z → x.map f = some z := by
      rintro _ _ _ _ _ _ rfl rfl; rfl
    cases n
    case coreDeviceStatus s =>
      cases hg' .core hg
      exact bnd (core .deviceStatus hb) (mp (((lays_enum DeviceState).full.dec q s).2 ⟨hf, hm⟩) rfl)
    case sessionStatus t s r =>
      cases hg' .sessionConfig hg
      exact bnd (config .status hb) (mp ((layf_sessionStatus.dec q (t, s, r)).2 ⟨hf, hm⟩) rfl)
    case sessionUpdateMulticast t l =>
      cases hg' .sessionConfig hg
      exact bnd (config .updateControllerMulticastList hb) (mp ((layf_multicastNtf.dec q (t, l)).2 ⟨hf, hm⟩) rfl)
    case sessionDataCredit t a =>
      cases hg' .sessionControl hg
      exact bnd (control .dataCredit hb) (mp ((layf_credit.dec q (t, a)).2 ⟨hf, hm⟩) rfl)
    case sessionDataTransferStatus t n s c =>
      cases hg' .sessionControl hg
      exact bnd (control .dataTransferStatus hb) (mp ((layf_transferStatus.dec q (t, n, s, c)).2 ⟨hf, hm⟩) rfl)
    case sessionInfo n t r i l v =>
      cases hg' .sessionControl hg
      exact bnd (control .start hb) (bnd ((layf_sessionInfo.dec q (n, t, r, i, .twoWay, (), .shortAddress, (), l, v)).2 ⟨hf, hm⟩)
        (if_pos ⟨rfl, rfl⟩))

/-! ### Commands -/

theorem octets_many {α : Type} {f : α → Bytes} {g : α → Pattern} (h : ∀ x, octets (f x) = g x) (l : List α) :
    octets (many f l) = listPat g l := by
  have : ∀ l : List α, octets (l.flatMap f) = l.flatMap g := by
    intro l
    induction l with
    | nil => rfl
    | cons x l ih => rw [List.flatMap_cons, List.flatMap_cons, Spec.Pdl.octets_append, h, ih]
  unfold many listPat
  rw [Spec.Pdl.octets_cons, UInt8.toNat_ofNat', Spec.Pdl.nat_mod, this]

theorem octets_lv (v : Bytes) : octets (lv v) = lvPat v := by
  unfold lv lvPat
  rw [Spec.Pdl.octets_cons, UInt8.toNat_ofNat', Spec.Pdl.nat_mod]

theorem octets_u32le (x : UInt32) : octets (u32le x) = nat 32 x.toNat := Spec.Pdl.octets_leBytes 4 _

theorem octets_one (x : UInt8) : octets [x] = nat 8 x.toNat := by
  rw [Spec.Pdl.octets_cons, Spec.Pdl.octets_nil, List.append_nil]

theorem cmd_bits (c : Cmd) : octets (cmdPayload c) = cmdBits c := by
  cases c
  case coreSetConfig l => exact octets_many (fun x => by rw [Spec.Pdl.octets_cons, octets_lv]) l
  case coreGetConfig l => exact octets_many (fun x => octets_one _) l
  case sessionSetAppConfig t l =>
    simp only [cmdPayload, cmdBits]
    rw [Spec.Pdl.octets_append, octets_u32le, octets_many (fun x => by rw [Spec.Pdl.octets_cons, octets_lv]) l]
  case sessionGetAppConfig t l =>
    simp only [cmdPayload, cmdBits]
    rw [Spec.Pdl.octets_append, octets_u32le, octets_many (fun x => octets_one _) l]
  case sessionInit t y =>
    simp only [cmdPayload, cmdBits]
    rw [Spec.Pdl.octets_append, octets_u32le, octets_one]
  case sessionUpdateMulticast t a q =>
    simp only [cmdPayload, cmdBits]
    rw [Spec.Pdl.octets_append, octets_u32le, Spec.Pdl.octets_cons]
  case coreDeviceReset c => exact octets_one _
  case sessionDeinit t => exact octets_u32le t
  case sessionGetState t => exact octets_u32le t
  case sessionStart t => exact octets_u32le t
  case sessionStop t => exact octets_u32le t
  case sessionGetRangingCount t => exact octets_u32le t
  all_goals rfl

/-! ### Data -/

theorem dataHead_matches_iff {d b m : Nat} (h : d < 16 ∧ b < 2 ∧ m < 8) {p : Pattern} {s : Bytes} :
    Matches (dataPat d b m ++ p) s ↔
      ∃ b₀ r₁ r₂ r₃ q, s = b₀ :: r₁ :: r₂ :: r₃ :: q ∧ b₀.toNat % 16 = d ∧ b₀.toNat / 16 % 2 = b ∧ b₀.toNat / 32 = m ∧
        Matches p q := by
  obtain ⟨hd, hb, hm⟩ := h
  have hand : ∀ b : UInt8, b.toNat &&& 0xf = b.toNat % 16 := fun b => Nat.and_two_pow_sub_one_eq_mod _ 4
  have hflag : ∀ b : UInt8, (b.toNat >>> 4) &&& 0x1 = b.toNat / 16 % 2 := fun b => by
    rw [show (1 : Nat) = 2 ^ 1 - 1 from rfl, Nat.and_two_pow_sub_one_eq_mod, Nat.shiftRight_eq_div_pow]
  have hshr : ∀ b : UInt8, (b.toNat >>> 5) &&& 0x7 = b.toNat / 32 := fun b => by
    rw [show (7 : Nat) = 2 ^ 3 - 1 from rfl, Nat.and_two_pow_sub_one_eq_mod, Nat.shiftRight_eq_div_pow]
    have := b.toNat_lt
    omega
  constructor
  · intro hs
    obtain ⟨h1, h2, h3, h4, h5⟩ := Py.fw_dataHead hd hb hm hs.takes
    match s, h1 with
    | b₀ :: r₁ :: r₂ :: r₃ :: q, _ =>
      exact ⟨b₀, r₁, r₂, r₃, q, rfl, (hand b₀).symm.trans h2, (hflag b₀).symm.trans h3, (hshr b₀).symm.trans h4, h5.matches⟩
  · rintro ⟨b₀, r₁, r₂, r₃, q, rfl, rfl, rfl, rfl, hq⟩
    have h1 := Py.rd_dataHead (s := b₀ :: r₁ :: r₂ :: r₃ :: q) (by simp)
    have h2 : Py.idx (b₀ :: r₁ :: r₂ :: r₃ :: q) 0 = b₀.toNat := rfl
    rw [h2, hand, hflag, hshr] at h1
    exact (h1.append hq.takes).matches

theorem data_decode_iff {s : Bytes} {p : DataPacket} : DataPacket.decode s = some p ↔
    ∃ b₀ r₁ r₂ r₃, s = b₀ :: r₁ :: r₂ :: r₃ :: p.payload ∧ b₀.toNat % 16 = p.dpf.code.toNat ∧
      b₀.toNat / 16 % 2 = p.pbf.code.toNat ∧ b₀.toNat / 32 = p.mt.code.toNat := by
  have hflag : ∀ {b g : UInt8}, (b >>> 4) &&& 0x01 = g ↔ b.toNat / 16 % 2 = g.toNat := fun {b g} => by
    have : ((b >>> 4) &&& 0x01).toNat = b.toNat / 16 % 2 :=
      forall_u8 (P := fun b => ((b >>> 4) &&& 0x01).toNat = b.toNat / 16 % 2) (by decide +kernel) b
    rw [← this, UInt8.toNat_inj]
  constructor
  · intro h
    unfold DataPacket.decode at h
    split at h
    · simp only [Option.bind_eq_bind, Option.bind_eq_some_iff, Option.pure_def, Option.some.injEq,
        WireEnum.ofU8?_eq_some] at h
      obtain ⟨f, hf, b, hb, m, hm, rfl⟩ := h
      exact ⟨_, _, _, _, rfl, and_0f_eq.mp hf.symm, hflag.mp hb.symm, shr_5_eq.mp hm.symm⟩
    · cases h
  · rintro ⟨b₀, r₁, r₂, r₃, rfl, h1, h2, h3⟩
    simp only [DataPacket.decode, Option.bind_eq_bind, Option.bind_eq_some_iff, Option.pure_def, Option.some.injEq,
      WireEnum.ofU8?_eq_some]
    exact ⟨_, (and_0f_eq.mpr h1).symm, _, (hflag.mpr h2).symm, _, (shr_5_eq.mpr h3).symm, rfl⟩

/-- The bits of the payload of data for a host. -/
def dataRcvBits (d : DataMessageRcv) : Pattern :=
  nat 32 d.sessionHandle.toNat ++ (nat 8 d.status.code.toNat ++ (nat 64 d.sourceAddress.toNat ++
    (nat 16 d.dataSequenceNumber.toNat ++ (nat 16 d.applicationData.length ++ octets d.applicationData))))
/-- The bits of the payload of data from a host. -/
def dataSndBits (d : DataMessageSnd) : Pattern :=
  nat 32 d.sessionHandle.toNat ++ (nat 64 d.destinationAddress.toNat ++
    (nat 16 d.dataSequenceNumber.toNat ++ (nat 16 d.applicationData.length ++ octets d.applicationData)))

theorem lays_dataRcv : Lays Pdl.dataMessageRcv (fun d => d.applicationData.length ≤ 65535) dataRcvBits :=
  (lays_iso (lays_seq lays_u32 (lays_seq lays_status (lays_seq lays_u64 (lays_seq lays_u16 lays_bytes16)))) (fun _ => rfl)
    (fun _ => rfl)).congr (fun _ => by simp) fun _ => rfl
theorem lays_dataSnd : Lays Pdl.dataMessageSnd (fun d => d.applicationData.length ≤ 65535) dataSndBits :=
  (lays_iso (lays_seq lays_u32 (lays_seq lays_u64 (lays_seq lays_u16 lays_bytes16))) (fun _ => rfl)
    (fun _ => rfl)).congr (fun _ => by simp) fun _ => rfl

theorem ofDataRcv_bits (b : Nat) (d : DataMessageRcv) : bitsFor (ofDataRcv b d) = dataPat 2 b 0 ++ dataRcvBits d := by
  simp [bitsFor, ofDataRcv, dataRcvBits, dataPat, byte, Spec.Pdl.octets_nil, Spec.Pdl.Packet.pattern, Spec.Pdl.Packet.within,
    Spec.Pdl.patterns, Spec.Pdl.Field.pattern, Spec.Pdl.Values.int, Spec.Pdl.Values.get, Spec.Pdl.Values.length,
    Spec.Pdl.Values.bytes, Spec.Pdl.Values.ints, Spec.Pdl.dataMessageRcv, Spec.Pdl.dataPacket]

theorem ofDataSnd_bits (b : Nat) (d : DataMessageSnd) : bitsFor (ofDataSnd b d) = dataPat 1 b 0 ++ dataSndBits d := by
  simp [bitsFor, ofDataSnd, dataSndBits, dataPat, byte, Spec.Pdl.octets_nil, Spec.Pdl.Packet.pattern, Spec.Pdl.Packet.within,
    Spec.Pdl.patterns, Spec.Pdl.Field.pattern, Spec.Pdl.Values.int, Spec.Pdl.Values.get, Spec.Pdl.Values.length,
    Spec.Pdl.Values.bytes, Spec.Pdl.Values.ints, Spec.Pdl.dataMessageSnd, Spec.Pdl.dataPacket]

/-! ### Controlees -/

theorem controlee_bits {n : Nat} (hn : n = 0 ∨ n = 16 ∨ n = 32) (l : List (WireControlee n)) :
    controleeBits l = listPat (fun x => octets x.shortAddress.1 ++ (nat 32 x.subsessionId.toNat ++ octets x.subsessionKey.1)) l := by
  have h0 : ∀ x : WireControlee 0, octets x.subsessionKey.1 = [] := fun x => by
    rw [List.length_eq_zero_iff.1 x.subsessionKey.2, Spec.Pdl.octets_nil]
  rcases hn with rfl | rfl | rfl <;>
  simp [h0, controleeBits, controleePayload, ofControlee, listPat, Spec.Pdl.octets_nil, Spec.Pdl.patterns, Spec.Pdl.Field.pattern,
    Spec.Pdl.Values.int, Spec.Pdl.Values.get, Spec.Pdl.Values.length, Spec.Pdl.Values.bytes, Spec.Pdl.Values.ints,
    Spec.Pdl.Values.records, Spec.Pdl.Values.record, List.flatMap_map,
    Spec.Pdl.sessionUpdateControllerMulticastListCmdPayload, Spec.Pdl.sessionUpdateControllerMulticastListCmd_2_0_16_Byte_Payload,
    Spec.Pdl.sessionUpdateControllerMulticastListCmd_2_0_32_Byte_Payload,
    Spec.Pdl.controlee, Spec.Pdl.controlee_V2_0_16_Byte_Version, Spec.Pdl.controlee_V2_0_32_Byte_Version]

theorem layf_controlees (n : Nat) : LaysFull (Pdl.controleeList n) (fun l => l.length ≤ 255)
    (listPat fun x => octets x.shortAddress.1 ++ (nat 32 x.subsessionId.toNat ++ octets x.subsessionKey.1)) :=
  (lays_counted8 (lays_controlee n)).full.congr (fun _ => by simp) fun _ => rfl

end Pica
