import Verif.Proofs.Codec
import Verif.Proofs.MacAddress
import Verif.Spec.Wire
/-! Layouts of the packets of `Verif/Model/Packets.lean`. -/

namespace Pica
open Codec Spec

/-! ### Bits -/

theorem and_0f_toNat (b : UInt8) : (b &&& 0x0f).toNat = b.toNat % 16 :=
  forall_u8 (P := fun b => (b &&& 0x0f).toNat = b.toNat % 16) (by decide +kernel) b
theorem and_3f_toNat (b : UInt8) : (b &&& 0x3f).toNat = b.toNat % 64 :=
  forall_u8 (P := fun b => (b &&& 0x3f).toNat = b.toNat % 64) (by decide +kernel) b
theorem shr_5_toNat (b : UInt8) : (b >>> 5).toNat = b.toNat / 32 :=
  forall_u8 (P := fun b => (b >>> 5).toNat = b.toNat / 32) (by decide +kernel) b
theorem and_0f_eq {b g : UInt8} : b &&& 0x0f = g ↔ b.toNat % 16 = g.toNat := by
  rw [← and_0f_toNat, UInt8.toNat_inj]
theorem and_3f_eq {b g : UInt8} : b &&& 0x3f = g ↔ b.toNat % 64 = g.toNat := by
  rw [← and_3f_toNat, UInt8.toNat_inj]
theorem shr_5_eq {b g : UInt8} : b >>> 5 = g ↔ b.toNat / 32 = g.toNat := by
  rw [← shr_5_toNat, UInt8.toNat_inj]

theorem ControlPacket.decode_cons {b : UInt8} {r : Bytes} {p : ControlPacket} :
    ControlPacket.decode (b :: r) = some p ↔
      b.toNat % 16 = p.gid.code.toNat ∧ b.toNat / 32 = p.mt.code.toNat ∧ r = p.payload := by
  simp only [ControlPacket.decode, Option.bind_eq_bind, Option.bind_eq_some_iff, Option.pure_def,
    Option.some.injEq, WireEnum.ofU8?_eq_some, ← and_0f_eq, ← shr_5_eq]
  constructor
  · rintro ⟨g, hg, m, hm, rfl⟩; exact ⟨hg.symm, hm.symm, rfl⟩
  · rintro ⟨hg, hm, rfl⟩; exact ⟨_, hg.symm, _, hm.symm, rfl⟩

/-! ### Structures -/

theorem describes_configParameter : Describes Pdl.configParameter
    (fun p => True ∧ p.value.length ≤ 255) (fun p => p.id.code :: lv p.value) :=
  describes_iso (describes_seq describes_configId describes_bytes8) (fun _ => rfl)
theorem canonical_configParameter : Canonical Pdl.configParameter
    (fun p => True ∧ p.value.length ≤ 255) (fun p => p.id.code :: lv p.value) :=
  canonical_iso (canonical_seq canonical_configId canonical_bytes8) (fun _ => rfl)
theorem describes_configParameterStatus : Describes Pdl.configParameterStatus
    (fun _ => True ∧ True) (fun p => [p.id.code, p.status.code]) :=
  describes_iso (describes_seq describes_configId describes_status) (fun _ => rfl)
theorem describes_capTlv : Describes Pdl.capTlv
    (fun p => CapTlvType.isTag p.t.code ∧ p.v.length ≤ 255) (fun p => p.t.code :: lv p.v) :=
  describes_iso (describes_seq describes_capType describes_bytes8) (fun _ => rfl)
theorem describes_appConfigTlv : Describes Pdl.appConfigTlv
    (fun p => AppConfigTlvType.isTag p.cfgId.code ∧ p.v.length ≤ 255) (fun p => p.cfgId.code :: lv p.v) :=
  describes_iso (describes_seq describes_tlvType describes_bytes8) (fun _ => rfl)
theorem canonical_appConfigTlv : Canonical Pdl.appConfigTlv
    (fun p => AppConfigTlvType.isTag p.cfgId.code ∧ p.v.length ≤ 255) (fun p => p.cfgId.code :: lv p.v) :=
  canonical_iso (canonical_seq canonical_tlvType canonical_bytes8) (fun _ => rfl)
theorem describes_appConfigStatus : Describes Pdl.appConfigStatus
    (fun p => AppConfigTlvType.isTag p.cfgId.code ∧ True) (fun p => [p.cfgId.code, p.status.code]) :=
  describes_iso (describes_seq describes_tlvType describes_status) (fun _ => rfl)
theorem describes_controleeStatus : Describes Pdl.controleeStatus
    (fun _ => True ∧ True) (fun p => p.macAddress.1 ++ [p.status.code]) :=
  describes_iso (describes_seq (describes_arr 2) (describes_enum _)) (fun _ => rfl)
theorem describes_powerStats : Describes Pdl.powerStats
    (fun _ => True ∧ True ∧ True ∧ True ∧ True)
    (fun s => s.status.code :: (u32le s.idleTimeMs ++ (u32le s.txTimeMs ++ (u32le s.rxTimeMs ++ u32le s.totalWakeCount)))) :=
  describes_iso (describes_seq describes_status (describes_seq describes_u32 (describes_seq describes_u32
    (describes_seq describes_u32 describes_u32)))) (fun _ => rfl)

/-! ### Commands -/

theorem child_ok {α : Type} {c : Codec α} {p : Bytes} {k : α → Cmd} {y : Cmd} :
    Cmd.child c p k = .ok y ↔ ∃ x, c.decFull p = some x ∧ y = k x := by
  unfold Cmd.child
  cases c.decFull p <;> simp [eq_comm]

theorem unsupported_ne_ok {α : Type} {c : Codec α} {p : Bytes} {y : Cmd} : Cmd.unsupported c p ≠ .ok y := by
  unfold Cmd.unsupported
  cases c.decFull p <;> simp

theorem parseGroup_ok {E : Type} [WireEnum E] [LawfulWireEnum E] {f : E → Bytes → Except Panic Cmd}
    {p : Bytes} {c : Cmd} :
    Cmd.parseGroup f p = .ok (some c) ↔
      ∃ b r₂ r₃ q oid, p = b :: r₂ :: r₃ :: q ∧ b.toNat % 64 = (WireEnum.toU8 oid).toNat ∧ f oid q = .ok c := by
  unfold Cmd.parseGroup
  constructor
  · intro h
    split at h
    · rename_i oid q hd
      unfold decodeOid at hd
      split at hd
      · simp only [Option.map_eq_some_iff, WireEnum.ofU8?_eq_some, Prod.mk.injEq] at hd
        obtain ⟨_, hb, rfl, rfl⟩ := hd
        refine ⟨_, _, _, _, _, rfl, and_3f_eq.mp hb.symm, ?_⟩
        rename_i r₃ _ _
        generalize f _ _ = z at h ⊢
        cases z <;> simp_all [Except.map]
      · cases hd
    · cases h
  · rintro ⟨b, r₂, r₃, q, oid, rfl, hb, hf⟩
    have : decodeOid E (b :: r₂ :: r₃ :: q) = some (oid, q) := by
      simp only [decodeOid, Option.map_eq_some_iff, Prod.mk.injEq, and_true, exists_eq_right,
        WireEnum.ofU8?_eq_some]
      exact (and_3f_eq.mpr hb).symm
    rw [this]
    simp [hf, Except.map]

theorem full_sessionInitCmd : Full Pdl.sessionInitCmd
    (fun _ => True ∧ True) (fun x => u32le x.1 ++ [x.2.code]) :=
  (describes_seq describes_u32 (describes_enum SessionType)).full
theorem full_coreSetConfigCmd : Full Pdl.coreSetConfigCmd
    (fun ps => ps.length ≤ 255 ∧ ∀ p ∈ ps, True ∧ p.value.length ≤ 255) (many fun p => p.id.code :: lv p.value) :=
  (describes_counted8 describes_configParameter).full
theorem full_coreGetConfigCmd : Full Pdl.coreGetConfigCmd
    (fun ps => ps.length ≤ 255 ∧ ∀ p ∈ ps, True) (many fun p => [p.code]) :=
  (describes_counted8 describes_configId).full
theorem full_sessionSetAppConfigCmd : Full Pdl.sessionSetAppConfigCmd
    (fun x => True ∧ x.2.length ≤ 255 ∧ ∀ p ∈ x.2, AppConfigTlvType.isTag p.cfgId.code ∧ p.v.length ≤ 255)
    (fun x => u32le x.1 ++ many (fun p => p.cfgId.code :: lv p.v) x.2) :=
  (describes_seq describes_u32 (describes_counted8 describes_appConfigTlv)).full
theorem full_sessionGetAppConfigCmd : Full Pdl.sessionGetAppConfigCmd
    (fun x => True ∧ x.2.length ≤ 255 ∧ ∀ p ∈ x.2, AppConfigTlvType.isTag p.code)
    (fun x => u32le x.1 ++ many (fun p => [p.code]) x.2) :=
  (describes_seq describes_u32 (describes_counted8 describes_tlvType)).full
theorem full_sessionUpdateMulticastCmd : Full Pdl.sessionUpdateMulticastCmd
    (fun _ => True ∧ True ∧ True)
    (fun x => u32le x.1 ++ x.2.1.code :: x.2.2) :=
  full_seq describes_u32 (full_seq (describes_enum UpdateMulticastListAction) full_rest)

theorem fullCanonical_sessionInitCmd : FullCanonical Pdl.sessionInitCmd
    (fun _ => True ∧ True) (fun x => u32le x.1 ++ [x.2.code]) :=
  (canonical_seq canonical_u32 (canonical_enum SessionType)).full
theorem fullCanonical_coreSetConfigCmd : FullCanonical Pdl.coreSetConfigCmd
    (fun ps => ps.length ≤ 255 ∧ ∀ p ∈ ps, True ∧ p.value.length ≤ 255) (many fun p => p.id.code :: lv p.value) :=
  (canonical_counted8 canonical_configParameter).full
theorem fullCanonical_coreGetConfigCmd : FullCanonical Pdl.coreGetConfigCmd
    (fun ps => ps.length ≤ 255 ∧ ∀ p ∈ ps, True) (many fun p => [p.code]) :=
  (canonical_counted8 canonical_configId).full
theorem fullCanonical_sessionSetAppConfigCmd : FullCanonical Pdl.sessionSetAppConfigCmd
    (fun x => True ∧ x.2.length ≤ 255 ∧ ∀ p ∈ x.2, AppConfigTlvType.isTag p.cfgId.code ∧ p.v.length ≤ 255)
    (fun x => u32le x.1 ++ many (fun p => p.cfgId.code :: lv p.v) x.2) :=
  (canonical_seq canonical_u32 (canonical_counted8 canonical_appConfigTlv)).full
theorem fullCanonical_sessionGetAppConfigCmd : FullCanonical Pdl.sessionGetAppConfigCmd
    (fun x => True ∧ x.2.length ≤ 255 ∧ ∀ p ∈ x.2, AppConfigTlvType.isTag p.code)
    (fun x => u32le x.1 ++ many (fun p => [p.code]) x.2) :=
  (canonical_seq canonical_u32 (canonical_counted8 canonical_tlvType)).full
theorem fullCanonical_sessionUpdateMulticastCmd : FullCanonical Pdl.sessionUpdateMulticastCmd
    (fun _ => True ∧ True ∧ True)
    (fun x => u32le x.1 ++ x.2.1.code :: x.2.2) :=
  fullCanonical_seq canonical_u32 (fullCanonical_seq (canonical_enum UpdateMulticastListAction) fullCanonical_rest)

/-- A group payload laid out as the specification says is parsed as the command. -/
theorem parse_of_layout (c : Cmd) (hf : cmdFits c) (g : GroupId) (hg : g.code = (cmdCode c).1)
    (b r₂ r₃ : UInt8) (hb : b.toNat % 64 = (cmdCode c).2.toNat) :
    Cmd.parse g (b :: r₂ :: r₃ :: cmdPayload c) = .ok (some c) := by
  have hg' : ∀ g' : GroupId, g.code = g'.code → g = g' := fun g' h => LawfulWireEnum.inj g g' h
  cases c
  case coreDeviceReset c =>
    cases hg' .core hg
    exact parseGroup_ok.mpr ⟨_, _, _, _, CoreOpcodeId.deviceReset, rfl, hb,
      child_ok.mpr ⟨_, (describes_enum ResetConfig).full.dec c trivial, rfl⟩⟩
  case coreGetDeviceInfo =>
    cases hg' .core hg
    exact parseGroup_ok.mpr ⟨_, _, _, _, CoreOpcodeId.getDeviceInfo, rfl, hb, rfl⟩
  case coreGetCapsInfo =>
    cases hg' .core hg
    exact parseGroup_ok.mpr ⟨_, _, _, _, CoreOpcodeId.getCapsInfo, rfl, hb, rfl⟩
  case coreSetConfig ps =>
    cases hg' .core hg
    exact parseGroup_ok.mpr ⟨_, _, _, _, CoreOpcodeId.setConfig, rfl, hb,
      child_ok.mpr ⟨_, full_coreSetConfigCmd.dec ps ⟨hf.1, fun p h => ⟨trivial, hf.2 p h⟩⟩, rfl⟩⟩
  case coreGetConfig ids =>
    cases hg' .core hg
    exact parseGroup_ok.mpr ⟨_, _, _, _, CoreOpcodeId.getConfig, rfl, hb,
      child_ok.mpr ⟨_, full_coreGetConfigCmd.dec ids ⟨hf, fun _ _ => trivial⟩, rfl⟩⟩
  case sessionInit id ty =>
    cases hg' .sessionConfig hg
    exact parseGroup_ok.mpr ⟨_, _, _, _, SessionConfigOpcodeId.init, rfl, hb,
      child_ok.mpr ⟨_, full_sessionInitCmd.dec (id, ty) ⟨trivial, trivial⟩, rfl⟩⟩
  case sessionDeinit t =>
    cases hg' .sessionConfig hg
    exact parseGroup_ok.mpr ⟨_, _, _, _, SessionConfigOpcodeId.deinit, rfl, hb,
      child_ok.mpr ⟨_, describes_u32.full.dec t trivial, rfl⟩⟩
  case sessionGetCount =>
    cases hg' .sessionConfig hg
    exact parseGroup_ok.mpr ⟨_, _, _, _, SessionConfigOpcodeId.getCount, rfl, hb, rfl⟩
  case sessionSetAppConfig t tlvs =>
    cases hg' .sessionConfig hg
    exact parseGroup_ok.mpr ⟨_, _, _, _, SessionConfigOpcodeId.setAppConfig, rfl, hb,
      child_ok.mpr ⟨_, full_sessionSetAppConfigCmd.dec (t, tlvs) ⟨trivial, hf⟩, rfl⟩⟩
  case sessionGetAppConfig t ids =>
    cases hg' .sessionConfig hg
    exact parseGroup_ok.mpr ⟨_, _, _, _, SessionConfigOpcodeId.getAppConfig, rfl, hb,
      child_ok.mpr ⟨_, full_sessionGetAppConfigCmd.dec (t, ids) ⟨trivial, hf⟩, rfl⟩⟩
  case sessionGetState t =>
    cases hg' .sessionConfig hg
    exact parseGroup_ok.mpr ⟨_, _, _, _, SessionConfigOpcodeId.getState, rfl, hb,
      child_ok.mpr ⟨_, describes_u32.full.dec t trivial, rfl⟩⟩
  case sessionUpdateMulticast t a p =>
    cases hg' .sessionConfig hg
    exact parseGroup_ok.mpr ⟨_, _, _, _, SessionConfigOpcodeId.updateControllerMulticastList, rfl, hb,
      child_ok.mpr ⟨_, full_sessionUpdateMulticastCmd.dec (t, a, p) ⟨trivial, trivial, trivial⟩, rfl⟩⟩
  case sessionStart t =>
    cases hg' .sessionControl hg
    exact parseGroup_ok.mpr ⟨_, _, _, _, SessionControlOpcodeId.start, rfl, hb,
      child_ok.mpr ⟨_, describes_u32.full.dec t trivial, rfl⟩⟩
  case sessionStop t =>
    cases hg' .sessionControl hg
    exact parseGroup_ok.mpr ⟨_, _, _, _, SessionControlOpcodeId.stop, rfl, hb,
      child_ok.mpr ⟨_, describes_u32.full.dec t trivial, rfl⟩⟩
  case sessionGetRangingCount t =>
    cases hg' .sessionControl hg
    exact parseGroup_ok.mpr ⟨_, _, _, _, SessionControlOpcodeId.getRangingCount, rfl, hb,
      child_ok.mpr ⟨_, describes_u32.full.dec t trivial, rfl⟩⟩
  case androidGetPowerStats =>
    cases hg' .vendorAndroid hg
    exact parseGroup_ok.mpr ⟨_, _, _, _, AndroidOpcodeId.getPowerStats, rfl, hb, rfl⟩
  case androidSetCountryCode cc =>
    cases hg' .vendorAndroid hg
    exact parseGroup_ok.mpr ⟨_, _, _, _, AndroidOpcodeId.setCountryCode, rfl, hb,
      child_ok.mpr ⟨_, (describes_arr 2).full.dec cc trivial, rfl⟩⟩

/-- Only those layouts are parsed as a command. -/
theorem layout_of_parse (c : Cmd) (g : GroupId) (p : Bytes) (h : Cmd.parse g p = .ok (some c)) :
    cmdFits c ∧ g.code = (cmdCode c).1 ∧ ∃ b r₂ r₃, p = b :: r₂ :: r₃ :: cmdPayload c ∧
      b.toNat % 64 = (cmdCode c).2.toNat := by
  unfold Cmd.parse at h
  split at h
  · obtain ⟨b, r₂, r₃, q, oid, rfl, hb, h⟩ := parseGroup_ok.mp h
    unfold Cmd.parseCore at h
    split at h
    · obtain ⟨x, hx, rfl⟩ := child_ok.mp h
      obtain ⟨-, rfl⟩ := (canonical_enum ResetConfig).full _ _ hx
      exact ⟨trivial, rfl, _, _, _, rfl, hb⟩
    · obtain ⟨x, hx, rfl⟩ := child_ok.mp h
      obtain ⟨-, rfl⟩ := canonical_unit.full _ _ hx
      exact ⟨trivial, rfl, _, _, _, rfl, hb⟩
    · obtain ⟨x, hx, rfl⟩ := child_ok.mp h
      obtain ⟨-, rfl⟩ := canonical_unit.full _ _ hx
      exact ⟨trivial, rfl, _, _, _, rfl, hb⟩
    · obtain ⟨x, hx, rfl⟩ := child_ok.mp h
      obtain ⟨hw, rfl⟩ := fullCanonical_coreSetConfigCmd _ _ hx
      exact ⟨⟨hw.1, fun p hp => (hw.2 p hp).2⟩, rfl, _, _, _, rfl, hb⟩
    · obtain ⟨x, hx, rfl⟩ := child_ok.mp h
      obtain ⟨hw, rfl⟩ := fullCanonical_coreGetConfigCmd _ _ hx
      exact ⟨hw.1, rfl, _, _, _, rfl, hb⟩
    · exact absurd h unsupported_ne_ok
    · cases h
    · cases h
  · obtain ⟨b, r₂, r₃, q, oid, rfl, hb, h⟩ := parseGroup_ok.mp h
    unfold Cmd.parseSessionConfig at h
    split at h
    · obtain ⟨x, hx, rfl⟩ := child_ok.mp h
      obtain ⟨-, rfl⟩ := fullCanonical_sessionInitCmd _ _ hx
      exact ⟨trivial, rfl, _, _, _, rfl, hb⟩
    · obtain ⟨x, hx, rfl⟩ := child_ok.mp h
      obtain ⟨-, rfl⟩ := canonical_u32.full _ _ hx
      exact ⟨trivial, rfl, _, _, _, rfl, hb⟩
    · obtain ⟨x, hx, rfl⟩ := child_ok.mp h
      obtain ⟨-, rfl⟩ := canonical_unit.full _ _ hx
      exact ⟨trivial, rfl, _, _, _, rfl, hb⟩
    · obtain ⟨x, hx, rfl⟩ := child_ok.mp h
      obtain ⟨hw, rfl⟩ := fullCanonical_sessionSetAppConfigCmd _ _ hx
      exact ⟨hw.2, rfl, _, _, _, rfl, hb⟩
    · obtain ⟨x, hx, rfl⟩ := child_ok.mp h
      obtain ⟨hw, rfl⟩ := fullCanonical_sessionGetAppConfigCmd _ _ hx
      exact ⟨hw.2, rfl, _, _, _, rfl, hb⟩
    · obtain ⟨x, hx, rfl⟩ := child_ok.mp h
      obtain ⟨-, rfl⟩ := canonical_u32.full _ _ hx
      exact ⟨trivial, rfl, _, _, _, rfl, hb⟩
    · obtain ⟨x, hx, rfl⟩ := child_ok.mp h
      obtain ⟨-, rfl⟩ := fullCanonical_sessionUpdateMulticastCmd _ _ hx
      exact ⟨trivial, rfl, _, _, _, rfl, hb⟩
    · exact absurd h unsupported_ne_ok
    · exact absurd h unsupported_ne_ok
    · exact absurd h unsupported_ne_ok
    · cases h
  · obtain ⟨b, r₂, r₃, q, oid, rfl, hb, h⟩ := parseGroup_ok.mp h
    unfold Cmd.parseSessionControl at h
    split at h
    · obtain ⟨x, hx, rfl⟩ := child_ok.mp h
      obtain ⟨-, rfl⟩ := canonical_u32.full _ _ hx
      exact ⟨trivial, rfl, _, _, _, rfl, hb⟩
    · obtain ⟨x, hx, rfl⟩ := child_ok.mp h
      obtain ⟨-, rfl⟩ := canonical_u32.full _ _ hx
      exact ⟨trivial, rfl, _, _, _, rfl, hb⟩
    · obtain ⟨x, hx, rfl⟩ := child_ok.mp h
      obtain ⟨-, rfl⟩ := canonical_u32.full _ _ hx
      exact ⟨trivial, rfl, _, _, _, rfl, hb⟩
    · cases h
    · cases h
  · obtain ⟨b, r₂, r₃, q, oid, rfl, hb, h⟩ := parseGroup_ok.mp h
    unfold Cmd.parseAndroid at h
    split at h
    · obtain ⟨x, hx, rfl⟩ := child_ok.mp h
      obtain ⟨-, rfl⟩ := canonical_unit.full _ _ hx
      exact ⟨trivial, rfl, _, _, _, rfl, hb⟩
    · obtain ⟨x, hx, rfl⟩ := child_ok.mp h
      obtain ⟨-, rfl⟩ := (canonical_arr 2).full _ _ hx
      exact ⟨trivial, rfl, _, _, _, rfl, hb⟩
    · cases h
  · cases h

end Pica
