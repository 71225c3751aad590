import Verif.Spec.Caps
import Verif.Props.Config
/-! C65: data packets of a host. C66: what a device tells about itself. C67: reading the parameters of a session. -/

set_option linter.dupNamespace false

namespace Pica.Props
open Spec Pica

/-! ### C65 -/

/-- C65: data for a session that does not exist is rejected. -/
theorem C65_unknown (p : Pica) (env : Env) (h : Nat) (d : Device) (bytes : Bytes) (m : DataMessageSnd)
    (hd : p.devices.get? h = some d) (hb : IsDataSnd bytes m) (hs : d.sessions.get? m.sessionHandle = none) :
    AnswersTo p env h bytes
      (.ntf (.sessionDataTransferStatus m.sessionHandle 0 .uciDataTransferStatusErrorRejected 1)) d [] := by
  have hb' := hb
  obtain ⟨-, b, r₁, r₂, r₃, rfl, h0, h1⟩ := hb'
  have hm := (isSnd_iff h0 h1).mp hb
  unfold AnswersTo
  rw [uci_step hd, recv_snd h0 h1, hm]
  dsimp only
  rw [show d.session m.sessionHandle = none from hs]
  rfl

/-- C65: data for a session without data transfer is refused; the notification has the low byte of the sequence number. -/
theorem C65_unsupported (p : Pica) (env : Env) (h : Nat) (d : Device) (bytes : Bytes) (m : DataMessageSnd) (s : Session)
    (hd : p.devices.get? h = some d) (hb : IsDataSnd bytes m) (hs : d.sessions.get? m.sessionHandle = some s)
    (ht : s.sessionType ≠ .firaRangingAndInBandDataSession) :
    AnswersTo p env h bytes
      (.ntf (.sessionDataTransferStatus m.sessionHandle (UInt8.ofNat (m.dataSequenceNumber.toNat % 256))
        .uciDataTransferStatusSessionTypeNotSupported 1)) d [] := by
  have hb' := hb
  obtain ⟨-, b, r₁, r₂, r₃, rfl, h0, h1⟩ := hb'
  have hm := (isSnd_iff h0 h1).mp hb
  unfold AnswersTo
  rw [uci_step hd, recv_snd h0 h1, hm]
  dsimp only
  rw [show d.session m.sessionHandle = some s from hs]
  dsimp only
  unfold Session.dataMessageSnd
  rw [if_pos ht]
  dsimp only
  have hseq : m.dataSequenceNumber.toUInt8 = UInt8.ofNat (m.dataSequenceNumber.toNat % 256) := by
    apply UInt8.toNat_inj.mp
    simp
  have hput : d.putSession m.sessionHandle s = d := by
    unfold Device.putSession
    rw [AMap.insert_self hs]
  rw [hseq, hput]
  rfl

/-- C65: data for a data session is acknowledged with a credit and appended to what that session has to send. -/
theorem C65_accepted (p : Pica) (env : Env) (h : Nat) (d : Device) (bytes : Bytes) (m : DataMessageSnd) (s : Session)
    (hp : p.Reachable) (hd : p.devices.get? h = some d) (hb : IsDataSnd bytes m) (hs : d.sessions.get? m.sessionHandle = some s)
    (ht : s.sessionType = .firaRangingAndInBandDataSession) :
    AnswersTo p env h bytes (.ntf (.sessionDataCredit m.sessionHandle .creditAvailable))
      { d with sessions := d.sessions.insert m.sessionHandle { s with data := s.data ++ m.applicationData } } [] := by
  have hb' := hb
  obtain ⟨-, b, r₁, r₂, r₃, rfl, h0, h1⟩ := hb'
  have hm := (isSnd_iff h0 h1).mp hb
  have hid : s.id = m.sessionHandle := (((reachable_inv hp).dev h d hd).2.2.2.sess _ s hs).id
  unfold AnswersTo
  rw [uci_step hd, recv_snd h0 h1, hm]
  dsimp only
  rw [show d.session m.sessionHandle = some s from hs]
  dsimp only
  unfold Session.dataMessageSnd
  rw [if_neg (by rw [ht]; simp), if_neg (by rw [hid]; simp)]
  rfl

/-- C65: a DATA_MESSAGE_RCV is not for a device to receive. -/
theorem C65_received (p : Pica) (env : Env) (h : Nat) (d : Device) (bytes : Bytes) (m : DataMessageRcv)
    (hd : p.devices.get? h = some d) (hb : IsDataRcv bytes m) :
    AnswersTo p env h bytes
      (.ntf (.sessionDataTransferStatus m.sessionHandle 0 .uciDataTransferStatusInvalidFormat 1)) d [] := by
  have hb' := hb
  obtain ⟨-, b, r₁, r₂, r₃, rfl, h0, h1⟩ := hb'
  have hm := (isRcv_iff h0 h1).mp hb
  unfold AnswersTo
  rw [uci_step hd, recv_rcv h0 h1, hm]
  rfl

/-- C65: data packets shorter than a header or with an unknown format are ignored. -/
theorem C65_ignored (p : Pica) (env : Env) (h : Nat) (d : Device) (b : UInt8) (r : Bytes) (hd : p.devices.get? h = some d)
    (h0 : b.toNat / 32 = 0) (hr : r.length < 3 ∨ (b.toNat % 16 ≠ 1 ∧ b.toNat % 16 ≠ 2)) :
    p.step env (.uciPacket h (b :: r)) = .ok (p, []) := by
  rw [uci_step hd, recv_notData h0 hr]
  dsimp only
  rw [AMap.insert_self hd]
  rfl

/-! ### C66 -/

/-- C66: the versions reported by a device that is READY. -/
theorem C66_info (p : Pica) (env : Env) (h : Nat) (d : Device) (hd : p.devices.get? h = some d) (hr : d.isReset = true)
    (hs : d.state = .deviceStateReady) :
    Answers p env h .coreGetDeviceInfo (.coreGetDeviceInfo .ok 0x0002 0x3001 0x3001 0x1001 []) d [] := by
  refine step_cmd hd (.inl hr) (e := []) ?_ (fun _ => by simp [rspFits])
  show d.coreGetDeviceInfo = _
  unfold Device.coreGetDeviceInfo
  rw [if_pos hs]

/-- The same as bytes: status, then the versions of UCI, MAC, PHY and test interface, least significant byte first,
and no vendor information. -/
theorem C66_info_bytes : (Packet.rsp (.coreGetDeviceInfo .ok 0x0002 0x3001 0x3001 0x1001 [])).encode =
    some [0x40, 0x02, 0, 0, 0x00, 0x02, 0x00, 0x01, 0x30, 0x01, 0x30, 0x01, 0x10, 0x00] := by decide +kernel

/-- C66: the capabilities reported by a device. -/
theorem C66_caps (p : Pica) (env : Env) (h : Nat) (d : Device) (hd : p.devices.get? h = some d) (hr : d.isReset = true) :
    ∃ l : List CapTlv, l.map (fun t => (t.t.code, t.v)) = capabilities ∧
      Answers p env h .coreGetCapsInfo (.coreGetCapsInfo .ok l) d [] :=
  ⟨defaultCapsInfo, by decide +kernel, step_cmd hd (.inl hr) rfl fun _ => caps_fit⟩

/-- C66: the power statistics are all zero. -/
theorem C66_power (p : Pica) (env : Env) (h : Nat) (d : Device) (hd : p.devices.get? h = some d) (hr : d.isReset = true) :
    Answers p env h .androidGetPowerStats (.androidGetPowerStats ⟨.ok, 0, 0, 0, 0⟩) d [] :=
  step_cmd hd (.inl hr) rfl fun _ => trivial

/-- C66: the country code is kept, and nothing else changes. -/
theorem C66_country (p : Pica) (env : Env) (h : Nat) (d : Device) (cc : Arr 2) (hd : p.devices.get? h = some d)
    (hr : d.isReset = true) :
    Answers p env h (.androidSetCountryCode cc) (.androidSetCountryCode .ok) { d with countryCode := cc } [] :=
  step_cmd hd (.inl hr) rfl fun _ => trivial

/-! ### C67 -/

theorem getApp_all {c : AppConfig} {ids : List AppConfigTlvType} (h : ∀ i ∈ ids, View.of c i.code ≠ none) :
    ids.filter (fun i => (c.get i).isNone) = [] ∧
    (ids.filterMap fun i => (c.get i).map fun v => (⟨i, v⟩ : AppConfigTlv)).map (fun t => (t.cfgId, some t.v)) =
      ids.map fun i => (i, View.of c i.code) := by
  induction ids with
  | nil => exact ⟨rfl, rfl⟩
  | cons i ids ih =>
    obtain ⟨h1, h2⟩ := ih fun j hj => h j (List.mem_cons_of_mem _ hj)
    have hi := h i (List.mem_cons_self ..)
    have he : View.of c i.code = c.get i := rfl
    rw [he] at hi
    obtain ⟨v, hv⟩ := Option.ne_none_iff_exists'.mp hi
    refine ⟨?_, ?_⟩
    · rw [List.filter_cons, hv]; exact h1
    · rw [List.filterMap_cons, hv, List.map_cons, ← h2, he, hv]; rfl

/-- C67: all parameters have values of at most 255 bytes: they are reported in the order asked for. -/
theorem C67_values (p : Pica) (env : Env) (h : Nat) (d : Device) (sid : UInt32) (ids : List AppConfigTlvType) (s : Session)
    (hd : p.devices.get? h = some d) (hr : d.isReset = true) (hs : d.sessions.get? sid = some s)
    (hv : ∀ i ∈ ids, ∃ v, View.of s.appConfig i.code = some v ∧ v.length ≤ 255) :
    ∃ l : List AppConfigTlv, l.map (fun t => (t.cfgId, some t.v)) = ids.map (fun i => (i, View.of s.appConfig i.code)) ∧
      Answers p env h (.sessionGetAppConfig sid ids) (.sessionGetAppConfig .ok l) d [] := by
  have hn : ∀ i ∈ ids, View.of s.appConfig i.code ≠ none := by
    intro i hi
    obtain ⟨v, hv, -⟩ := hv i hi
    rw [hv]; simp
  obtain ⟨h1, h2⟩ := getApp_all hn
  have hx : d.exec env.tid (.sessionGetAppConfig sid ids) = .ok (d, .sessionGetAppConfig .ok
      (ids.filterMap fun i => (s.appConfig.get i).map fun v => (⟨i, v⟩ : AppConfigTlv)), []) := by
    show Except.ok (d.sessionGetAppConfig sid ids) = _
    unfold Device.sessionGetAppConfig
    rw [show d.session sid = some s from hs]
    dsimp only
    rw [h1]
    rfl
  refine ⟨_, h2, step_cmd hd (.inl hr) hx fun hc => ?_⟩
  by_contra hf
  obtain ⟨_, _, s', h3, h4, -, i, hi, v, hiv, hl⟩ := (exec_fits hc hx).mp hf
  cases h3
  rw [show d.session sid = some s from hs] at h4
  cases h4
  obtain ⟨w, hw, hwl⟩ := hv i hi
  rw [hw] at hiv
  cases hiv
  omega

/-- C67: one of the parameters has no value: FAILED, and none is reported. -/
theorem C67_failed (p : Pica) (env : Env) (h : Nat) (d : Device) (sid : UInt32) (ids : List AppConfigTlvType) (s : Session)
    (hd : p.devices.get? h = some d) (hr : d.isReset = true) (hs : d.sessions.get? sid = some s)
    (hv : ∃ i ∈ ids, View.of s.appConfig i.code = none) :
    Answers p env h (.sessionGetAppConfig sid ids) (.sessionGetAppConfig .failed []) d [] := by
  obtain ⟨i, hi, hn⟩ := hv
  have hx : d.exec env.tid (.sessionGetAppConfig sid ids) = .ok (d, .sessionGetAppConfig .failed [], []) := by
    show Except.ok (d.sessionGetAppConfig sid ids) = _
    unfold Device.sessionGetAppConfig
    rw [show d.session sid = some s from hs]
    dsimp only
    have : ¬(ids.filter fun i => (s.appConfig.get i).isNone).isEmpty = true := by
      rw [List.isEmpty_iff, List.filter_eq_nil_iff]
      intro h
      refine h i hi ?_
      have : s.appConfig.get i = none := hn
      rw [this]; rfl
    rw [if_neg this]
  exact step_cmd hd (.inl hr) hx fun _ => by simp [rspFits]

/-- C67: a session that does not exist. -/
theorem C67_unknown (p : Pica) (env : Env) (h : Nat) (d : Device) (sid : UInt32) (ids : List AppConfigTlvType)
    (hd : p.devices.get? h = some d) (hr : d.isReset = true) (hs : d.sessions.get? sid = none) :
    Answers p env h (.sessionGetAppConfig sid ids) (.sessionGetAppConfig .errorSessionNotExist []) d [] := by
  have hx : d.exec env.tid (.sessionGetAppConfig sid ids) = .ok (d, .sessionGetAppConfig .errorSessionNotExist [], []) := by
    show Except.ok (d.sessionGetAppConfig sid ids) = _
    unfold Device.sessionGetAppConfig
    rw [show d.session sid = none from hs]
  exact step_cmd hd (.inl hr) hx fun _ => by simp [rspFits]

/-- C67: the remaining case. All parameters have a value and one is longer than 255 bytes: the emulator aborts. -/
theorem C67_long (p : Pica) (env : Env) (h : Nat) (d : Device) (sid : UInt32) (ids : List AppConfigTlvType) (s : Session)
    (hp : p.Reachable) (hd : p.devices.get? h = some d) (hr : d.isReset = true) (hs : d.sessions.get? sid = some s)
    (hv : ∀ i ∈ ids, View.of s.appConfig i.code ≠ none)
    (hl : ∃ i ∈ ids, ∃ v, View.of s.appConfig i.code = some v ∧ 255 < v.length)
    (bytes : Bytes) (hb : IsCmd bytes (.sessionGetAppConfig sid ids)) : ∃ x, p.step env (.uciPacket h bytes) = .error x := by
  have := (receive_error_iff (tid := env.tid) (bytes := bytes) ((reachable_inv hp).dev h d hd).2.2.2).mpr
    (.fatal _ _ hr hb (.longValue sid ids s hs hv hl))
  obtain ⟨x, hx⟩ := this
  exact ⟨x, by rw [uci_step hd, hx]⟩

/-! ### Examples -/

/-- A DATA_MESSAGE_SND of two bytes with sequence number 0x0103. -/
def Ex.snd (sid : UInt8) : Bytes := [0x01, 0, 0, 0, sid, 0, 0, 0, 0, 0xb1, 0, 0, 0, 0, 0, 0, 0x03, 0x01, 2, 0, 0x55, 0x66]

theorem Ex.snd_is7 : IsDataSnd (Ex.snd 7) ⟨7, 0xb100, 0x0103, [0x55, 0x66]⟩ :=
  ⟨by decide, 0x01, 0, 0, 0, by decide +kernel, by decide, by decide⟩
theorem Ex.snd_is9 : IsDataSnd (Ex.snd 9) ⟨9, 0xb100, 0x0103, [0x55, 0x66]⟩ :=
  ⟨by decide, 0x01, 0, 0, 0, by decide +kernel, by decide, by decide⟩

/-- Data for a data session (7), a ranging session (9), no session (3), and a DATA_MESSAGE_RCV. -/
example : ((Ex.trace (Ex.twoActive ++ [Ex.pkt 0 (Ex.snd 7), Ex.pkt 0 (Ex.snd 9), Ex.pkt 0 (Ex.snd 3),
      Ex.pkt 0 [0x02, 0, 0, 0, 7, 0, 0, 0, 0, 0, 0xb1, 0, 0, 0, 0, 0, 0, 0x03, 0x01, 0, 0]])).drop 13).flatMap
        (fun ev => sentTo 0 ev.out) =
    [.ntf (.sessionDataCredit 7 .creditAvailable),
     .ntf (.sessionDataTransferStatus 9 3 .uciDataTransferStatusSessionTypeNotSupported 1),
     .ntf (.sessionDataTransferStatus 3 0 .uciDataTransferStatusErrorRejected 1),
     .ntf (.sessionDataTransferStatus 7 0 .uciDataTransferStatusInvalidFormat 1)] := by decide +kernel

/-- `C65_accepted` and `C65_unsupported` apply to the two sessions of the first device. -/
example : ∃ (p : Pica) (d : Device) (s s' : Session), p.Reachable ∧ p.devices.get? 0 = some d ∧ d.sessions.get? 7 = some s ∧ d.sessions.get? 9 = some s' ∧
    AnswersTo p Ex.env 0 (Ex.snd 7) (.ntf (.sessionDataCredit 7 .creditAvailable))
      { d with sessions := d.sessions.insert 7 { s with data := s.data ++ [0x55, 0x66] } } [] ∧
    AnswersTo p Ex.env 0 (Ex.snd 9)
      (.ntf (.sessionDataTransferStatus 9 3 .uciDataTransferStatusSessionTypeNotSupported 1)) d [] := by
  have hr := Ex.after_reachable _ Ex.twoActive_ok
  obtain ⟨d, s, hd, hs, hf⟩ := Ex.find (p := Ex.after Ex.twoActive) (h := 0) (sid := 7)
    (f := fun d s => (s.sessionType, (d.sessions.get? 9).map (·.sessionType)))
    (b := (.firaRangingAndInBandDataSession, some .firaRangingSession)) (by decide +kernel)
  obtain ⟨s', hs', ht⟩ := Option.map_eq_some_iff.mp (congrArg Prod.snd hf)
  exact ⟨_, d, s, s', hr, hd, hs, hs',
    C65_accepted _ Ex.env 0 d _ _ s hr hd Ex.snd_is7 hs (congrArg Prod.fst hf),
    C65_unsupported _ Ex.env 0 d _ _ s' hd Ex.snd_is9 hs' (by rw [ht]; decide)⟩

/-- Device information, power statistics and country code of a device without ACTIVE session. -/
example : ((Ex.trace [(Ex.env, .connect), Ex.pkt 0 Ex.reset, Ex.pkt 0 (Ex.cmd 0 2 []), Ex.pkt 0 (Ex.cmd 0xc 0 []),
      Ex.pkt 0 (Ex.cmd 0xc 1 [0x55, 0x53])]).drop 2).flatMap (fun ev => sentTo 0 ev.out) =
    [.rsp (.coreGetDeviceInfo .ok 0x0002 0x3001 0x3001 0x1001 []), .rsp (.androidGetPowerStats ⟨.ok, 0, 0, 0, 0⟩),
     .rsp (.androidSetCountryCode .ok)] := by decide +kernel

/-- Reading DEVICE_MAC_ADDRESS and DEVICE_ROLE of a configured session; with a parameter that has no value; of no session. -/
example : ((Ex.trace (Ex.oneActive ++ [Ex.pkt 0 (Ex.cmd 1 4 [7, 0, 0, 0, 2, 0x06, 0x11]),
      Ex.pkt 0 (Ex.cmd 1 4 [7, 0, 0, 0, 2, 0x06, 0xff]), Ex.pkt 0 (Ex.cmd 1 4 [8, 0, 0, 0, 1, 0x06])])).drop 5).flatMap
        (fun ev => sentTo 0 ev.out) =
    [.rsp (.sessionGetAppConfig .ok [⟨⟨0x06⟩, [0x00, 0xa0]⟩, ⟨⟨0x11⟩, [1]⟩]), .rsp (.sessionGetAppConfig .failed []),
     .rsp (.sessionGetAppConfig .errorSessionNotExist [])] := by decide +kernel

/-- A configured controller with 127 controlees to which one is added: its DST_MAC_ADDRESS is longer than 255 bytes, and
reading it aborts the emulator. -/
example : ∃ (p : Pica) (d : Device) (s : Session) (v : Bytes), p.Reachable ∧ p.devices.get? 0 = some d ∧ d.sessions.get? 7 = some s ∧
    View.of s.appConfig 0x07 = some v ∧ 255 < v.length ∧
    ∃ x, p.step Ex.env (.uciPacket 0 (Ex.cmd 1 4 [7, 0, 0, 0, 1, 0x07])) = .error x := by
  obtain ⟨⟨p, tr⟩, hp, hf⟩ := Ex.exists_ok
    (x := Ex.play .new [(Ex.env, .connect), Ex.pkt 0 Ex.reset, Ex.pkt 0 (Ex.sessionInit 7 1),
      Ex.pkt 0 (Ex.setApp 7 8 ([0x00, 1, 1, 0x01, 1, 2, 0x03, 1, 1, 0x05, 1, 127, 0x06, 2, 0x00, 0xa0, 0x07, 254] ++
        List.replicate 254 0x11 ++ [0x11, 1, 1, 0x22, 1, 1])), Ex.pkt 0 (Ex.addOne 7 0x00 0xb1)])
    (f := fun x => ((x.1.devices.get? 0).bind fun d => (d.sessions.get? 7).map fun s =>
      (d.isReset, (View.of s.appConfig 0x07).map List.length))) (b := some (true, some 256)) (by decide +kernel)
  obtain ⟨d, s, hd, hs, hf⟩ := Ex.find (f := fun d s => (d.isReset, (View.of s.appConfig 0x07).map List.length)) hf
  have h2 : (View.of s.appConfig 0x07).map List.length = some 256 := congrArg Prod.snd hf
  obtain ⟨v, hv, hl⟩ := Option.map_eq_some_iff.mp h2
  have hr : p.Reachable := ⟨tr, Ex.play_run hp⟩
  refine ⟨p, d, s, v, hr, hd, hs, hv, by omega, ?_⟩
  refine C67_long p Ex.env 0 d 7 [⟨0x07⟩] s hr hd (congrArg Prod.fst hf) hs ?_ ⟨_, List.mem_singleton_self _, v, hv, by omega⟩ _ ?_
  · intro i hi
    rw [List.mem_singleton.mp hi, hv]; simp
  · exact ⟨⟨by decide, by decide⟩, 0x21, 4, 0, 6, rfl, by decide, by decide, by decide⟩

end Pica.Props
