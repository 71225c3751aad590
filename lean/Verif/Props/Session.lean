import Verif.Props.Life
/-! C21, C22, C25, C26, C28 and C29: the session commands. -/

set_option linter.dupNamespace false

namespace Pica.Props
open Spec SessionState

/-! ### C21 and C22 -/

/-- SESSION_SET_APP_CONFIG goes on to look at the values: the session is a FiRa ranging session, in INIT, or in
ACTIVE with AOA_RESULT_REQ (0x0d) not among the parameters. -/
def Configurable (s : Session) (tlvs : List AppConfigTlv) : Prop :=
  (s.sessionType = .firaRangingSession ∨ s.sessionType = .firaRangingAndInBandDataSession) ∧
  (s.state = sessionStateInit ∨ s.state = sessionStateActive ∧ ∀ t ∈ tlvs, t.cfgId.code ≠ 0x0d)

/-- The parameters of a command: identifiers and values. -/
def params (tlvs : List AppConfigTlv) : List (UInt8 × Bytes) := tlvs.map fun t => (t.cfgId.code, t.v)

theorem aoa_iff {tlvs : List AppConfigTlv} :
    tlvs.any (fun t => decide (t.cfgId = .aoaResultReq)) = true ↔ ∃ t ∈ tlvs, t.cfgId.code = 0x0d := by
  simp only [List.any_eq_true, decide_eq_true_eq]
  constructor
  · rintro ⟨t, ht, h⟩; exact ⟨t, ht, by rw [h]; rfl⟩
  · rintro ⟨t, ht, h⟩
    refine ⟨t, ht, ?_⟩
    rw [← tag_eta t.cfgId, h]; rfl

theorem fira_not {ty : SessionType} (h : ty = .firaRangingSession ∨ ty = .firaRangingAndInBandDataSession) :
    ¬(ty ≠ .firaRangingSession ∧ ty ≠ .firaRangingAndInBandDataSession) := by
  rintro ⟨h1, h2⟩; exact h.elim h1 h2

theorem setApp_eq {d : Device} {sid : UInt32} {s : Session} {tlvs : List AppConfigTlv}
    (hs : d.sessions.get? sid = some s) (hc : Configurable s tlvs) (tid : Nat) :
    d.exec tid (.sessionSetAppConfig sid tlvs) = (do
      let (c, invalid) ← Device.setAppConfigLoop s.appConfig tlvs
      if !Device.hasMandatory c then .ok (d, .sessionSetAppConfig .rejected [], [])
      else if invalid.isEmpty then
        let s := { s with appConfig := c }
        let (s, e) := if s.state = .sessionStateInit then
            s.setState .sessionStateIdle .stateChangeWithSessionManagementCommands
          else (s, [])
        .ok (d.putSession sid s, .sessionSetAppConfig .ok invalid, e)
      else .ok (d, .sessionSetAppConfig .invalidParam invalid, [])) := by
  show d.sessionSetAppConfig sid tlvs = _
  unfold Device.sessionSetAppConfig
  have hs' : d.session sid = some s := hs
  simp only [hs']
  rw [if_neg (fira_not hc.1), if_neg, if_neg]
  · rintro ⟨h1, h2⟩
    rcases hc.2 with h | h
    · exact h1 h
    · exact h2 h.1
  · rintro ⟨h1, h2⟩
    obtain ⟨t, ht, he⟩ := aoa_iff.mp h2
    rcases hc.2 with h | h
    · rw [h] at h1; cases h1
    · exact h.2 t ht he

theorem loop_of_applied {c : AppConfig} {tlvs : List AppConfigTlv} {w : View} {bad : List UInt8}
    (ha : Applied (View.of c) (params tlvs) w bad) :
    ∃ c', Device.setAppConfigLoop c tlvs = .ok (c', bad.map fun i => ⟨⟨i⟩, .invalidParam⟩) ∧ View.of c' = w := by
  cases hl : Device.setAppConfigLoop c tlvs with
  | error x => exact absurd ha (loop_error hl _ _)
  | ok y =>
    obtain ⟨c', inv⟩ := y
    obtain ⟨bad', h1, h2⟩ := loop_ok hl
    obtain ⟨e1, e2⟩ := Spec.Applied.unique h1 ha
    exact ⟨c', by rw [h2, e2], e1⟩

theorem setApp_fits {d d' : Device} {tid : Nat} {sid : UInt32} {tlvs : List AppConfigTlv} {r : Rsp} {e : List Effect}
    (h : d.exec tid (.sessionSetAppConfig sid tlvs) = .ok (d', r, e)) :
    cmdFits (.sessionSetAppConfig sid tlvs) → rspFits r := by
  intro hc
  by_contra hn
  obtain ⟨_, _, _, h, -⟩ := (exec_fits hc h).mp hn
  cases h

/-- C21: when every parameter is legal at its turn and the mandatory ones have a value in the end, the command
answers OK with an empty list and the parameters are those applied in order; nothing of the session changes
besides, but for INIT which becomes IDLE with one SESSION_STATUS_NTF. -/
theorem C21_applied (p : Pica) (env : Env) (h : Nat) (d : Device) (sid : UInt32) (s : Session) (tlvs : List AppConfigTlv)
    (w : View) (hd : p.devices.get? h = some d) (hr : d.isReset = true) (hs : d.sessions.get? sid = some s)
    (hc : Configurable s tlvs) (ha : Applied (View.of s.appConfig) (params tlvs) w []) (hw : Complete w) :
    ∃ c, View.of c = w ∧
      Answers p env h (.sessionSetAppConfig sid tlvs) (.sessionSetAppConfig .ok [])
        { d with sessions := d.sessions.insert sid { s with
            appConfig := c
            state := if s.state = sessionStateInit then sessionStateIdle else s.state } }
        (if s.state = sessionStateInit then [.notify 1 (.sessionStatus s.id sessionStateIdle 0)] else []) := by
  obtain ⟨c, hl, hv⟩ := loop_of_applied ha
  refine ⟨c, hv, ?_⟩
  have hx : d.exec env.tid (.sessionSetAppConfig sid tlvs) = .ok ({ d with sessions := d.sessions.insert sid { s with
            appConfig := c
            state := if s.state = sessionStateInit then sessionStateIdle else s.state } }, .sessionSetAppConfig .ok [],
        (if s.state = sessionStateInit then [.notify 1 (.sessionStatus s.id sessionStateIdle 0)] else [])) := by
    rw [setApp_eq hs hc, hl]
    have hm : Device.hasMandatory c = true := (hasMandatory_iff c).mpr (by rw [hv]; exact hw)
    simp only [bind, Except.bind, hm, Bool.not_true, Bool.false_eq_true, if_false, List.map_nil, List.isEmpty_nil, if_true]
    by_cases hst : s.state = sessionStateInit
    · simp only [hst, if_true, Session.setState]
      rw [if_neg (by decide)]
      rfl
    · simp only [hst, if_false]; rfl
  exact step_cmd hd (.inl hr) hx (setApp_fits hx)

/-- C21: when some parameters are refused (and the mandatory ones have a value), the command answers
INVALID_PARAM, names exactly the refused ones in order, and changes nothing. -/
theorem C21_refused (p : Pica) (env : Env) (h : Nat) (d : Device) (sid : UInt32) (s : Session) (tlvs : List AppConfigTlv)
    (w : View) (bad : List UInt8) (hd : p.devices.get? h = some d) (hr : d.isReset = true)
    (hs : d.sessions.get? sid = some s) (hc : Configurable s tlvs)
    (ha : Applied (View.of s.appConfig) (params tlvs) w bad) (hb : bad ≠ []) (hw : Complete w) :
    Answers p env h (.sessionSetAppConfig sid tlvs)
      (.sessionSetAppConfig .invalidParam (bad.map fun i => ⟨⟨i⟩, .invalidParam⟩)) d [] := by
  obtain ⟨c, hl, hv⟩ := loop_of_applied ha
  have hx : d.exec env.tid (.sessionSetAppConfig sid tlvs) =
      .ok (d, .sessionSetAppConfig .invalidParam (bad.map fun i => ⟨⟨i⟩, .invalidParam⟩), []) := by
    rw [setApp_eq hs hc, hl]
    have hm : Device.hasMandatory c = true := (hasMandatory_iff c).mpr (by rw [hv]; exact hw)
    have he : (bad.map fun i => (⟨⟨i⟩, .invalidParam⟩ : AppConfigStatus)).isEmpty = false := by
      cases bad with
      | nil => exact absurd rfl hb
      | cons => rfl
    simp only [bind, Except.bind, hm, Bool.not_true, Bool.false_eq_true, if_false, he]
  exact step_cmd hd (.inl hr) hx (setApp_fits hx)

/-- C21: the command stops the emulator exactly when a MAC address comes while MAC_ADDRESS_MODE is 1 (or the
session is not a FiRa ranging session, see C16). -/
theorem C21_abort (p : Pica) (env : Env) (h : Nat) (d : Device) (sid : UInt32) (s : Session) (tlvs : List AppConfigTlv)
    (bytes : Bytes) (hb : IsCmd bytes (.sessionSetAppConfig sid tlvs)) (hd : p.devices.get? h = some d)
    (hr : d.isReset = true) (hs : d.sessions.get? sid = some s) (hc : Configurable s tlvs) :
    (∃ x, p.step env (.uciPacket h bytes) = .error x) ↔ ∀ w bad, ¬Applied (View.of s.appConfig) (params tlvs) w bad := by
  cases hl : Device.setAppConfigLoop s.appConfig tlvs with
  | error x =>
    refine ⟨fun _ => loop_error hl, fun _ => ⟨x, step_cmd_panic hd (.inl hr) ?_ hb⟩⟩
    rw [setApp_eq hs hc, hl]; rfl
  | ok y =>
    obtain ⟨c, inv⟩ := y
    obtain ⟨bad, h1, -⟩ := loop_ok hl
    constructor
    · rintro ⟨x, hx⟩
      exfalso
      have : ∃ y, d.exec env.tid (.sessionSetAppConfig sid tlvs) = .ok y := by
        rw [setApp_eq hs hc, hl]
        simp only [bind, Except.bind]
        split
        · exact ⟨_, rfl⟩
        · split <;> exact ⟨_, rfl⟩
      obtain ⟨⟨d', r, e⟩, hy⟩ := this
      rw [step_cmd hd (.inl hr) hy (setApp_fits hy) bytes hb] at hx
      cases hx
    · intro hn; exact absurd h1 (hn _ _)

/-- C22: a mandatory parameter would stay unset. -/
theorem C22_incomplete (p : Pica) (env : Env) (h : Nat) (d : Device) (sid : UInt32) (s : Session) (tlvs : List AppConfigTlv)
    (w : View) (bad : List UInt8) (hd : p.devices.get? h = some d) (hr : d.isReset = true)
    (hs : d.sessions.get? sid = some s) (hc : Configurable s tlvs)
    (ha : Applied (View.of s.appConfig) (params tlvs) w bad) (hw : ¬Complete w) :
    Answers p env h (.sessionSetAppConfig sid tlvs) (.sessionSetAppConfig .rejected []) d [] := by
  obtain ⟨c, hl, hv⟩ := loop_of_applied ha
  have hx : d.exec env.tid (.sessionSetAppConfig sid tlvs) = .ok (d, .sessionSetAppConfig .rejected [], []) := by
    rw [setApp_eq hs hc, hl]
    have hm : Device.hasMandatory c = false := by
      rw [← Bool.not_eq_true, hasMandatory_iff, hv]; exact hw
    simp only [bind, Except.bind, hm, Bool.not_false, if_true]
  exact step_cmd hd (.inl hr) hx (setApp_fits hx)

/-- C22: the states in which the values are not looked at. -/
theorem C22_gates (p : Pica) (env : Env) (h : Nat) (d : Device) (sid : UInt32) (tlvs : List AppConfigTlv)
    (hd : p.devices.get? h = some d) (hr : d.isReset = true) :
    (d.sessions.get? sid = none →
      Answers p env h (.sessionSetAppConfig sid tlvs) (.sessionSetAppConfig .errorSessionNotExist []) d []) ∧
    ∀ s, d.sessions.get? sid = some s →
      (s.sessionType = .firaRangingSession ∨ s.sessionType = .firaRangingAndInBandDataSession) →
      (s.state = sessionStateIdle →
        Answers p env h (.sessionSetAppConfig sid tlvs) (.sessionSetAppConfig .rejected []) d []) ∧
      (s.state = sessionStateActive → (∃ t ∈ tlvs, t.cfgId.code = 0x0d) →
        Answers p env h (.sessionSetAppConfig sid tlvs) (.sessionSetAppConfig .errorSessionActive []) d []) := by
  refine ⟨fun hn => ?_, fun s hs hty => ⟨fun hst => ?_, fun hst haoa => ?_⟩⟩
  · have hx : d.exec env.tid (.sessionSetAppConfig sid tlvs) = .ok (d, .sessionSetAppConfig .errorSessionNotExist [], []) := by
      show d.sessionSetAppConfig sid tlvs = _
      unfold Device.sessionSetAppConfig Device.session
      rw [hn]
    exact step_cmd hd (.inl hr) hx (setApp_fits hx)
  · have hx : d.exec env.tid (.sessionSetAppConfig sid tlvs) = .ok (d, .sessionSetAppConfig .rejected [], []) := by
      show d.sessionSetAppConfig sid tlvs = _
      unfold Device.sessionSetAppConfig Device.session
      simp only [hs]
      rw [if_neg (fira_not hty), if_neg (by rintro ⟨h1, -⟩; rw [hst] at h1; cases h1),
        if_pos (by rw [hst]; decide)]
    exact step_cmd hd (.inl hr) hx (setApp_fits hx)
  · have hx : d.exec env.tid (.sessionSetAppConfig sid tlvs) = .ok (d, .sessionSetAppConfig .errorSessionActive [], []) := by
      show d.sessionSetAppConfig sid tlvs = _
      unfold Device.sessionSetAppConfig Device.session
      simp only [hs]
      rw [if_neg (fira_not hty), if_pos ⟨hst, aoa_iff.mpr haoa⟩]
    exact step_cmd hd (.inl hr) hx (setApp_fits hx)

/-! ### C25 -/

/-- C25: SESSION_DEINIT of an existing session. -/
theorem C25_deinit (p : Pica) (hp : p.Reachable) (env : Env) (h : Nat) (d : Device) (sid : UInt32) (s : Session)
    (hd : p.devices.get? h = some d) (hr : d.isReset = true) (hs : d.sessions.get? sid = some s) :
    ∃ d' e, Answers p env h (.sessionDeinit sid) (.sessionDeinit .ok) d' e ∧
      (∀ x, d'.sessions.get? x = if x = sid then none else d.sessions.get? x) ∧
      aborted e = s.rangingTask.toList ∧ started e = [] ∧
      (∀ x, statusNtfs x e = if x = sid ∧ s.state ≠ sessionStateDeinit then [sessionStateDeinit] else []) ∧
      (d'.isReset, d'.handle, d'.macAddress, d'.config, d'.countryCode) =
        (d.isReset, d.handle, d.macAddress, d.config, d.countryCode) ∧
      (d'.nActive, d'.state) = (if s.state = sessionStateActive then
        (d.nActive - 1, if d.nActive = 1 then .deviceStateReady else d.state) else (d.nActive, d.state)) ∧
      deviceNtfs e = if d'.state = d.state then [] else [d'.state] := by
  have hi := ((Pica.reachable_inv hp).dev h d hd).2.2.2
  have hid := (hi.sess sid s hs).id
  have hx : ∃ n st e, d.exec env.tid (.sessionDeinit sid) =
      .ok ({ d with nActive := n, state := st, sessions := d.sessions.erase sid }, .sessionDeinit .ok, e ++ s.drop) ∧
      aborted e = [] ∧ started e = [] ∧ (∀ x, statusNtfs x e = []) ∧
      (n, st) = (if s.state = sessionStateActive then
        (d.nActive - 1, if d.nActive = 1 then .deviceStateReady else d.state) else (d.nActive, d.state)) ∧
      deviceNtfs e = if st = d.state then [] else [st] := by
    have hss : d.session sid = some s := hs
    simp only [Device.exec, Device.sessionDeinit, hss]
    by_cases ha : s.state = sessionStateActive
    · have hpos := nActive_pos hi hs ha
      simp only [if_pos ha, Device.releaseActive, if_neg (Nat.pos_iff_ne_zero.mp hpos), bind, Except.bind]
      by_cases h0 : d.nActive - 1 = 0
      · simp only [if_pos h0, Device.setState_eq]
        refine ⟨d.nActive - 1, .deviceStateReady, _, rfl, ?_, ?_, ?_, by rw [if_pos (by omega)], ?_⟩ <;>
          (unfold Device.setState; split <;> first | rfl | (intro; rfl))
      · simp only [if_neg h0]
        exact ⟨d.nActive - 1, d.state, [], rfl, rfl, rfl, fun _ => rfl, by rw [if_neg (by omega)], by rw [if_pos rfl]; rfl⟩
    · simp only [if_neg ha, bind, Except.bind]
      exact ⟨d.nActive, d.state, [], rfl, rfl, rfl, fun _ => rfl, rfl, by rw [if_pos rfl]; rfl⟩
  obtain ⟨n, st, e, hx, h1, h2, h3, h4, h5⟩ := hx
  obtain ⟨o1, o2, o3, o4⟩ := drop_obs s
  refine ⟨_, _, step_cmd hd (.inl hr) hx fun _ => trivial, fun x => ?_, ?_, ?_, fun x => ?_, rfl, h4, ?_⟩
  · show (d.sessions.erase sid).get? x = _
    rw [AMap.get?_erase]
    by_cases hxs : x = sid
    · rw [if_pos hxs.symm, if_pos hxs]
    · rw [if_neg (Ne.symm hxs), if_neg hxs]
  · rw [aborted_append, h1, o4]; rfl
  · rw [started_append, h2, o3]; rfl
  · rw [statusNtfs_append, h3, o1, hid, List.nil_append]
    simp only [eq_comm (a := sid)]
  · rw [deviceNtfs_append, o2, List.append_nil]
    exact h5

/-- C25: SESSION_DEINIT of a session that does not exist. -/
theorem C25_absent (p : Pica) (env : Env) (h : Nat) (d : Device) (sid : UInt32) (hd : p.devices.get? h = some d)
    (hr : d.isReset = true) (hs : d.sessions.get? sid = none) :
    Answers p env h (.sessionDeinit sid) (.sessionDeinit .errorSessionNotExist) d [] := by
  refine step_cmd hd (.inl hr) ?_ fun _ => trivial
  show d.sessionDeinit sid = _
  unfold Device.sessionDeinit Device.session
  rw [hs]

/-! ### C26 -/

/-- C26: CORE_DEVICE_RESET gives the device its initial values back, cancels exactly the ranging tasks of its
sessions and notifies the end of each. -/
theorem C26_reset (p : Pica) (hp : p.Reachable) (env : Env) (h : Nat) (d : Device) (rc : ResetConfig)
    (hd : p.devices.get? h = some d) :
    ∃ e, Answers p env h (.coreDeviceReset rc) (.coreDeviceReset .ok)
        { isReset := true, handle := d.handle, macAddress := d.macAddress, config := ⟨.deviceStateError, true⟩,
          state := .deviceStateReady, sessions := [], countryCode := ⟨[0, 0], rfl⟩, nActive := 0 } e ∧
      (∀ t, t ∈ aborted e ↔ ∃ sid s, d.sessions.get? sid = some s ∧ s.rangingTask = some t) ∧ started e = [] ∧
      (∀ sid, statusNtfs sid e = if stateOf d sid = sessionStateDeinit then [] else [sessionStateDeinit]) ∧
      deviceNtfs e = [.deviceStateReady] := by
  have hi := ((Pica.reachable_inv hp).dev h d hd).2.2.2
  have hx : d.exec env.tid (.coreDeviceReset rc) = .ok ({ (Device.new d.handle d.macAddress).init.1 with isReset := true },
      .coreDeviceReset .ok, d.dropSessions ++ [.notify 5 (.coreDeviceStatus .deviceStateReady)]) := rfl
  refine ⟨_, step_cmd hd (.inr ⟨rc, rfl⟩) hx fun _ => trivial, fun t => ?_, ?_, fun sid => ?_, ?_⟩
  · rw [aborted_append, aborted_dropSessions]
    simp only [List.mem_append, List.mem_flatMap, Option.mem_toList]
    constructor
    · rintro (⟨s, hs, ht⟩ | hn)
      · obtain ⟨k, hk⟩ := AMap.mem_values.mp hs
        exact ⟨k, s, AMap.get?_of_mem hi.nodup hk, ht⟩
      · cases hn
    · rintro ⟨sid, s, hs, ht⟩
      exact .inl ⟨s, AMap.mem_values.mpr ⟨sid, AMap.mem_of_get? hs⟩, ht⟩
  · rw [started_append, started_dropSessions]; rfl
  · rw [statusNtfs_append, statusNtfs_dropSessions hi]
    exact List.append_nil _
  · rw [deviceNtfs_append, deviceNtfs_dropSessions]; rfl

/-- C26: two devices that have been reset differ in nothing but their handle and MAC address, whatever happened
to them before; one of them may just have connected. -/
theorem C26_like_fresh (p q p' q' : Pica) (hp : p.Reachable) (hq : q.Reachable) (env env' : Env) (h h' : Nat)
    (d d₀ : Device) (rc rc' : ResetConfig) (bytes bytes' : Bytes) (out out' : List Out)
    (hd : p.devices.get? h = some d) (hb : IsCmd bytes (.coreDeviceReset rc))
    (hs : p.step env (.uciPacket h bytes) = .ok (p', out))
    (hd₀ : q.devices.get? h' = some d₀) (hb' : IsCmd bytes' (.coreDeviceReset rc'))
    (hs' : q.step env' (.uciPacket h' bytes') = .ok (q', out')) :
    ∃ d₁ d₂, p'.devices.get? h = some d₁ ∧ q'.devices.get? h' = some d₂ ∧
      d₁ = { d₂ with handle := d.handle, macAddress := d.macAddress } := by
  obtain ⟨e, ha, -⟩ := C26_reset p hp env h d rc hd
  obtain ⟨e', ha', -⟩ := C26_reset q hq env' h' d₀ rc' hd₀
  rw [ha bytes hb] at hs
  rw [ha' bytes' hb'] at hs'
  cases hs
  cases hs'
  exact ⟨_, _, AMap.get?_insert_self _ _ _, AMap.get?_insert_self _ _ _, rfl⟩

/-! ### C28 -/

/-- C28 does not hold: SESSION_INIT with the identifier of an ACTIVE session answers ERROR_SESSION_DUPLICATE but
replaces that session by an unconfigured one in DEINIT. -/
theorem C28_false : ∃ (p p' : Pica) (d d' : Device) (s s' : Session) (out : List Out), p.Reachable ∧
    IsCmd (Ex.sessionInit 7 0) (.sessionInit 7 .firaRangingSession) ∧
    p.devices.get? 0 = some d ∧ d.sessions.get? 7 = some s ∧ s.state = sessionStateActive ∧
    p.step Ex.env (.uciPacket 0 (Ex.sessionInit 7 0)) = .ok (p', out) ∧
    sentTo 0 out = [.rsp (.sessionInit .errorSessionDuplicate)] ∧
    p'.devices.get? 0 = some d' ∧ d'.sessions.get? 7 = some s' ∧ s'.state = sessionStateDeinit ∧
    ¬Complete (View.of s'.appConfig) := by
  have k1 : (((Ex.after Ex.oneActive).devices.get? 0).bind (fun d => (d.sessions.get? 7).map (·.state))) =
      some sessionStateActive := by decide +kernel
  have k2 : (((Ex.after Ex.oneActive).step Ex.env (.uciPacket 0 (Ex.sessionInit 7 0))).toOption.map (fun x =>
      ((x.1.devices.get? 0).bind (fun d => (d.sessions.get? 7).map (fun s => (s.state, Device.hasMandatory s.appConfig))),
        (sentTo 0 x.2)))) =
      some (some (sessionStateDeinit, false), [.rsp (.sessionInit .errorSessionDuplicate)]) := by decide +kernel
  obtain ⟨d, hd, k1⟩ := Option.bind_eq_some_iff.mp k1
  obtain ⟨s, hs, hst⟩ := Option.map_eq_some_iff.mp k1
  obtain ⟨⟨p', out⟩, ho, k2⟩ := Ex.exists_ok k2
  simp only [Prod.mk.injEq] at k2
  obtain ⟨k2, k3⟩ := k2
  obtain ⟨d', hd', k2⟩ := Option.bind_eq_some_iff.mp k2
  obtain ⟨s', hs', k4⟩ := Option.map_eq_some_iff.mp k2
  simp only [Prod.mk.injEq] at k4
  refine ⟨_, p', d, d', s, s', out, Ex.after_reachable _ Ex.oneActive_ok, ?_, hd, hs, hst, ho, k3, hd', hs', k4.1, ?_⟩
  · exact ⟨trivial, _, _, _, _, rfl, by decide +kernel⟩
  · rw [← hasMandatory_iff, k4.2]; decide

/-- A session nobody has configured. -/
def blank (sid : UInt32) (ty : SessionType) (h : Nat) (st : SessionState) : Session where
  state := st
  id := sid
  deviceHandle := h
  data := []
  sessionType := ty
  sequenceNumber := 0
  appConfig := AppConfig.default
  rangingTask := none

/-- C28, what the command does in each case: a full table refuses everything and changes nothing; otherwise a new
identifier gets a session in INIT; the identifier of an existing session is answered with ERROR_SESSION_DUPLICATE,
which disturbs no other session but replaces that one by an empty session in DEINIT and ends its ranging task. -/
theorem C28_partial (p : Pica) (hp : p.Reachable) (env : Env) (h : Nat) (d : Device) (sid : UInt32) (ty : SessionType)
    (hd : p.devices.get? h = some d) (hr : d.isReset = true) :
    (d.sessions.length = 255 → Answers p env h (.sessionInit sid ty) (.sessionInit .errorMaxSessionsExceeded) d []) ∧
    (d.sessions.length < 255 → d.sessions.get? sid = none →
      Answers p env h (.sessionInit sid ty) (.sessionInit .ok)
        { d with sessions := d.sessions.insert sid (blank sid ty h sessionStateInit) }
        [.notify 1 (.sessionStatus sid sessionStateInit 0)]) ∧
    (d.sessions.length < 255 → ∀ s, d.sessions.get? sid = some s → ∃ e,
      Answers p env h (.sessionInit sid ty) (.sessionInit .errorSessionDuplicate)
        { d with sessions := d.sessions.insert sid (blank sid ty h sessionStateDeinit) } e ∧
      aborted e = s.rangingTask.toList ∧ started e = [] ∧
      ∀ x, statusNtfs x e = if x = sid ∧ s.state ≠ sessionStateDeinit then [sessionStateDeinit] else []) := by
  obtain ⟨hh, -, -, hi⟩ := (Pica.reachable_inv hp).dev h d hd
  refine ⟨fun hl => ?_, fun hl hn => ?_, fun hl s hs => ?_⟩
  · refine step_cmd hd (.inl hr) ?_ fun _ => trivial
    show Except.ok (d.sessionInit sid ty) = _
    unfold Device.sessionInit
    rw [if_pos (by rw [hl]; decide)]
  · refine step_cmd hd (.inl hr) ?_ fun _ => trivial
    show Except.ok (d.sessionInit sid ty) = _
    have hn' : d.session sid = none := hn
    unfold Device.sessionInit
    rw [if_neg (by unfold maxSession; omega), hn']
    subst hh
    rfl
  · have hid := (hi.sess sid s hs).id
    obtain ⟨o1, o2, o3, o4⟩ := drop_obs s
    refine ⟨s.drop, step_cmd hd (.inl hr) ?_ fun _ => trivial, o4, o3, fun x => ?_⟩
    · show Except.ok (d.sessionInit sid ty) = _
      have hs' : d.session sid = some s := hs
      unfold Device.sessionInit
      rw [if_neg (by unfold maxSession; omega), hs']
      subst hh
      rfl
    · rw [o1, hid]
      simp only [eq_comm (a := sid)]

/-! ### C29 -/

/-- C29 does not hold: START stops the emulator when the session went IDLE because its controlee list was emptied. -/
theorem C29_false : ∃ (p : Pica) (d : Device) (s : Session), p.Reachable ∧ p.devices.get? 0 = some d ∧
    d.sessions.get? 7 = some s ∧ s.state = sessionStateIdle ∧ IsCmd (Ex.start 7) (.sessionStart 7) ∧
    ∃ x, p.step Ex.env (.uciPacket 0 (Ex.start 7)) = .error x := by
  have k1 : (((Ex.after (Ex.oneActive ++ [Ex.pkt 0 (Ex.removeOne 7 0x00 0xb1)])).devices.get? 0).bind
      (fun d => (d.sessions.get? 7).map (·.state))) = some sessionStateIdle := by decide +kernel
  have k2 : Ex.panics ((Ex.after (Ex.oneActive ++ [Ex.pkt 0 (Ex.removeOne 7 0x00 0xb1)])).step Ex.env
      (.uciPacket 0 (Ex.start 7))) = some .rangingTaskPresent := by decide +kernel
  obtain ⟨d, hd, k1⟩ := Option.bind_eq_some_iff.mp k1
  obtain ⟨s, hs, hst⟩ := Option.map_eq_some_iff.mp k1
  exact ⟨_, d, s, Ex.after_reachable _ (by decide +kernel), hd, hs, hst,
    ⟨trivial, _, _, _, _, rfl, by decide +kernel⟩, _, Ex.panics_eq k2⟩

/-- C29: START in every case; `dur` is the value of RANGING_DURATION (0x09). -/
theorem C29_start_partial (p : Pica) (hp : p.Reachable) (env : Env) (h : Nat) (d : Device) (sid : UInt32)
    (hd : p.devices.get? h = some d) (hr : d.isReset = true) :
    (d.sessions.get? sid = none →
      Answers p env h (.sessionStart sid) (.sessionStart .errorSessionNotExist) d []) ∧
    ∀ s, d.sessions.get? sid = some s →
      (s.state ≠ sessionStateIdle →
        Answers p env h (.sessionStart sid) (.sessionStart .errorSessionNotConfigured) d []) ∧
      (s.state = sessionStateIdle → s.rangingTask = none → ∃ dur, View.of s.appConfig 0x09 = some (u32le dur) ∧
        Answers p env h (.sessionStart sid) (.sessionStart .ok)
          { d with
            sessions := d.sessions.insert sid { s with state := sessionStateActive, rangingTask := some env.tid }
            nActive := d.nActive + 1
            state := .deviceStateActive }
          ([.startTimer env.tid sid dur, .notify 1 (.sessionStatus sid sessionStateActive 0)] ++
            if d.state = .deviceStateActive then [] else [.notify 5 (.coreDeviceStatus .deviceStateActive)])) ∧
      (s.state = sessionStateIdle → s.rangingTask ≠ none → ∀ bytes, IsCmd bytes (.sessionStart sid) →
        p.step env (.uciPacket h bytes) = .error .rangingTaskPresent) := by
  have hi := ((Pica.reachable_inv hp).dev h d hd).2.2.2
  refine ⟨fun hn => ?_, fun s hs => ⟨fun hst => ?_, fun hst ht => ⟨s.appConfig.rangingDuration, rfl, ?_⟩, fun hst ht bytes hb => ?_⟩⟩
  · refine step_cmd hd (.inl hr) ?_ fun _ => trivial
    show d.sessionStart env.tid sid = _
    unfold Device.sessionStart Device.session
    rw [hn]
  · refine step_cmd hd (.inl hr) ?_ fun _ => trivial
    show d.sessionStart env.tid sid = _
    unfold Device.sessionStart Device.session
    simp only [hs]
    rw [if_pos hst]
  · have hid := (hi.sess sid s hs).id
    refine step_cmd hd (.inl hr) ?_ fun _ => trivial
    show d.sessionStart env.tid sid = _
    unfold Device.sessionStart Device.session
    simp only [hs]
    rw [if_neg (not_not_intro hst), if_neg (by rw [ht]; decide)]
    simp only [Session.setState, hst, Device.setState_eq, hid]
    simp only [reduceCtorEq, if_false, Device.putSession, Device.setState, eq_comm (a := DeviceState.deviceStateActive)]
    by_cases hda : d.state = .deviceStateActive <;> simp [hda] <;> rfl
  · refine step_cmd_panic hd (.inl hr) ?_ hb
    show d.sessionStart env.tid sid = _
    unfold Device.sessionStart Device.session
    simp only [hs]
    rw [if_neg (not_not_intro hst), if_pos (Option.isSome_iff_ne_none.mpr ht)]

/-- C29: in the histories without the packets of `Disorderly` an IDLE session has no ranging task, so START
answers OK exactly in IDLE and never stops the emulator. -/
theorem C29_start_orderly_partial (p : Pica) (ho : Orderly p) (env : Env) (h : Nat) (d : Device) (sid : UInt32) (bytes : Bytes)
    (hd : p.devices.get? h = some d) (hr : d.isReset = true) (hb : IsCmd bytes (.sessionStart sid)) :
    ∃ p' out st, p.step env (.uciPacket h bytes) = .ok (p', out) ∧ sentTo h out = [.rsp (.sessionStart st)] ∧
      (st = .ok ↔ stateOf d sid = sessionStateIdle) ∧
      (stateOf d sid = sessionStateIdle → stateAt (p'.devices.get? h) sid = sessionStateActive) := by
  obtain ⟨hp, -⟩ := orderly_run ho
  obtain ⟨hn, hsome⟩ := C29_start_partial p hp env h d sid hd hr
  have hsent : ∀ (r : Packet) (e : List Effect), sentTo h (.send h r :: e.map (.effect h)) = [r] := by
    intro r e
    have : ∀ e : List Effect, sentTo h (e.map (.effect h)) = [] := by
      intro e; induction e with
      | nil => rfl
      | cons a e ih => exact ih
    unfold sentTo at this ⊢
    rw [List.filterMap_cons]
    simp only [if_true]
    rw [this]
  cases hs : d.sessions.get? sid with
  | none =>
    have hst : stateOf d sid = sessionStateDeinit := by unfold stateOf; rw [hs]
    exact ⟨_, _, _, hn hs bytes hb, hsent _ _, by rw [hst]; simp [show Status.errorSessionNotExist ≠ .ok by decide], by rw [hst]; simp⟩
  | some s =>
    have hst : stateOf d sid = s.state := by unfold stateOf; rw [hs]
    rw [hst]
    obtain ⟨h1, h2, -⟩ := hsome s hs
    by_cases hid : s.state = sessionStateIdle
    · obtain ⟨dur, -, ha⟩ := h2 hid (orderly_idle ho h d hd sid s hs (by rw [hid]; decide))
      refine ⟨_, _, _, ha bytes hb, hsent _ _, by simp [hid], fun _ => ?_⟩
      show stateAt (AMap.get? (AMap.insert _ _ _) _) _ = _
      rw [AMap.get?_insert_self]
      show stateOf _ sid = _
      unfold stateOf
      dsimp only
      rw [AMap.get?_insert_self]
    · exact ⟨_, _, _, h1 hid bytes hb, hsent _ _, by simp [hid, show Status.errorSessionNotConfigured ≠ .ok by decide], fun h => absurd h hid⟩

/-- C29: STOP in every case. -/
theorem C29_stop (p : Pica) (hp : p.Reachable) (env : Env) (h : Nat) (d : Device) (sid : UInt32)
    (hd : p.devices.get? h = some d) (hr : d.isReset = true) :
    (d.sessions.get? sid = none →
      Answers p env h (.sessionStop sid) (.sessionStop .errorSessionNotExist) d []) ∧
    ∀ s, d.sessions.get? sid = some s →
      (s.state ≠ sessionStateActive →
        Answers p env h (.sessionStop sid) (.sessionStop .errorSessionActive) d []) ∧
      (s.state = sessionStateActive → ∃ t, s.rangingTask = some t ∧
        Answers p env h (.sessionStop sid) (.sessionStop .ok)
          { d with
            sessions := d.sessions.insert sid { s with state := sessionStateIdle, rangingTask := none }
            nActive := d.nActive - 1
            state := if d.nActive = 1 then .deviceStateReady else .deviceStateActive }
          ([.abortTimer t, .notify 1 (.sessionStatus sid sessionStateIdle 0)] ++
            if d.nActive = 1 then [.notify 5 (.coreDeviceStatus .deviceStateReady)] else [])) := by
  have hi := ((Pica.reachable_inv hp).dev h d hd).2.2.2
  refine ⟨fun hn => ?_, fun s hs => ⟨fun hst => ?_, fun hst => ?_⟩⟩
  · refine step_cmd hd (.inl hr) ?_ fun _ => trivial
    show d.sessionStop sid = _
    unfold Device.sessionStop Device.session
    rw [hn]
  · refine step_cmd hd (.inl hr) ?_ fun _ => trivial
    show d.sessionStop sid = _
    unfold Device.sessionStop Device.session
    simp only [hs]
    rw [if_pos hst]
  · have hinv := hi.sess sid s hs
    obtain ⟨t, ht⟩ := Option.ne_none_iff_exists'.mp (hinv.task hst)
    have hpos := nActive_pos hi hs hst
    refine ⟨t, ht, step_cmd hd (.inl hr) ?_ fun _ => trivial⟩
    have hdst : d.state = .deviceStateActive := by rw [hi.state, if_neg (by omega)]
    show d.sessionStop sid = _
    unfold Device.sessionStop Device.session
    simp only [hs]
    rw [if_neg (not_not_intro hst)]
    simp only [Session.stopRangingTask, ht, Session.setState, hst, hinv.id, reduceCtorEq, if_false, Device.putSession,
      Device.releaseActive, if_neg (Nat.pos_iff_ne_zero.mp hpos), bind, Except.bind, Device.setState, hdst]
    by_cases h1 : d.nActive = 1
    · have h0 : d.nActive - 1 = 0 := by omega
      simp only [h1, if_true]
      rfl
    · have h0 : d.nActive - 1 ≠ 0 := by omega
      simp only [h1, h0, if_false]
      rw [← hdst]; rfl

/-! ### The hypotheses can be met -/

/-- The parameters of `Ex.controller`. -/
def controllerTlvs : List AppConfigTlv :=
  [⟨⟨0x00⟩, [1]⟩, ⟨⟨0x01⟩, [2]⟩, ⟨⟨0x03⟩, [1]⟩, ⟨⟨0x05⟩, [1]⟩, ⟨⟨0x06⟩, [0x00, 0xa0]⟩, ⟨⟨0x07⟩, [0x00, 0xb1]⟩, ⟨⟨0x11⟩, [1]⟩,
    ⟨⟨0x22⟩, [1]⟩]

/-- Whether the loop over the parameters succeeds, has the mandatory parameters, and the refused identifiers. -/
def outcome (l : List AppConfigTlv) : Option (Bool × List UInt8) :=
  (Device.setAppConfigLoop AppConfig.default l).toOption.map fun x => (Device.hasMandatory x.1, x.2.map (·.cfgId.code))

theorem outcome_applied {l : List AppConfigTlv} {b : Bool} {bad : List UInt8} (h : outcome l = some (b, bad)) :
    ∃ w, Applied (View.of AppConfig.default) (params l) w bad ∧ (Complete w ↔ b = true) := by
  obtain ⟨⟨c, inv⟩, hl, he⟩ := Ex.exists_ok h
  obtain ⟨bad', ha, hi⟩ := loop_ok hl
  simp only [Prod.mk.injEq] at he
  obtain ⟨h1, h2⟩ := he
  have : bad' = bad := by rw [← h2, hi, List.map_map]; exact (List.map_id bad').symm
  subst this
  exact ⟨_, ha, by rw [← h1, hasMandatory_iff]⟩

/-- C21: the parameters of the controller apply; with a bad value among them that one is refused; without
DEVICE_ROLE the mandatory ones are not all there; a MAC address after MAC_ADDRESS_MODE 1 is not supported. -/
example : Configurable (blank 7 .firaRangingSession 0 sessionStateInit) controllerTlvs ∧
    IsCmd (Ex.setApp 7 8 Ex.controller) (.sessionSetAppConfig 7 controllerTlvs) ∧
    (∃ w, Applied (View.of AppConfig.default) (params controllerTlvs) w [] ∧ Complete w) ∧
    (∃ w, Applied (View.of AppConfig.default) (params (⟨⟨0x04⟩, [7]⟩ :: ⟨⟨0xe3⟩, []⟩ :: controllerTlvs)) w [0x04, 0xe3] ∧ Complete w) ∧
    (∃ w, Applied (View.of AppConfig.default) (params (controllerTlvs.take 6)) w [] ∧ ¬Complete w) ∧
    ∀ w bad, ¬Applied (View.of AppConfig.default) (params [⟨⟨0x26⟩, [1]⟩, ⟨⟨0x06⟩, [0, 1]⟩]) w bad := by
  refine ⟨⟨.inl rfl, .inl rfl⟩, ⟨by unfold cmdFits; decide +kernel, _, _, _, _, rfl, by decide +kernel⟩, ?_, ?_, ?_, ?_⟩
  · obtain ⟨w, h, hc⟩ := outcome_applied (l := controllerTlvs) (b := true) (bad := []) (by decide +kernel)
    exact ⟨w, h, hc.mpr rfl⟩
  · obtain ⟨w, h, hc⟩ := outcome_applied (l := ⟨⟨0x04⟩, [7]⟩ :: ⟨⟨0xe3⟩, []⟩ :: controllerTlvs) (b := true)
      (bad := [0x04, 0xe3]) (by decide +kernel)
    exact ⟨w, h, hc.mpr rfl⟩
  · obtain ⟨w, h, hc⟩ := outcome_applied (l := controllerTlvs.take 6) (b := false) (bad := []) (by decide +kernel)
    exact ⟨w, h, mt hc.mp (by decide)⟩
  · cases hl : Device.setAppConfigLoop AppConfig.default [⟨⟨0x26⟩, [1]⟩, ⟨⟨0x06⟩, [0, 1]⟩] with
    | error x => exact loop_error hl
    | ok y =>
      have : (Device.setAppConfigLoop AppConfig.default [⟨⟨0x26⟩, [1]⟩, ⟨⟨0x06⟩, [0, 1]⟩]).isOk = false := by decide +kernel
      rw [hl] at this; cases this

/-- C25, C26, C28, C29: a reset device of a reachable environment with an ACTIVE session 7, an IDLE session 9
without ranging task and no session 5. -/
example : (Ex.after Ex.twoActive).Reachable ∧ ((Ex.after Ex.twoActive).devices.get? 0).map (·.isReset) = some true ∧
    (∀ x ∈ [((7 : UInt32), some (sessionStateActive, some 41)), (9, some (sessionStateIdle, none)), (5, none)],
      ((Ex.after Ex.twoActive).devices.get? 0).bind (fun d => (d.sessions.get? x.1).map (fun s => (s.state, s.rangingTask))) =
        x.2) :=
  ⟨Ex.after_reachable _ Ex.twoActive_ok, by decide +kernel, by decide +kernel⟩

end Pica.Props
