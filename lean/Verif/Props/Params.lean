import Verif.Props.Multicast
/-! C31, C32 and C56: the length of the controlee list, in-band stops, the origin of the parameters. -/

set_option linter.dupNamespace false

namespace Pica.Props
open Spec SessionState

/-! ### C32 -/

/-- C32: no addition and no refused command requests an in-band stop. -/
theorem C32_others (p p' : Pica) (env : Env) (h : Nat) (bytes : Bytes) (sid : UInt32) (a : UpdateMulticastListAction)
    (payload : Bytes) (out : List Out) (hc : IsCmd bytes (.sessionUpdateMulticast sid a payload))
    (ha : a ≠ .removeControlee) (hs : p.step env (.uciPacket h bytes) = .ok (p', out)) (x : Nat) (mac : MacAddress)
    (id : UInt32) (n : UInt8) : .effect x (.stopRanging mac id n) ∉ out := by
  cases hd : p.devices.get? h with
  | none =>
    change p.uciPacket env h bytes = _ at hs
    unfold Pica.uciPacket at hs
    rw [hd] at hs
    cases hs; simp
  | some d =>
    rw [uci_step hd] at hs
    cases hx : d.receivePacket env.tid bytes with
    | error z => rw [hx] at hs; cases hs
    | ok y =>
      obtain ⟨d₁, r, e₁⟩ := y
      rw [hx] at hs
      cases hs
      have key : ∀ m i n, Effect.stopRanging m i n ∉ e₁ := by
        rcases receive_isCmd hc hx with ⟨-, rfl⟩ | ⟨hr, rsp, hexec, -, -⟩
        · simp
        · cases hs : d.sessions.get? sid with
          | none =>
            change Except.ok (d.sessionUpdateMulticast sid a payload) = _ at hexec
            unfold Device.sessionUpdateMulticast Device.session at hexec
            rw [hs] at hexec
            cases hexec; simp
          | some s =>
            by_cases hu : Updatable s
            · cases hp : Device.parseControlees a payload with
              | none =>
                change Except.ok (d.sessionUpdateMulticast sid a payload) = _ at hexec
                unfold Device.sessionUpdateMulticast at hexec
                have hs' : d.session sid = some s := hs
                simp only [hs', if_neg (updatable_iff.mp hu), hp] at hexec
                cases hexec; simp
              | some addrs =>
                have hcl := (parseControlees_iff a payload addrs).mp hp
                rw [multicast_eq hs hu hcl] at hexec
                have he : (Device.updateControlees s sid a addrs).effects = [] := by
                  obtain ⟨ntf, hk⟩ := key_fold s.appConfig.dstMacAddress addrs
                  have hboth : ∀ b, (addrs.foldl (Device.addControlee b)
                      ⟨s.appConfig.dstMacAddress, .ok, [], [], []⟩).effects = [] := by
                    intro b
                    cases b
                    · rw [add_fold]
                    · rw [hk]
                  cases a with
                  | removeControlee => exact absurd rfl ha
                  | addControlee => exact hboth _
                  | addControleeWithShortSubSessionKey => exact hboth _
                  | addControleeWithExtendedSubSessionKey => exact hboth _
                cases hexec
                rw [he]
                intro m i n
                unfold emptied
                split <;> simp
            · change Except.ok (d.sessionUpdateMulticast sid a payload) = _ at hexec
              unfold Device.sessionUpdateMulticast at hexec
              have hs' : d.session sid = some s := hs
              rw [updatable_iff, Classical.not_not] at hu
              simp only [hs', if_pos hu] at hexec
              cases hexec; simp
      simp only [List.mem_append, List.mem_map, not_or]
      refine ⟨?_, ?_⟩
      · cases r <;> simp
      · rintro ⟨z, hz, he⟩
        cases he
        exact key _ _ _ hz

/-! ### C31 -/

/-- The list after a multicast update. -/
theorem multicast_list {d d' : Device} {tid : Nat} {sid : UInt32} {a : UpdateMulticastListAction} {payload : Bytes}
    {r : Rsp} {e : List Effect} (h : d.exec tid (.sessionUpdateMulticast sid a payload) = .ok (d', r, e)) {s' : Session}
    (hs' : d'.sessions.get? sid = some s') : ∃ s, d.sessions.get? sid = some s ∧
      (s'.appConfig = s.appConfig ∨ ∃ dst, s'.appConfig = s.appConfig.withControlees dst ∧
        (s.appConfig.dstMacAddress.length ≤ 8 → dst.length ≤ 8) ∧ Updatable s ∧
        (∀ m ∈ dst, m ∈ s.appConfig.dstMacAddress ∨ ∃ x, m = .short x) ∧
        (a = .addControlee → payload ≠ [0] → dst ≠ [])) := by
  cases hs : d.sessions.get? sid with
  | none =>
    change Except.ok (d.sessionUpdateMulticast sid a payload) = _ at h
    unfold Device.sessionUpdateMulticast Device.session at h
    rw [hs] at h
    cases h; rw [hs] at hs'; cases hs'
  | some s =>
    refine ⟨s, rfl, ?_⟩
    by_cases hu : Updatable s
    · cases hp : Device.parseControlees a payload with
      | none =>
        change Except.ok (d.sessionUpdateMulticast sid a payload) = _ at h
        unfold Device.sessionUpdateMulticast at h
        have hss : d.session sid = some s := hs
        simp only [hss, if_neg (updatable_iff.mp hu), hp] at h
        cases h; rw [hs] at hs'; cases hs'; exact .inl rfl
      | some addrs =>
        have hcl := (parseControlees_iff a payload addrs).mp hp
        rw [multicast_eq hs hu hcl] at h
        cases h
        change (d.sessions.insert sid _).get? sid = _ at hs'
        rw [AMap.get?_insert_self] at hs'
        cases hs'
        have hshape : ∀ b, (∀ m ∈ (addrs.foldl (Device.addControlee b) ⟨s.appConfig.dstMacAddress, .ok, [], [], []⟩).dst,
            m ∈ s.appConfig.dstMacAddress ∨ ∃ x, m = .short x) := by
          intro b m hm
          cases b
          · rw [add_fold] at hm
            obtain ⟨new, h1, -⟩ := C30_added s.appConfig.dstMacAddress addrs
            dsimp only at hm
            rw [h1] at hm
            rcases List.mem_append.mp hm with hm | hm
            · exact .inl hm
            · obtain ⟨x, -, rfl⟩ := List.mem_map.mp hm; exact .inr ⟨x, rfl⟩
          · obtain ⟨ntf, hk⟩ := key_fold s.appConfig.dstMacAddress addrs
            rw [hk] at hm; exact .inl hm
        refine .inr ⟨_, rfl, fun hle => ?_, hu, ?_, ?_⟩
        rotate_left
        · cases a with
          | removeControlee =>
            intro m hm
            refine .inl (List.mem_of_mem_filter (p := fun m => decide (∀ a ∈ addrs, m ≠ .short a)) ?_)
            unfold Device.updateControlees at hm
            simp only [remove_fold] at hm
            split at hm <;> exact hm
          | addControlee => exact hshape _
          | addControleeWithShortSubSessionKey => exact hshape _
          | addControleeWithExtendedSubSessionKey => exact hshape _
        · rintro rfl hpl hnil
          obtain ⟨items, -, hpay, haddr⟩ := hcl
          have hne : addrs ≠ [] := by
            rintro rfl
            have : items = [] := List.map_eq_nil_iff.mp haddr.symm
            subst this
            exact hpl hpay
          obtain ⟨x, hx⟩ := List.exists_mem_of_ne_nil _ hne
          obtain ⟨_, _, _, _, _, _, h6⟩ := C30_added s.appConfig.dstMacAddress addrs
          have hnil' : afterAdd s.appConfig.dstMacAddress addrs = [] := by
            have : (addrs.foldl (Device.addControlee false) ⟨s.appConfig.dstMacAddress, .ok, [], [], []⟩).dst = [] := hnil
            rw [add_fold] at this; exact this
          rw [hnil'] at h6
          rcases h6 x hx with h | h <;> cases h
        obtain ⟨ntf, hk⟩ := key_fold s.appConfig.dstMacAddress addrs
        have hboth : ∀ b, (addrs.foldl (Device.addControlee b)
            ⟨s.appConfig.dstMacAddress, .ok, [], [], []⟩).dst.length ≤ 8 := by
          intro b
          cases b
          · rw [add_fold]
            obtain ⟨_, _, _, _, _, h5, _⟩ := C30_added s.appConfig.dstMacAddress addrs
            exact h5 hle
          · rw [hk]; exact hle
        cases a with
        | removeControlee =>
          have hrem : (afterRemove s.appConfig.dstMacAddress addrs).length ≤ 8 :=
            Nat.le_trans (List.length_filter_le _ _) hle
          unfold Device.updateControlees
          simp only [remove_fold]
          split <;> exact hrem
        | addControlee => exact hboth _
        | addControleeWithShortSubSessionKey => exact hboth _
        | addControleeWithExtendedSubSessionKey => exact hboth _
    · change Except.ok (d.sessionUpdateMulticast sid a payload) = _ at h
      unfold Device.sessionUpdateMulticast at h
      have hss : d.session sid = some s := hs
      rw [updatable_iff, Classical.not_not] at hu
      simp only [hss, if_pos hu] at h
      cases h; rw [hs] at hs'; cases hs'; exact .inl rfl

/-- SESSION_SET_APP_CONFIG with a NUMBER_OF_CONTROLEES (0x05) above eight. -/
def Oversized (c : Command) : Prop :=
  ∃ h bytes sid l t n, c = .uciPacket h bytes ∧ IsCmd bytes (.sessionSetAppConfig sid l) ∧ t ∈ l ∧ t.cfgId.code = 0x05 ∧
    t.v = [n] ∧ 8 < n.toNat

/-- C31, the part that holds: in every history without NUMBER_OF_CONTROLEES set above eight every controlee list has at
most eight entries. -/
theorem C31_history_partial (p : Pica) (tr : List Pica.Event) (hr : Pica.Run .new tr p)
    (hn : ∀ ev ∈ tr, ¬Oversized ev.command) (h : Nat) (d : Device) (hd : p.devices.get? h = some d) (sid : UInt32)
    (s : Session) (hs : d.sessions.get? sid = some s) : s.appConfig.dstMacAddress.length ≤ 8 := by
  suffices s.appConfig.Small from this.1
  generalize hp₀ : Pica.new = p₀ at hr
  induction hr generalizing h d s with
  | nil => subst hp₀; cases hd
  | @cmd q r tr env c out hrun hst ih =>
    have hn' : ∀ ev ∈ tr, ¬Oversized ev.command := fun ev he => hn ev (List.mem_append_left _ he)
    rcases step_kept hst h d hd sid s hs with ⟨d₀, s₀, h1, h2, h3⟩ | ⟨bytes, d₀, o, e, rfl, h1, hx, hc⟩
    · rw [← h3]; exact ih hn' h d₀ h1 s₀ h2
    · have hov := hn ⟨env, .uciPacket h bytes, out⟩ (by simp)
      rcases hc with ⟨ty, hc⟩ | ⟨l, hc⟩ | ⟨a, pl, hc⟩
      · rcases receive_isCmd hc hx with ⟨rfl, -⟩ | ⟨-, rsp, hexec, -, -⟩
        · exact ih hn' h d h1 s hs
        · rcases init_origin hexec hs with h4 | ⟨s₀, h4, h5⟩
          · rw [h4]; exact ⟨by decide, by decide⟩
          · rw [← h5]; exact ih hn' h d₀ h1 s₀ h4
      · rcases receive_isCmd hc hx with ⟨rfl, -⟩ | ⟨-, rsp, hexec, -, -⟩
        · exact ih hn' h d h1 s hs
        · obtain ⟨s₀, h4, h5 | h5⟩ := setApp_origin hexec hs
          · rw [← h5]; exact ih hn' h d₀ h1 s₀ h4
          · refine loop_small h5.2.1 (ih hn' h d₀ h1 s₀ h4) fun t ht hi n hv => ?_
            by_contra hlt
            exact hov ⟨h, bytes, sid, l, t, n, rfl, hc, ht, hi, hv, by omega⟩
      · rcases receive_isCmd hc hx with ⟨rfl, -⟩ | ⟨-, rsp, hexec, -, -⟩
        · exact ih hn' h d h1 s hs
        · obtain ⟨s₀, h4, h5 | ⟨dst, h5, h6, -⟩⟩ := multicast_list hexec hs
          · rw [h5]; exact ih hn' h d₀ h1 s₀ h4
          · have := h6 (ih hn' h d₀ h1 s₀ h4).1
            rw [h5]
            refine ⟨this, ?_⟩
            show (UInt8.ofNat dst.length).toNat ≤ 8
            rw [UInt8.toNat_ofNat_of_lt' (by show dst.length < 256; omega)]
            exact this
  | @reorder q r tr hrun hro ih =>
    have hi := Pica.run_inv hrun (hp₀ ▸ Pica.pinv_new)
    rcases (Pica.reorder_dev hi hro).2.2.2 h with e | ⟨d₀, l, h1, hp, h2⟩
    · exact ih hn h d (e ▸ hd) s hs
    · rw [h2] at hd
      cases hd
      change AMap.get? l sid = _ at hs
      rw [AMap.get?_perm (hi.dev h d₀ h1).2.2.2.nodup hp] at hs
      exact ih hn h d₀ h1 s hs

/-- C31, the part that holds for a single command: a list of at most eight entries stays so, whatever came before. -/
theorem C31_step_partial (p p' : Pica) (env : Env) (h : Nat) (d d' : Device) (bytes : Bytes) (sid : UInt32)
    (a : UpdateMulticastListAction) (payload : Bytes) (out : List Out) (s' : Session)
    (hc : IsCmd bytes (.sessionUpdateMulticast sid a payload)) (hs : p.step env (.uciPacket h bytes) = .ok (p', out))
    (hd : p.devices.get? h = some d) (hd' : p'.devices.get? h = some d') (hs' : d'.sessions.get? sid = some s') :
    ∃ s, d.sessions.get? sid = some s ∧
      (s.appConfig.dstMacAddress.length ≤ 8 → s'.appConfig.dstMacAddress.length ≤ 8) := by
  rw [uci_step hd] at hs
  cases hx : d.receivePacket env.tid bytes with
  | error z => rw [hx] at hs; cases hs
  | ok y =>
    obtain ⟨d₁, r, e₁⟩ := y
    rw [hx] at hs
    cases hs
    change AMap.get? (AMap.insert p.devices h d₁) h = _ at hd'
    rw [AMap.get?_insert_self] at hd'
    cases hd'
    rcases receive_isCmd hc hx with ⟨rfl, -⟩ | ⟨-, rsp, hexec, -, -⟩
    · exact ⟨s', hs', id⟩
    · obtain ⟨s, h1, h2 | ⟨dst, h2, h3, -⟩⟩ := multicast_list hexec hs'
      · exact ⟨s, h1, fun h => by rw [h2]; exact h⟩
      · exact ⟨s, h1, fun h => by rw [h2]; exact h3 h⟩

/-- C31 does not hold: a list configured with nine entries takes a tenth. -/
theorem C31_false : ∃ (p p' : Pica) (out : List Out), p.Reachable ∧
    p.step Ex.env (.uciPacket 0 (Ex.addOne 7 0x00 0x20)) = .ok (p', out) ∧
    IsCmd (Ex.addOne 7 0x00 0x20) (.sessionUpdateMulticast 7 .addControlee [1, 0x00, 0x20, 0, 0, 0, 0]) ∧
    (p.devices.get? 0).bind (fun d => (d.sessions.get? 7).map fun s => s.appConfig.dstMacAddress.length) = some 9 ∧
    (p'.devices.get? 0).bind (fun d => (d.sessions.get? 7).map fun s => s.appConfig.dstMacAddress.length) = some 10 := by
  obtain ⟨⟨p', out⟩, hp, he⟩ := Ex.exists_ok
    (x := (Ex.after nineControlees).step Ex.env (.uciPacket 0 (Ex.addOne 7 0x00 0x20)))
    (f := fun x => (x.1.devices.get? 0).bind (fun d => (d.sessions.get? 7).map fun s => s.appConfig.dstMacAddress.length))
    (b := some 10) (by decide +kernel)
  exact ⟨_, p', out, Ex.after_reachable nineControlees (by decide +kernel), hp,
    ⟨trivial, 0x21, 7, 0, 12, rfl, by decide, by decide, by decide⟩, by decide +kernel, he⟩

/-- A session without DEVICE_MAC_ADDRESS has no controlees. -/
theorem mac_first {p : Pica} {tr : List Pica.Event} (hr : Pica.Run .new tr p) (h : Nat) (d : Device)
    (hd : p.devices.get? h = some d) (sid : UInt32) (s : Session) (hs : d.sessions.get? sid = some s) :
    s.appConfig.deviceMacAddress = none → s.appConfig.dstMacAddress = [] := by
  have hmand : ∀ c : AppConfig, Device.hasMandatory c = true → c.deviceMacAddress ≠ none := by
    intro c hc hn
    unfold Device.hasMandatory at hc
    simp [hn] at hc
  generalize hp₀ : Pica.new = p₀ at hr
  induction hr generalizing h d s with
  | nil => subst hp₀; cases hd
  | @cmd q r tr env c out hrun hst ih =>
    have hi := Pica.run_inv hrun (hp₀ ▸ Pica.pinv_new)
    rcases step_kept hst h d hd sid s hs with ⟨d₀, s₀, h1, h2, h3⟩ | ⟨bytes, d₀, o, e, rfl, h1, hx, hc⟩
    · rw [← h3]; exact ih h d₀ h1 s₀ h2
    · rcases hc with ⟨ty, hc⟩ | ⟨l, hc⟩ | ⟨a, pl, hc⟩ <;>
        rcases receive_isCmd hc hx with ⟨rfl, -⟩ | ⟨-, rsp, hexec, -, -⟩
      · exact ih h d h1 s hs
      · rcases init_origin hexec hs with h4 | ⟨s₀, h4, h5⟩
        · rw [h4]; exact fun _ => rfl
        · rw [← h5]; exact ih h d₀ h1 s₀ h4
      · exact ih h d h1 s hs
      · obtain ⟨s₀, h4, h5 | h5⟩ := setApp_origin hexec hs
        · rw [← h5]; exact ih h d₀ h1 s₀ h4
        · exact fun hn => absurd hn (hmand _ h5.2.2)
      · exact ih h d h1 s hs
      · obtain ⟨s₀, h4, h5 | ⟨dst, h5, -, hu, -⟩⟩ := multicast_list hexec hs
        · rw [h5]; exact ih h d₀ h1 s₀ h4
        · have hcf := ((hi.dev h d₀ h1).2.2.2.sess sid s₀ h4).configured hu.1.symm
          rw [h5]
          exact fun hn => absurd hn (hmand _ hcf.2)
  | @reorder q r tr hrun hro ih =>
    have hi := Pica.run_inv hrun (hp₀ ▸ Pica.pinv_new)
    rcases (Pica.reorder_dev hi hro).2.2.2 h with e | ⟨d₀, l, h1, hp, h2⟩
    · exact ih h d (e ▸ hd) s hs
    · rw [h2] at hd
      cases hd
      change AMap.get? l sid = _ at hs
      rw [AMap.get?_perm (hi.dev h d₀ h1).2.2.2.nodup hp] at hs
      exact ih h d₀ h1 s hs

/-! ### C56 -/

/-- C56: the parameters of a session change only by SESSION_INIT, which gives it the default ones, by
SESSION_SET_APP_CONFIG, which applies all of its own or none, and by SESSION_UPDATE_CONTROLLER_MULTICAST_LIST,
which changes DST_MAC_ADDRESS (0x07) and NUMBER_OF_CONTROLEES (0x05) at most; each from the host of the device and
for that session. -/
theorem C56_origin (p p' : Pica) (env : Env) (c : Command) (out : List Out) (hst : p.step env c = .ok (p', out))
    (h : Nat) (d' : Device) (hd' : p'.devices.get? h = some d') (sid : UInt32) (s' : Session)
    (hs' : d'.sessions.get? sid = some s') :
    (∃ d s, p.devices.get? h = some d ∧ d.sessions.get? sid = some s ∧ s'.appConfig = s.appConfig) ∨
    ∃ bytes, c = .uciPacket h bytes ∧
      ((∃ ty, IsCmd bytes (.sessionInit sid ty)) ∧ s'.appConfig = AppConfig.default ∨
      ∃ d s, p.devices.get? h = some d ∧ d.sessions.get? sid = some s ∧
        ((∃ l, IsCmd bytes (.sessionSetAppConfig sid l) ∧ Applied (View.of s.appConfig) (params l) (View.of s'.appConfig) []) ∨
        (∃ a q, IsCmd bytes (.sessionUpdateMulticast sid a q) ∧
          ∀ id, id ≠ 0x05 → id ≠ 0x07 → View.of s'.appConfig id = View.of s.appConfig id))) := by
  rcases step_kept hst h d' hd' sid s' hs' with ⟨d, s, h1, h2, h3⟩ | ⟨bytes, d, o, e, rfl, h1, hx, hc⟩
  · exact .inl ⟨d, s, h1, h2, h3.symm⟩
  · rcases hc with ⟨ty, hc⟩ | ⟨l, hc⟩ | ⟨a, q, hc⟩ <;>
      rcases receive_isCmd hc hx with ⟨rfl, -⟩ | ⟨-, rsp, hexec, -, -⟩
    · exact .inl ⟨d', s', h1, hs', rfl⟩
    · rcases init_origin hexec hs' with h4 | ⟨s, h4, h5⟩
      · exact .inr ⟨bytes, rfl, .inl ⟨⟨ty, hc⟩, h4⟩⟩
      · exact .inl ⟨d, s, h1, h4, h5.symm⟩
    · exact .inl ⟨d', s', h1, hs', rfl⟩
    · obtain ⟨s, h4, h5 | h5⟩ := setApp_origin hexec hs'
      · exact .inl ⟨d, s, h1, h4, h5.symm⟩
      · exact .inr ⟨bytes, rfl, .inr ⟨d, s, h1, h4, .inl ⟨l, hc, h5.1⟩⟩⟩
    · exact .inl ⟨d', s', h1, hs', rfl⟩
    · obtain ⟨s, h4, h5 | ⟨dst, h5, -⟩⟩ := multicast_list hexec hs'
      · exact .inl ⟨d, s, h1, h4, h5⟩
      · refine .inr ⟨bytes, rfl, .inr ⟨d, s, h1, h4, .inr ⟨a, q, hc, fun id e5 e7 => ?_⟩⟩⟩
        rw [h5]
        unfold View.of AppConfig.get
        cases hp : Param.ofTag? ⟨id⟩ with
        | none => rfl
        | some par =>
          have ht := Param.ofTag?_eq_some.mp hp
          cases par
          case numberOfControlees => exact absurd (congrArg AppConfigTlvType.code ht).symm e5
          case dstMacAddress => exact absurd (congrArg AppConfigTlvType.code ht).symm e7
          all_goals rfl

/-! ### Examples -/

/-- C30, C32: an ACTIVE session 7 with controlee 00:b1 that may be updated, and lists of controlees. -/
example : ∃ d s, (Ex.after Ex.oneActive).devices.get? 0 = some d ∧ d.isReset = true ∧ d.sessions.get? 7 = some s ∧
    Updatable s ∧ s.state = sessionStateActive ∧ View.of s.appConfig 0x2f = some [1] ∧ Adds s .addControlee ∧
    ¬Adds s .addControleeWithShortSubSessionKey ∧ s.appConfig.dstMacAddress = [.short ⟨[0, 0xb1], rfl⟩] := by
  have k : ((Ex.after Ex.oneActive).devices.get? 0).bind (fun d => (d.sessions.get? 7).map fun s =>
      (d.isReset, s.state, View.of s.appConfig 0x00, View.of s.appConfig 0x03)) =
      some (true, sessionStateActive, some [1], some [1]) := by decide +kernel
  have k2 : ((Ex.after Ex.oneActive).devices.get? 0).bind (fun d => (d.sessions.get? 7).map fun s =>
      (View.of s.appConfig 0x02, View.of s.appConfig 0x2f, s.appConfig.dstMacAddress)) =
      some (some [0], some [1], [.short ⟨[0, 0xb1], rfl⟩]) := by decide +kernel
  obtain ⟨d, hd, k'⟩ := Option.bind_eq_some_iff.mp k
  obtain ⟨s, hs, k'⟩ := Option.map_eq_some_iff.mp k'
  rw [hd] at k2
  simp only [Option.bind_some, hs, Option.map_some, Option.some.injEq, Prod.mk.injEq] at k2 k'
  refine ⟨d, s, hd, k'.1, hs, ⟨.inl k'.2.1, k'.2.2⟩, k'.2.1, k2.2.1, .inl rfl, ?_, k2.2.2⟩
  rintro (h | ⟨-, h⟩)
  · cases h
  · rw [k2.1] at h; revert h; decide

/-- C30: three controlees, one of them twice and one already in the list. -/
example : IsControlees 0 (4 :: [0, 0xb1, 0, 0, 0, 0] ++ [0, 0xb2, 1, 0, 0, 0] ++ [0, 0xb3, 0, 0, 0, 0] ++ [0, 0xb2, 0, 0, 0, 0])
      [⟨[0, 0xb1], rfl⟩, ⟨[0, 0xb2], rfl⟩, ⟨[0, 0xb3], rfl⟩, ⟨[0, 0xb2], rfl⟩] ∧
    afterAdd [.short ⟨[0, 0xb1], rfl⟩] [⟨[0, 0xb1], rfl⟩, ⟨[0, 0xb2], rfl⟩, ⟨[0, 0xb3], rfl⟩, ⟨[0, 0xb2], rfl⟩] =
      [.short ⟨[0, 0xb1], rfl⟩, .short ⟨[0, 0xb2], rfl⟩, .short ⟨[0, 0xb3], rfl⟩] ∧
    (addStatuses [.short ⟨[0, 0xb1], rfl⟩] [⟨[0, 0xb1], rfl⟩, ⟨[0, 0xb2], rfl⟩, ⟨[0, 0xb3], rfl⟩, ⟨[0, 0xb2], rfl⟩]).map (·.status) =
      [.errorAddressAlreadyPresent, .okMulticastListUpdate, .okMulticastListUpdate, .errorAddressAlreadyPresent] ∧
    (removeStatuses [.short ⟨[0, 0xb1], rfl⟩] [⟨[0, 0xb1], rfl⟩, ⟨[0, 0xb2], rfl⟩, ⟨[0, 0xb1], rfl⟩]).map (·.status) =
      [.okMulticastListUpdate, .errorAddressNotFound, .errorAddressNotFound] :=
  ⟨⟨[(⟨[0, 0xb1], rfl⟩, 0, ⟨[], rfl⟩), (⟨[0, 0xb2], rfl⟩, 1, ⟨[], rfl⟩), (⟨[0, 0xb3], rfl⟩, 0, ⟨[], rfl⟩),
    (⟨[0, 0xb2], rfl⟩, 0, ⟨[], rfl⟩)], by decide, by decide, rfl⟩, by decide +kernel, by decide +kernel, by decide +kernel⟩

/-- C31, C56: a history with a SESSION_SET_APP_CONFIG, and none that sets NUMBER_OF_CONTROLEES above eight. -/
example : Pica.Run .new (Ex.trace Ex.oneActive) (Ex.after Ex.oneActive) ∧
    (∃ ev ∈ Ex.trace Ex.oneActive, ev.command = .uciPacket 0 (Ex.setApp 7 8 Ex.controller)) ∧
    IsCmd (Ex.setApp 7 8 Ex.controller) (.sessionSetAppConfig 7 controllerTlvs) ∧
    ∀ ev ∈ Ex.trace Ex.oneActive, ¬Oversized ev.command := by
  refine ⟨Ex.after_run _ (by decide +kernel), ?_, ⟨by unfold cmdFits; decide +kernel, _, _, _, _, rfl, by decide +kernel⟩, ?_⟩
  · have : ((Ex.trace Ex.oneActive).any fun ev => match ev.command with
      | .uciPacket 0 b => b == Ex.setApp 7 8 Ex.controller
      | _ => false) = true := by decide +kernel
    obtain ⟨ev, h1, h2⟩ := List.any_eq_true.mp this
    refine ⟨ev, h1, ?_⟩
    split at h2
    · rename_i b hb; rw [hb]; congr 1; simpa using h2
    · cases h2
  · have : ((Ex.trace Ex.oneActive).all fun ev => match ev.command with
      | .uciPacket _ b => match ControlPacket.decode b with
        | some p => match Cmd.parse p.gid p.payload with
          | .ok (some (.sessionSetAppConfig _ l)) => l.all fun t => t.cfgId.code != 0x05 || t.v == [1]
          | _ => true
        | none => true
      | _ => true) = true := by decide +kernel
    rintro ev hev ⟨h, bytes, sid, l, t, n, hcmd, hc, ht, h5, hv, hn⟩
    have h1 := List.all_eq_true.mp this ev hev
    obtain ⟨p, hp, -, hq⟩ := isCmd_iff.mp hc
    simp only [hcmd, hp, hq] at h1
    have h2 := List.all_eq_true.mp h1 t ht
    rw [h5, hv] at h2
    simp at h2
    subst h2
    revert hn; decide

end Pica.Props
