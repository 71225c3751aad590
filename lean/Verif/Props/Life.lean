import Mathlib.Data.List.Chain
import Verif.Proofs.Scope
import Verif.Proofs.Underflow
import Verif.Proofs.SetApp
import Verif.Proofs.Examples
import Verif.Props.Dispatch
/-! C18-C20, C23, C27 and C50: the sessions of a device over its history. -/

set_option linter.dupNamespace false

namespace Pica.Props
open Spec SessionState

/-! ### C18 -/

/-- C18: never more than 255 sessions, never two with one identifier, and every session carries the
identifier it is stored under. -/
theorem C18_bound (p : Pica) (hp : p.Reachable) (h : Nat) (d : Device) (hd : p.devices.get? h = some d) :
    d.sessions.length ≤ 255 ∧ (d.sessions.map Prod.fst).Nodup ∧ ∀ e ∈ d.sessions, e.2.id = e.1 := by
  have hi := ((Pica.reachable_inv hp).dev h d hd).2.2.2
  refine ⟨hi.bound, hi.nodup, fun e he => ?_⟩
  exact (hi.sess e.1 e.2 (AMap.get?_of_mem hi.nodup he)).id

/-- C18: SESSION_GET_COUNT reports the number of sessions. -/
theorem C18_count (p : Pica) (hp : p.Reachable) (env : Env) (h : Nat) (d : Device) (hd : p.devices.get? h = some d)
    (hr : d.isReset = true) :
    ∃ n : UInt8, n.toNat = d.sessions.length ∧ Answers p env h .sessionGetCount (.sessionGetCount .ok n) d [] := by
  refine ⟨UInt8.ofNat d.sessions.length, ?_, step_cmd hd (.inl hr) rfl fun _ => trivial⟩
  have := (C18_bound p hp h d hd).1
  rw [UInt8.toNat_ofNat']
  omega

/-! ### C19 -/

theorem life_step {p p' : Pica} (hi : p.PInv) {env : Env} {c : Command} {out : List Out} (hs : p.step env c = .ok (p', out))
    (h : Nat) (sid : UInt32) :
    (stateAt (p.devices.get? h) sid = stateAt (p'.devices.get? h) sid ∧ statusNtfs sid (effectsOf h out) = []) ∨
    (stateAt (p.devices.get? h) sid ≠ stateAt (p'.devices.get? h) sid ∧
      Allowed (stateAt (p.devices.get? h) sid) (stateAt (p'.devices.get? h) sid) ∧
      statusNtfs sid (effectsOf h out) = [stateAt (p'.devices.get? h) sid]) := by
  have hst := Pica.step_dev hi hs h
  have hdev := hi.dev h
  generalize p.devices.get? h = o at hst hdev ⊢
  generalize p'.devices.get? h = o' at hst ⊢
  generalize effectsOf h out = e at hst ⊢
  cases hst with
  | move d d' _ hm =>
    obtain ⟨h1, h2⟩ := devMove_status hm (hdev d rfl).2.2.2 sid
    show (stateOf d sid = stateOf d' sid ∧ _) ∨ (stateOf d sid ≠ stateOf d' sid ∧ _ ∧ _ = [stateOf d' sid])
    rw [h2]
    by_cases he : stateOf d sid = stateOf d' sid
    · exact .inl ⟨he, by rw [if_neg (by simp [he])]⟩
    · exact .inr ⟨he, h1.resolve_left he, by rw [if_pos (fun h => he h.symm)]⟩
  | connect => exact .inl ⟨rfl, rfl⟩
  | disconnect d =>
    rw [statusNtfs_dropSessions (hdev d rfl).2.2.2]
    show (stateOf d sid = sessionStateDeinit ∧ _) ∨ (stateOf d sid ≠ sessionStateDeinit ∧ _)
    by_cases he : stateOf d sid = sessionStateDeinit
    · exact .inl ⟨he, by rw [if_pos he]⟩
    · exact .inr ⟨he, .inr (.inr (.inr (.inr ⟨he, rfl⟩))), by rw [if_neg he]; rfl⟩
  | absent => exact .inl ⟨rfl, rfl⟩

/-- C19: every step leaves a session as it was and schedules no status notification, or moves it along the
life cycle and schedules exactly one, with the new state. -/
theorem C19_step (p p' : Pica) (hp : p.Reachable) (env : Env) (c : Command) (out : List Out)
    (hs : p.step env c = .ok (p', out)) (h : Nat) (sid : UInt32) :
    (stateAt (p.devices.get? h) sid = stateAt (p'.devices.get? h) sid ∧ statusNtfs sid (effectsOf h out) = []) ∨
    (stateAt (p.devices.get? h) sid ≠ stateAt (p'.devices.get? h) sid ∧
      Allowed (stateAt (p.devices.get? h) sid) (stateAt (p'.devices.get? h) sid) ∧
      statusNtfs sid (effectsOf h out) = [stateAt (p'.devices.get? h) sid]) :=
  life_step (Pica.reachable_inv hp) hs h sid

theorem life_history {p : Pica} {tr : List Pica.Event} (hr : Pica.Run .new tr p) (h : Nat) (sid : UInt32) :
    List.IsChain Allowed (sessionStateDeinit :: statusNtfs sid (historyOf h tr)) ∧
    (sessionStateDeinit :: statusNtfs sid (historyOf h tr)).getLast (by simp) = stateAt (p.devices.get? h) sid := by
  generalize hn : Pica.new = p₀ at hr
  induction hr with
  | nil => subst hn; exact ⟨List.isChain_singleton _, rfl⟩
  | @cmd q r tr env c out hrun hs ih =>
    obtain ⟨ih1, ih2⟩ := ih
    subst hn
    have hi := Pica.run_inv hrun Pica.pinv_new
    have e : historyOf h (tr ++ [⟨env, c, out⟩]) = historyOf h tr ++ effectsOf h out := by
      simp [historyOf]
    simp only [e, statusNtfs_append, ← List.cons_append]
    rcases life_step hi hs h sid with ⟨h1, h2⟩ | ⟨h1, h2, h3⟩
    · simp only [h2, List.append_nil]
      exact ⟨ih1, ih2.trans h1⟩
    · simp only [h3]
      refine ⟨List.isChain_append.mpr ⟨ih1, List.isChain_singleton _, ?_⟩, List.getLast_append_singleton _⟩
      intro x hx y hy
      simp only [List.head?_cons, Option.mem_def, Option.some.injEq] at hy
      rw [List.getLast?_eq_getLast_of_ne_nil (by simp), ih2] at hx
      cases hx
      subst hy
      exact h2
  | @reorder q r tr hrun hro ih =>
    obtain ⟨ih1, ih2⟩ := ih
    subst hn
    refine ⟨ih1, ih2.trans ?_⟩
    have hi := Pica.run_inv hrun Pica.pinv_new
    rcases (Pica.reorder_dev hi hro).2.2.2 h with e | ⟨d, l, hd, hpm, hq⟩
    · rw [e]
    · rw [hd, hq]
      show stateOf d sid = stateOf { d with sessions := l } sid
      unfold stateOf
      rw [AMap.get?_perm (hi.dev h d hd).2.2.2.nodup hpm]

/-- C19: over a whole history the notified states follow the life cycle, from DEINIT to the present state. -/
theorem C19_history (p : Pica) (tr : List Pica.Event) (hr : Pica.Run .new tr p) (h : Nat) (sid : UInt32) :
    List.IsChain Allowed (sessionStateDeinit :: statusNtfs sid (historyOf h tr)) ∧
    (sessionStateDeinit :: statusNtfs sid (historyOf h tr)).getLast (by simp) = stateAt (p.devices.get? h) sid :=
  life_history hr h sid

/-! ### C20 -/

/-- C20: an IDLE or ACTIVE session has its mandatory parameters (DEVICE_ROLE 0x11, MULTI_NODE_MODE 0x03,
RANGING_ROUND_USAGE 0x01, DEVICE_MAC_ADDRESS 0x06, SCHEDULE_MODE 0x22) and is a FiRa ranging session. -/
theorem C20_configured (p : Pica) (hp : p.Reachable) (h : Nat) (d : Device) (hd : p.devices.get? h = some d)
    (sid : UInt32) (s : Session) (hs : d.sessions.get? sid = some s)
    (hst : s.state = sessionStateIdle ∨ s.state = sessionStateActive) :
    Complete (View.of s.appConfig) ∧
      (s.sessionType = .firaRangingSession ∨ s.sessionType = .firaRangingAndInBandDataSession) := by
  have hi := ((Pica.reachable_inv hp).dev h d hd).2.2.2
  obtain ⟨h1, h2⟩ := (hi.sess sid s hs).configured hst
  exact ⟨(hasMandatory_iff _).mp h2, h1⟩

/-! ### C23 -/

/-- C23: a command other than CORE_DEVICE_RESET leaves every session it does not name exactly as it was, and
everything it spawns or aborts concerns the session it names. -/
theorem C23_commands (p p' : Pica) (hp : p.Reachable) (env : Env) (h : Nat) (d d' : Device) (bytes : Bytes) (c : Cmd)
    (out : List Out) (hd : p.devices.get? h = some d) (hc : IsCmd bytes c) (hnr : ∀ rc, c ≠ .coreDeviceReset rc)
    (hs : p.step env (.uciPacket h bytes) = .ok (p', out)) (hd' : p'.devices.get? h = some d') :
    (∀ x, sessionOf c ≠ some x → d'.sessions.get? x = d.sessions.get? x) ∧
    ∀ y ∈ effectsOf h out, ∃ sid, sessionOf c = some sid ∧ Concerns d sid y := by
  have hi := ((Pica.reachable_inv hp).dev h d hd).2.2.2
  rw [uci_step hd] at hs
  cases hx : d.receivePacket env.tid bytes with
  | error x => rw [hx] at hs; cases hs
  | ok y =>
    obtain ⟨d₁, r, e⟩ := y
    rw [hx] at hs
    cases hs
    have : d₁ = d' := by
      change AMap.get? (AMap.insert p.devices h d₁) h = _ at hd'
      rw [AMap.get?_insert, if_pos rfl] at hd'
      exact Option.some.inj hd'
    subst this
    have he : effectsOf h ((r.map (Out.send h)).toList ++ e.map (.effect h)) = e := by
      rw [effectsOf_append, effectsOf_map, if_pos rfl,
        show effectsOf h (r.map (Out.send h)).toList = [] by cases r <;> rfl, List.nil_append]
    rw [he]
    rcases receive_isCmd hc hx with ⟨rfl, rfl⟩ | ⟨hr, rsp, hexec, -, -⟩
    · exact ⟨fun x _ => rfl, by intro y hy; cases hy⟩
    · obtain ⟨hne, hsc⟩ := scope_cmd hnr
      obtain ⟨h1, h2⟩ := devMove_scope (Device.exec_move hr hexec) hi hne
      refine ⟨fun x hx => h1 x fun hs => hx (hsc x hs), fun y hy => ?_⟩
      obtain ⟨sid, h3, h4⟩ := h2 y hy
      exact ⟨sid, hsc sid h3, h4⟩

/-- C23: a packet that is no command spawns and aborts nothing, and changes at most the session a data message
is for. -/
theorem C23_other_packets (p p' : Pica) (hp : p.Reachable) (env : Env) (h : Nat) (d d' : Device) (bytes : Bytes)
    (out : List Out) (hd : p.devices.get? h = some d) (hc : ∀ c, ¬IsCmd bytes c)
    (hs : p.step env (.uciPacket h bytes) = .ok (p', out)) (hd' : p'.devices.get? h = some d') :
    (∀ x, (∀ m, IsDataSnd bytes m → x ≠ m.sessionHandle) → d'.sessions.get? x = d.sessions.get? x) ∧
    effectsOf h out = [] := by
  have hi := ((Pica.reachable_inv hp).dev h d hd).2.2.2
  rw [uci_step hd] at hs
  cases hx : d.receivePacket env.tid bytes with
  | error x => rw [hx] at hs; cases hs
  | ok y =>
    obtain ⟨d₁, r, e⟩ := y
    rw [hx] at hs
    cases hs
    have : d₁ = d' := by
      change AMap.get? (AMap.insert p.devices h d₁) h = _ at hd'
      rw [AMap.get?_insert, if_pos rfl] at hd'
      exact Option.some.inj hd'
    subst this
    have he : effectsOf h ((r.map (Out.send h)).toList ++ e.map (.effect h)) = e := by
      rw [effectsOf_append, effectsOf_map, if_pos rfl,
        show effectsOf h (r.map (Out.send h)).toList = [] by cases r <;> rfl, List.nil_append]
    rw [he]
    have hm := receive_notCmd hc hx
    have hne : ∃ x : UInt32, ¬∃ m, IsDataSnd bytes m ∧ x = m.sessionHandle := by
      by_cases hex : ∃ m, IsDataSnd bytes m
      · obtain ⟨m, hm⟩ := hex
        obtain ⟨x, hx⟩ := not_all (sid := m.sessionHandle)
        refine ⟨x, ?_⟩
        rintro ⟨m', hm', rfl⟩
        exact hx (by rw [isDataSnd_unique hm' hm])
      · exact ⟨0, fun ⟨m, hm, _⟩ => hex ⟨m, hm⟩⟩
    obtain ⟨h1, h2⟩ := devMove_scope hm hi hne
    refine ⟨fun x hx => h1 x (fun ⟨m, hm, he⟩ => hx m hm he), ?_⟩
    cases receive_ok hx with
    | cmd _ c _ _ _ hc' => exact absurd hc' (hc c)
    | _ => rfl

/-! ### C27 -/

/-- C27, the half that holds: a device with an ACTIVE session is in DEVICE_STATE_ACTIVE, a device is either READY
or ACTIVE, and no command of any kind makes the count of active sessions underflow. -/
theorem C27_active_partial (p : Pica) (hp : p.Reachable) (h : Nat) (d : Device) (hd : p.devices.get? h = some d) :
    (d.state = .deviceStateReady ∨ d.state = .deviceStateActive) ∧
    ((∃ sid s, d.sessions.get? sid = some s ∧ s.state = sessionStateActive) → d.state = .deviceStateActive) ∧
    activeCount d ≤ d.nActive ∧ ∀ env c, p.step env c ≠ .error .underflow := by
  have hi := ((Pica.reachable_inv hp).dev h d hd).2.2.2
  have hst := hi.state
  refine ⟨?_, ?_, hi.count, fun env c => ?_⟩
  · rw [hst]; split <;> simp
  · rintro ⟨sid, s, hs, ha⟩
    have := AMap.count_pos (p := isActive) hs (by simp [isActive, ha])
    have hc := hi.count
    rw [activeCount_eq] at hc
    rw [hst, if_neg (by omega)]
  · exact no_underflow (Pica.reachable_inv hp) env c

/-- C27 does not hold: a SESSION_INIT with the identifier of the only ACTIVE session leaves the device in
DEVICE_STATE_ACTIVE without an ACTIVE session, and so does emptying the controlee list of that session. -/
theorem C27_false :
    (∃ p : Pica, p.Reachable ∧ ∃ d, p.devices.get? 0 = some d ∧ d.state = .deviceStateActive ∧ activeCount d = 0) ∧
    (∃ p : Pica, p.Reachable ∧ ∃ d, p.devices.get? 0 = some d ∧ d.state = .deviceStateActive ∧ d.sessions ≠ [] ∧
      ∀ sid s, d.sessions.get? sid = some s → s.state = sessionStateIdle) := by
  constructor
  · refine ⟨Ex.after (Ex.oneActive ++ [Ex.pkt 0 (Ex.sessionInit 7 1)]), Ex.after_reachable _ (by decide +kernel), ?_⟩
    have k : ((Ex.after (Ex.oneActive ++ [Ex.pkt 0 (Ex.sessionInit 7 1)])).devices.get? 0).map
        (fun d => (d.state, activeCount d)) = some (.deviceStateActive, 0) := by decide +kernel
    obtain ⟨d, hd, he⟩ := Option.map_eq_some_iff.mp k
    exact ⟨d, hd, congrArg Prod.fst he, congrArg Prod.snd he⟩
  · refine ⟨Ex.after (Ex.oneActive ++ [Ex.pkt 0 (Ex.removeOne 7 0x00 0xb1)]), Ex.after_reachable _ (by decide +kernel), ?_⟩
    have k : ((Ex.after (Ex.oneActive ++ [Ex.pkt 0 (Ex.removeOne 7 0x00 0xb1)])).devices.get? 0).map
        (fun d => (d.state, d.sessions.map (fun e => e.2.state))) = some (.deviceStateActive, [sessionStateIdle]) := by
      decide +kernel
    obtain ⟨d, hd, he⟩ := Option.map_eq_some_iff.mp k
    have h2 := congrArg Prod.snd he
    dsimp only at h2
    refine ⟨d, hd, congrArg Prod.fst he, ?_, ?_⟩
    · intro h; rw [h] at h2; cases h2
    · intro sid s hs
      have : s.state ∈ d.sessions.map (fun e => e.2.state) := List.mem_map.mpr ⟨_, AMap.mem_of_get? hs, rfl⟩
      rw [h2] at this
      exact List.mem_singleton.mp this

theorem orderly_ind (P : Device → Prop) (h₀ : ∀ h mac, P (Device.new h mac).init.1)
    (hm : ∀ {tid : Nat} {sc : Scope} {d d' : Device} {e : List Effect}, DevMove tid sc d e d' → DevInv d →
      (sc.leak → ∀ x, sc.sess x → stateOf d x = sessionStateActive → stateOf d' x = sessionStateActive) → P d → P d')
    {p : Pica} (h : Orderly p) : p.Reachable ∧ ∀ x d, p.devices.get? x = some d → P d := by
  induction h with
  | new => exact ⟨⟨[], .nil⟩, by intro x d h; cases h⟩
  | @step p p' env c out _ hs hn ih =>
    obtain ⟨⟨tr, hr⟩, ih⟩ := ih
    refine ⟨⟨_, .cmd hr hs⟩, fun x d' hd' => ?_⟩
    have hi := Pica.run_inv hr Pica.pinv_new
    have hst := Pica.step_dev hi hs x
    rw [hd'] at hst
    generalize hg : p.devices.get? x = o at hst
    generalize effectsOf x out = e at hst
    cases hst with
    | connect => exact h₀ _ _
    | move d _ _ hmv =>
      have hdi := (hi.dev x d hg).2.2.2
      by_cases hu : ∃ bytes, c = .uciPacket x bytes
      · obtain ⟨bytes, rfl⟩ := hu
        rw [uci_step hg] at hs
        cases hx : d.receivePacket env.tid bytes with
        | error z => rw [hx] at hs; cases hs
        | ok y =>
          obtain ⟨d₁, r, e₁⟩ := y
          rw [hx] at hs
          cases hs
          have : d₁ = d' := by
            change AMap.get? (AMap.insert p.devices x d₁) x = _ at hd'
            rw [AMap.get?_insert, if_pos rfl] at hd'
            exact Option.some.inj hd'
          subst this
          by_cases hc : ∃ c, IsCmd bytes c
          · obtain ⟨c, hc⟩ := hc
            rcases receive_isCmd hc hx with ⟨rfl, rfl⟩ | ⟨hr, rsp, hexec, -, -⟩
            · exact ih x d₁ hg
            · refine hm (Device.exec_move hr hexec) hdi ?_ (ih x d hg)
              intro hlk sid hsc ha
              by_contra hna
              apply hn
              refine ⟨x, bytes, rfl, sid, by rw [hg]; exact ha, ?_⟩
              rw [hd']
              cases c with
              | sessionInit sid' ty => cases hsc; exact .inl ⟨ty, hc⟩
              | sessionUpdateMulticast sid' a q => cases hsc; exact .inr ⟨⟨a, q, hc⟩, hna⟩
              | _ => exact False.elim hlk
          · exact hm (receive_notCmd (fun c hc' => hc ⟨c, hc'⟩) hx) hdi (fun h => False.elim h) (ih x d hg)
      · by_cases hv : ∃ y bytes, c = .uciPacket y bytes
        · obtain ⟨y, bytes, rfl⟩ := hv
          have hyx : x ≠ y := fun e => hu ⟨bytes, by rw [e]⟩
          have := (C24_devices_independent p p' env y bytes out hs).2.2.1 x hyx
          rw [hd', hg] at this
          cases this
          exact ih x d' hg
        · exact hm hmv hdi (fun h => absurd h hv) (ih x d hg)
  | @reorder p p' _ hro ih =>
    obtain ⟨⟨tr, hr⟩, ih⟩ := ih
    refine ⟨⟨_, .reorder hr hro⟩, fun x d' hd' => ?_⟩
    have hi := Pica.run_inv hr Pica.pinv_new
    rcases Pica.reorder_move hi hro 0 x with ⟨-, e⟩ | ⟨d₀, d₁, h1, h2, hmv⟩
    · rw [e] at hd'; cases hd'
    · rw [h2] at hd'; cases hd'
      exact hm hmv (hi.dev x d₀ h1).2.2.2 (fun h => False.elim h) (ih x d₀ h1)

theorem orderly_run {p : Pica} (h : Orderly p) : p.Reachable ∧
    ∀ x d, p.devices.get? x = some d → d.nActive = activeCount d :=
  orderly_ind (fun d => d.nActive = activeCount d) (fun _ _ => rfl) devMove_exact h

theorem orderly_idle {p : Pica} (h : Orderly p) : ∀ x d, p.devices.get? x = some d → NoStrays d :=
  (orderly_ind NoStrays (by intro h mac sid s hs; cases hs) devMove_noStrays h).2

/-- C27, the other half, for the histories in which no ACTIVE session is overwritten by SESSION_INIT and none is
taken out of ACTIVE by a multicast list update: the device is ACTIVE exactly when a session is. -/
theorem C27_orderly_partial (p : Pica) (ho : Orderly p) (h : Nat) (d : Device) (hd : p.devices.get? h = some d) :
    (d.state = .deviceStateActive ↔ ∃ sid s, d.sessions.get? sid = some s ∧ s.state = sessionStateActive) ∧
    d.nActive = activeCount d := by
  obtain ⟨hp, hx⟩ := orderly_run ho
  have hi := ((Pica.reachable_inv hp).dev h d hd).2.2.2
  refine ⟨⟨fun ha => ?_, (C27_active_partial p hp h d hd).2.1⟩, hx h d hd⟩
  by_contra hn
  have h0 : activeCount d = 0 := by
    rw [activeCount_eq, AMap.count_eq_zero hi.nodup]
    intro k v hk
    unfold isActive
    apply decide_eq_false
    intro hv
    exact hn ⟨k, v, hk, hv⟩
  have hst := hi.state
  rw [hx h d hd, h0, if_pos rfl, ha] at hst
  cases hst

/-! ### C50 -/

/-- C50: the last SESSION_STATUS_NTF scheduled for a session carries its present state, and when there is none the
session is in DEINIT. -/
theorem C50_last_status (p : Pica) (tr : List Pica.Event) (hr : Pica.Run .new tr p) (h : Nat) (sid : UInt32) :
    ((statusNtfs sid (historyOf h tr)).getLast?).getD sessionStateDeinit = stateAt (p.devices.get? h) sid := by
  have := (life_history hr h sid).2
  rw [← this]
  cases hl : statusNtfs sid (historyOf h tr) with
  | nil => rfl
  | cons a l =>
    rw [List.getLast?_eq_getLast_of_ne_nil (List.cons_ne_nil a l), List.getLast_cons (List.cons_ne_nil a l)]
    rfl

/-- C50: SESSION_GET_STATE reports that state. -/
theorem C50_get_state (p : Pica) (env : Env) (h : Nat) (d : Device) (sid : UInt32) (hd : p.devices.get? h = some d)
    (hr : d.isReset = true) :
    (d.sessions.get? sid ≠ none →
      Answers p env h (.sessionGetState sid) (.sessionGetState .ok (stateOf d sid)) d []) ∧
    (d.sessions.get? sid = none →
      Answers p env h (.sessionGetState sid) (.sessionGetState .errorSessionNotExist sessionStateInit) d []) := by
  constructor
  · intro hn
    cases hs : d.sessions.get? sid with
    | none => exact absurd hs hn
    | some s =>
      refine step_cmd hd (.inl hr) ?_ fun _ => trivial
      show Except.ok (d.sessionGetState sid) = _
      unfold Device.sessionGetState Device.session stateOf
      rw [hs]
  · intro hs
    refine step_cmd hd (.inl hr) ?_ fun _ => trivial
    show Except.ok (d.sessionGetState sid) = _
    unfold Device.sessionGetState Device.session
    rw [hs]

/-- C50: the last CORE_DEVICE_STATUS_NTF scheduled by a connected device carries its state. -/
theorem C50_device_status (p : Pica) (tr : List Pica.Event) (hr : Pica.Run .new tr p) (h : Nat) (d : Device)
    (hd : p.devices.get? h = some d) : (deviceNtfs (historyOf h tr)).getLast? = some d.state := by
  have key : ∀ d, p.devices.get? h = some d → (deviceNtfs (historyOf h tr)).getLast? = some d.state := by
    clear hd d
    generalize hn : Pica.new = p₀ at hr
    induction hr with
    | nil => subst hn; intro d hd; cases hd
    | @cmd q r tr env c out hrun hs ih =>
      subst hn
      have hi := Pica.run_inv hrun Pica.pinv_new
      have e : historyOf h (tr ++ [⟨env, c, out⟩]) = historyOf h tr ++ effectsOf h out := by simp [historyOf]
      intro d' hd'
      rw [e, deviceNtfs_append]
      have hst := Pica.step_dev hi hs h
      rw [hd'] at hst
      generalize hg : q.devices.get? h = o at hst
      generalize effectsOf h out = e at hst ⊢
      cases hst with
      | connect => simp [deviceNtfs, Device.init, Device.setState_eq]
      | move d _ _ hm =>
        rcases devMove_device hm with ⟨h1, h2⟩ | h1
        · rw [h1, List.append_nil, h2]; exact ih d hg
        · rw [h1]; simp
    | @reorder q r tr hrun hro ih =>
      subst hn
      intro d' hd'
      have hi := Pica.run_inv hrun Pica.pinv_new
      rcases (Pica.reorder_dev hi hro).2.2.2 h with e | ⟨d, l, hd, hpm, hq⟩
      · rw [e] at hd'; exact ih d' hd'
      · rw [hq] at hd'; cases hd'; exact ih d hd
  exact key d hd

/-! ### The hypotheses can be met -/

/-- A history of two devices, with two sessions on the first; its notifications. -/
example : ∃ p, Pica.Run .new (Ex.trace Ex.twoActive) p ∧
    statusNtfs 7 (historyOf 0 (Ex.trace Ex.twoActive)) = [sessionStateInit, sessionStateIdle, sessionStateActive] ∧
    statusNtfs 9 (historyOf 0 (Ex.trace Ex.twoActive)) = [sessionStateInit, sessionStateIdle] ∧
    deviceNtfs (historyOf 0 (Ex.trace Ex.twoActive)) = [.deviceStateReady, .deviceStateReady, .deviceStateActive] :=
  ⟨_, Ex.after_run _ Ex.twoActive_ok, by decide +kernel⟩

/-- C20, C18: session 7 of the first device is ACTIVE, session 9 IDLE. -/
example : ∃ d s s', (Ex.after Ex.twoActive).devices.get? 0 = some d ∧ d.isReset = true ∧ d.sessions.length = 2 ∧
    d.sessions.get? 7 = some s ∧ s.state = sessionStateActive ∧ d.sessions.get? 9 = some s' ∧
    s'.state = sessionStateIdle := by
  have k : ((Ex.after Ex.twoActive).devices.get? 0).map (fun d => (d.isReset, d.sessions.length,
      (d.sessions.get? 7).map (·.state), (d.sessions.get? 9).map (·.state))) =
      some (true, 2, some sessionStateActive, some sessionStateIdle) := by decide +kernel
  obtain ⟨d, hd, he⟩ := Option.map_eq_some_iff.mp k
  simp only [Prod.mk.injEq, Option.map_eq_some_iff] at he
  obtain ⟨h1, h2, ⟨s, h3, h4⟩, s', h5, h6⟩ := he
  exact ⟨d, s, s', hd, h1, h2, h3, h4, h5, h6⟩

/-- C23: a DEINIT of session 7 beside session 9. -/
example : IsCmd (Ex.sessionDeinit 7) (.sessionDeinit 7) ∧
    (((Ex.after Ex.twoActive).step Ex.env (.uciPacket 0 (Ex.sessionDeinit 7))).toOption.map
      (fun x => ((effectsOf 0 x.2).length, (x.1.devices.get? 0).map (·.sessions.length)))) = some (3, some 1) :=
  ⟨⟨trivial, _, _, _, _, rfl, by decide +kernel⟩, by decide +kernel⟩

/-- C23: a data message for session 7. -/
example : (∀ c, ¬IsCmd [0x01, 0, 0, 0, 7, 0, 0, 0, 1, 2, 3, 4, 5, 6, 7, 8, 0, 0, 1, 0, 0x55] c) ∧
    IsDataSnd [0x01, 0, 0, 0, 7, 0, 0, 0, 1, 2, 3, 4, 5, 6, 7, 8, 0, 0, 1, 0, 0x55] ⟨7, 0x0807060504030201, 0, [0x55]⟩ := by
  refine ⟨?_, by decide, _, _, _, _, rfl, by decide +kernel⟩
  rintro c ⟨-, b, _, _, _, h, h2, -⟩
  rw [← (List.cons.inj h).1] at h2
  exact absurd h2 (by decide)

theorem orderly_play (cs : List (Env × Command)) (p : Pica) (hp : Orderly p)
    (h : ∀ n < cs.length, ((Ex.play p (cs.take n)).toOption.map
      fun x => decide (∀ e ∈ x.1.devices, ∀ f ∈ e.2.sessions, f.2.state ≠ sessionStateActive)) = some true)
    (q : Pica) (tr : List Pica.Event) (hq : Ex.play p cs = .ok (q, tr)) : Orderly q := by
  induction cs generalizing p tr with
  | nil => cases hq; exact hp
  | cons c cs ih =>
    obtain ⟨e, c⟩ := c
    unfold Ex.play at hq
    cases hs : p.step e c with
    | error x => rw [hs] at hq; cases hq
    | ok y =>
      obtain ⟨p₁, out⟩ := y
      rw [hs] at hq
      simp only [bind, Except.bind] at hq
      cases hpl : Ex.play p₁ cs with
      | error x => rw [hpl] at hq; cases hq
      | ok z =>
        obtain ⟨q₁, tr₁⟩ := z
        rw [hpl] at hq
        cases hq
        refine ih p₁ (.step hp hs ?_) ?_ _ hpl
        · have h0 := h 0 (by simp)
          simp only [List.take_zero, Ex.play, Except.toOption, Option.map_some, Option.some.injEq, decide_eq_true_eq] at h0
          rintro ⟨x, bytes, -, sid, ha, -⟩
          unfold stateAt at ha
          cases hd : p.devices.get? x with
          | none => rw [hd] at ha; cases ha
          | some d =>
            rw [hd] at ha
            simp only [stateOf] at ha
            cases hss : d.sessions.get? sid with
            | none => rw [hss] at ha; cases ha
            | some s =>
              rw [hss] at ha
              exact h0 _ (AMap.mem_of_get? hd) _ (AMap.mem_of_get? hss) ha
        · intro n hn
          have := h (n + 1) (by simpa using hn)
          rw [List.take_succ_cons] at this
          unfold Ex.play at this
          rw [hs] at this
          simp only [bind, Except.bind] at this
          cases hx : Ex.play p₁ (cs.take n) with
          | error => rw [hx] at this; cases this
          | ok y => rw [hx] at this; exact this

/-- C27: the history leading to one ACTIVE session is orderly. -/
example : ∃ p : Pica, Orderly p ∧ (p.devices.get? 0).map (fun d => (d.state, activeCount d)) = some (.deviceStateActive, 1) := by
  obtain ⟨⟨q, tr⟩, hq, he⟩ := Ex.exists_ok (x := Ex.play .new Ex.oneActive)
    (f := fun x => (x.1.devices.get? 0).map (fun d => (d.state, activeCount d))) (b := some (.deviceStateActive, 1))
    (by decide +kernel)
  exact ⟨q, orderly_play _ _ .new (by decide +kernel) _ _ hq, he⟩

end Pica.Props
