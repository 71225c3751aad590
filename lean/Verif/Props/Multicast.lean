import Verif.Props.Session
import Verif.Proofs.Multicast
import Verif.Proofs.Params
/-! C30, C31 and C32: SESSION_UPDATE_CONTROLLER_MULTICAST_LIST. -/

set_option linter.dupNamespace false

namespace Pica.Props
open Spec SessionState

theorem updatable_iff {s : Session} : Updatable s ↔
    ¬((s.state ≠ .sessionStateActive ∧ s.state ≠ .sessionStateIdle)
        ∨ s.appConfig.deviceType ≠ some .controller ∨ s.appConfig.multiNodeMode ≠ some .oneToMany) := by
  have h1 : View.of s.appConfig 0x00 = some [1] ↔ s.appConfig.deviceType = some .controller := by
    show (s.appConfig.deviceType.map fun x => [x.code]) = some [1] ↔ _
    cases s.appConfig.deviceType with
    | none => simp
    | some x => cases x <;> decide
  have h2 : View.of s.appConfig 0x03 = some [1] ↔ s.appConfig.multiNodeMode = some .oneToMany := by
    show (s.appConfig.multiNodeMode.map fun x => [x.code]) = some [1] ↔ _
    cases s.appConfig.multiNodeMode with
    | none => simp
    | some x => cases x <;> decide
  unfold Updatable
  rw [h1, h2]
  by_cases a : s.state = sessionStateActive <;> by_cases b : s.state = sessionStateIdle <;>
    by_cases c : s.appConfig.deviceType = some .controller <;>
    by_cases e : s.appConfig.multiNodeMode = some .oneToMany <;> simp [a, b, c, e]

theorem multicast_eq {d : Device} {tid : Nat} {sid : UInt32} {s : Session} {a : UpdateMulticastListAction}
    {payload : Bytes} {addrs : List (Arr 2)} (hs : d.sessions.get? sid = some s) (hu : Updatable s)
    (hc : IsControlees (keyLength a) payload addrs) :
    d.exec tid (.sessionUpdateMulticast sid a payload) =
      .ok ({ d with sessions := d.sessions.insert sid (withList s (Device.updateControlees s sid a addrs).dst) },
        .sessionUpdateMulticast (Device.updateControlees s sid a addrs).status (Device.updateControlees s sid a addrs).rsp,
        (Device.updateControlees s sid a addrs).effects ++ emptied s (Device.updateControlees s sid a addrs).dst) := by
  show Except.ok (d.sessionUpdateMulticast sid a payload) = _
  unfold Device.sessionUpdateMulticast
  have hs' : d.session sid = some s := hs
  simp only [hs', if_neg (updatable_iff.mp hu), (parseControlees_iff a payload addrs).mpr hc]
  generalize Device.updateControlees s sid a addrs = acc
  unfold Session.setState withList emptied AppConfig.withControlees Device.putSession
  cases hd : acc.dst with
  | nil =>
    rcases hu.1 with h | h
    · simp [h]; rfl
    · simp [h]
  | cons x l => simp

theorem multicast_fits {d d' : Device} {tid : Nat} {sid : UInt32} {a : UpdateMulticastListAction} {payload : Bytes}
    {r : Rsp} {e : List Effect} (h : d.exec tid (.sessionUpdateMulticast sid a payload) = .ok (d', r, e)) :
    cmdFits (.sessionUpdateMulticast sid a payload) → rspFits r := by
  intro hc
  by_contra hn
  obtain ⟨_, _, _, h, -⟩ := (exec_fits hc h).mp hn
  cases h

/-- The additions that take effect: a plain ADD, or one with keys while STS_CONFIG (0x02) is 4. -/
def Adds (s : Session) (a : UpdateMulticastListAction) : Prop :=
  a = .addControlee ∨
    (a = .addControleeWithShortSubSessionKey ∨ a = .addControleeWithExtendedSubSessionKey) ∧
      View.of s.appConfig 0x02 = some [4]

theorem sts_iff {s : Session} : View.of s.appConfig 0x02 = some [4] ↔
    s.appConfig.stsConfig = .provisionedForResponderSubSessionKey := by
  show some [s.appConfig.stsConfig.code] = some [4] ↔ _
  cases s.appConfig.stsConfig <;> decide

/-! ### C30 -/

/-- C30, ADD: the addresses that were absent are appended in order and without repetition up to a length of eight,
NUMBER_OF_CONTROLEES is the length, every controlee is answered in order, and nothing else of the session, device
or environment changes. No task is spawned. A list longer than eight takes every newcomer (see `C31_false`). -/
theorem C30_add_partial (p : Pica) (env : Env) (h : Nat) (d : Device) (sid : UInt32) (s : Session)
    (a : UpdateMulticastListAction) (payload : Bytes) (addrs : List (Arr 2)) (hd : p.devices.get? h = some d)
    (hr : d.isReset = true) (hs : d.sessions.get? sid = some s) (hu : Updatable s)
    (hc : IsControlees (keyLength a) payload addrs) (ha : Adds s a) :
    Answers p env h (.sessionUpdateMulticast sid a payload)
      (.sessionUpdateMulticast (overall (addStatuses s.appConfig.dstMacAddress addrs))
        (addStatuses s.appConfig.dstMacAddress addrs))
      { d with sessions := d.sessions.insert sid (withList s (afterAdd s.appConfig.dstMacAddress addrs)) }
      (emptied s (afterAdd s.appConfig.dstMacAddress addrs)) := by
  have hx := multicast_eq (tid := env.tid) hs hu hc
  have hacc : Device.updateControlees s sid a addrs = addrs.foldl (Device.addControlee false)
      ⟨s.appConfig.dstMacAddress, .ok, [], [], []⟩ := by
    rcases ha with rfl | ⟨rfl | rfl, hk⟩
    · rfl
    all_goals
      rw [sts_iff] at hk
      unfold Device.updateControlees
      simp [hk]
  rw [hacc, add_fold] at hx
  exact step_cmd hd (.inl hr) hx (multicast_fits hx)

/-- C30, ADD with keys while STS_CONFIG is not 4: nothing is added and no controlee is answered; the overall
status is FAILED. -/
theorem C30_keys_partial (p : Pica) (env : Env) (h : Nat) (d : Device) (sid : UInt32) (s : Session)
    (a : UpdateMulticastListAction) (payload : Bytes) (addrs : List (Arr 2)) (hd : p.devices.get? h = some d)
    (hr : d.isReset = true) (hs : d.sessions.get? sid = some s) (hu : Updatable s)
    (hc : IsControlees (keyLength a) payload addrs) (ha : ¬Adds s a) (hk : a ≠ .removeControlee) :
    Answers p env h (.sessionUpdateMulticast sid a payload)
      (.sessionUpdateMulticast (if addrs = [] then .ok else .failed) [])
      { d with sessions := d.sessions.insert sid (withList s s.appConfig.dstMacAddress) }
      (emptied s s.appConfig.dstMacAddress) := by
  have hx := multicast_eq (tid := env.tid) hs hu hc
  obtain ⟨ntf, hf⟩ := key_fold s.appConfig.dstMacAddress addrs
  have hacc : Device.updateControlees s sid a addrs = addrs.foldl (Device.addControlee true)
      ⟨s.appConfig.dstMacAddress, .ok, [], [], []⟩ := by
    cases a with
    | addControlee => exact absurd (.inl rfl) ha
    | removeControlee => exact absurd rfl hk
    | addControleeWithShortSubSessionKey =>
      have : ¬s.appConfig.stsConfig = .provisionedForResponderSubSessionKey :=
        fun h => ha (.inr ⟨.inl rfl, sts_iff.mpr h⟩)
      unfold Device.updateControlees; simp [this]
    | addControleeWithExtendedSubSessionKey =>
      have : ¬s.appConfig.stsConfig = .provisionedForResponderSubSessionKey :=
        fun h => ha (.inr ⟨.inr rfl, sts_iff.mpr h⟩)
      unfold Device.updateControlees; simp [this]
  rw [hacc, hf] at hx
  exact step_cmd hd (.inl hr) hx (multicast_fits hx)

/-- C30 and C32, REMOVE: exactly the named addresses are deleted, every controlee is answered in order, one task
of IN_BAND_TERMINATION_ATTEMPT_COUNT (0x2f) in-band stops is spawned for each address that was removed, and an
ACTIVE session notifies the addresses removed. -/
theorem C32_remove (p : Pica) (env : Env) (h : Nat) (d : Device) (sid : UInt32) (s : Session)
    (payload : Bytes) (addrs : List (Arr 2)) (n : UInt8) (hd : p.devices.get? h = some d)
    (hr : d.isReset = true) (hs : d.sessions.get? sid = some s) (hu : Updatable s)
    (hc : IsControlees 0 payload addrs) (hn : View.of s.appConfig 0x2f = some [n]) :
    Answers p env h (.sessionUpdateMulticast sid .removeControlee payload)
      (.sessionUpdateMulticast (overall (removeStatuses s.appConfig.dstMacAddress addrs))
        (removeStatuses s.appConfig.dstMacAddress addrs))
      { d with sessions := d.sessions.insert sid (withList s (afterRemove s.appConfig.dstMacAddress addrs)) }
      ((if n = 0 then [] else (succeeded (removeStatuses s.appConfig.dstMacAddress addrs)).map
          fun x => .stopRanging (.short x.macAddress) sid n) ++
        (if s.state = sessionStateActive then
          [.notify 5 (.sessionUpdateMulticast sid (succeeded (removeStatuses s.appConfig.dstMacAddress addrs)))]
          else []) ++
        emptied s (afterRemove s.appConfig.dstMacAddress addrs)) := by
  have hx := multicast_eq (a := .removeControlee) (tid := env.tid) hs hu hc
  have hn' : s.appConfig.inBandTerminationAttemptCount = n := by
    have : some [s.appConfig.inBandTerminationAttemptCount] = some [n] := hn
    simpa using this
  unfold Device.updateControlees at hx
  simp only [remove_fold, hn'] at hx
  by_cases ha : s.state = sessionStateActive
  · simp only [if_pos ha] at hx ⊢
    exact step_cmd hd (.inl hr) hx (multicast_fits hx)
  · simp only [if_neg ha, List.append_nil] at hx ⊢
    exact step_cmd hd (.inl hr) hx (multicast_fits hx)

/-- C30: what the list after an addition is, in other words: the old list, followed by distinct newcomers in the
order of the command; an address of the command that is still missing found the list full. -/
theorem C30_added (old : List MacAddress) (addrs : List (Arr 2)) :
    ∃ new : List (Arr 2), afterAdd old addrs = old ++ new.map .short ∧ new.Sublist addrs ∧ new.Nodup ∧
      (∀ a ∈ new, MacAddress.short a ∉ old) ∧ (old.length ≤ 8 → (afterAdd old addrs).length ≤ 8) ∧
      ∀ a ∈ addrs, .short a ∈ afterAdd old addrs ∨ (afterAdd old addrs).length = 8 := by
  induction addrs using List.reverseRecOn with
  | nil => exact ⟨[], by rw [afterAdd_nil]; simp, .refl _, .nil, by simp, by rw [afterAdd_nil]; exact id, by simp⟩
  | append_singleton l a ih =>
    obtain ⟨new, h1, h2, h3, h4, h5, h6⟩ := ih
    rw [afterAdd_concat]
    by_cases hc : MacAddress.short a ∈ afterAdd old l ∨ (afterAdd old l).length = 8
    · rw [if_pos hc]
      refine ⟨new, h1, h2.trans (List.sublist_append_left _ _), h3, h4, h5, fun b hb => ?_⟩
      rcases List.mem_append.mp hb with hb | hb
      · exact h6 b hb
      · rw [List.mem_singleton.mp hb]; exact hc
    · rw [if_neg hc]
      rw [not_or] at hc
      rw [h1, List.mem_append, mem_short_map, not_or] at hc
      refine ⟨new ++ [a], by rw [h1]; simp, h2.append (.refl _), ?_, ?_, ?_, ?_⟩
      · rw [List.nodup_append]
        refine ⟨h3, by simp, fun x hx y hy e => ?_⟩
        rw [List.mem_singleton.mp hy] at e
        subst e
        exact hc.1.2 hx
      · intro b hb
        rcases List.mem_append.mp hb with hb | hb
        · exact h4 b hb
        · rw [List.mem_singleton.mp hb]; exact hc.1.1
      · intro ho
        have := h5 ho
        rw [h1] at this
        rw [h1]
        have hne := hc.2
        simp only [List.length_append, List.length_map, List.length_singleton] at this hne ⊢
        omega
      · intro b hb
        left
        rcases List.mem_append.mp hb with hb | hb
        · rcases h6 b hb with h | h
          · exact List.mem_append_left _ h
          · rw [h1] at h; exact absurd h hc.2
        · rw [List.mem_singleton.mp hb]; exact List.mem_append_right _ (by simp)

/-- C30: what the list after a removal is, in other words. -/
theorem C30_removed (old : List MacAddress) (addrs : List (Arr 2)) (m : MacAddress) :
    (afterRemove old addrs).Sublist old ∧ (m ∈ afterRemove old addrs ↔ m ∈ old ∧ ∀ a ∈ addrs, m ≠ .short a) := by
  unfold afterRemove
  exact ⟨List.filter_sublist, by simp only [List.mem_filter, decide_eq_true_eq]⟩

/-- C30: the commands refused: no such session, a session in the wrong state or role, a malformed list. -/
theorem C30_refused (p : Pica) (env : Env) (h : Nat) (d : Device) (sid : UInt32) (a : UpdateMulticastListAction)
    (payload : Bytes) (hd : p.devices.get? h = some d) (hr : d.isReset = true) :
    (d.sessions.get? sid = none → Answers p env h (.sessionUpdateMulticast sid a payload)
      (.sessionUpdateMulticast .errorSessionNotExist []) d []) ∧
    ∀ s, d.sessions.get? sid = some s →
      (¬Updatable s → Answers p env h (.sessionUpdateMulticast sid a payload) (.sessionUpdateMulticast .rejected []) d []) ∧
      (Updatable s → (∀ addrs, ¬IsControlees (keyLength a) payload addrs) →
        Answers p env h (.sessionUpdateMulticast sid a payload) (.sessionUpdateMulticast .syntaxError []) d []) := by
  refine ⟨fun hs => ?_, fun s hs => ⟨fun hu => ?_, fun hu hc => ?_⟩⟩
  · have hx : d.exec env.tid (.sessionUpdateMulticast sid a payload) =
        .ok (d, .sessionUpdateMulticast .errorSessionNotExist [], []) := by
      show Except.ok (d.sessionUpdateMulticast sid a payload) = _
      unfold Device.sessionUpdateMulticast Device.session
      rw [hs]
    exact step_cmd hd (.inl hr) hx (multicast_fits hx)
  · have hx : d.exec env.tid (.sessionUpdateMulticast sid a payload) =
        .ok (d, .sessionUpdateMulticast .rejected [], []) := by
      show Except.ok (d.sessionUpdateMulticast sid a payload) = _
      unfold Device.sessionUpdateMulticast
      have hs' : d.session sid = some s := hs
      rw [updatable_iff, Classical.not_not] at hu
      simp only [hs', if_pos hu]
    exact step_cmd hd (.inl hr) hx (multicast_fits hx)
  · have hx : d.exec env.tid (.sessionUpdateMulticast sid a payload) =
        .ok (d, .sessionUpdateMulticast .syntaxError [], []) := by
      show Except.ok (d.sessionUpdateMulticast sid a payload) = _
      unfold Device.sessionUpdateMulticast
      have hs' : d.session sid = some s := hs
      have hp : Device.parseControlees a payload = none := by
        cases hp : Device.parseControlees a payload with
        | none => rfl
        | some l => exact absurd ((parseControlees_iff a payload l).mp hp) (hc l)
      simp only [hs', if_neg (updatable_iff.mp hu), hp]
    exact step_cmd hd (.inl hr) hx (multicast_fits hx)

/-- A session 7 whose controlees are 00:01 to 00:09. -/
def nineControlees : List (Env × Command) :=
  [(Ex.env, .connect), Ex.pkt 0 Ex.reset, Ex.pkt 0 (Ex.sessionInit 7 1), Ex.pkt 0 (Ex.setApp 7 8
    [0x00, 1, 1, 0x01, 1, 2, 0x03, 1, 1, 0x05, 1, 9, 0x06, 2, 0x00, 0xa0,
     0x07, 18, 0, 1, 0, 2, 0, 3, 0, 4, 0, 5, 0, 6, 0, 7, 0, 8, 0, 9, 0x11, 1, 1, 0x22, 1, 1])]

/-- The addition of the 247 controlees 01:00 to 01:f6. -/
def addMany : Bytes :=
  Ex.cmd 1 7 ([7, 0, 0, 0, 0, 247] ++ (List.range 247).flatMap fun i => [1, UInt8.ofNat i, 0, 0, 0, 0])

theorem wrapped : ∃ (p : Pica) (d : Device) (s : Session), p.Reachable ∧ p.devices.get? 0 = some d ∧
    d.sessions.get? 7 = some s ∧ s.appConfig.dstMacAddress.length = 256 ∧ View.of s.appConfig 0x05 = some [0] := by
  have k : ((Ex.play .new (nineControlees ++ [Ex.pkt 0 addMany])).toOption.map fun x =>
      (x.1.devices.get? 0).bind (fun d => (d.sessions.get? 7).map fun s =>
      (s.appConfig.dstMacAddress.length, View.of s.appConfig 0x05))) = some (some (256, some [0])) := by decide +kernel
  obtain ⟨⟨p, tr⟩, hp, k⟩ := Ex.exists_ok k
  obtain ⟨d, hd, k⟩ := Option.bind_eq_some_iff.mp k
  obtain ⟨s, hs, k⟩ := Option.map_eq_some_iff.mp k
  simp only [Prod.mk.injEq] at k
  exact ⟨p, d, s, ⟨tr, Ex.play_run hp⟩, hd, hs, k.1, k.2⟩

/-- C30 does not hold in two respects. An addition with keys while STS_CONFIG is not 4 is not answered per
controlee. And NUMBER_OF_CONTROLEES is not the length of the list when that exceeds 255. -/
theorem C30_false :
    (∃ (p : Pica) (d : Device) (s : Session), p.Reachable ∧ p.devices.get? 0 = some d ∧ d.isReset = true ∧
      d.sessions.get? 7 = some s ∧ Updatable s ∧
      ∃ payload a, IsControlees 16 payload [a] ∧ ∀ env, ∃ d' e,
        Answers p env 0 (.sessionUpdateMulticast 7 .addControleeWithShortSubSessionKey payload)
          (.sessionUpdateMulticast .failed []) d' e ∧ e = []) ∧
    (∃ (p : Pica) (d : Device) (s : Session), p.Reachable ∧ p.devices.get? 0 = some d ∧ d.sessions.get? 7 = some s ∧
      s.appConfig.dstMacAddress.length = 256 ∧ View.of s.appConfig 0x05 = some [0]) := by
  constructor
  · have k : ((Ex.after nineControlees).devices.get? 0).bind (fun d => (d.sessions.get? 7).map fun s =>
        (d.isReset, s.state, View.of s.appConfig 0x00, View.of s.appConfig 0x03)) =
        some (true, sessionStateIdle, some [1], some [1]) := by decide +kernel
    have k2 : ((Ex.after nineControlees).devices.get? 0).bind (fun d => (d.sessions.get? 7).map fun s =>
        decide (View.of s.appConfig 0x02 = some [4] ∨ s.appConfig.dstMacAddress = [])) = some false := by decide +kernel
    obtain ⟨d, hd, k'⟩ := Option.bind_eq_some_iff.mp k
    obtain ⟨s, hs, k'⟩ := Option.map_eq_some_iff.mp k'
    rw [hd] at k2
    simp only [Option.bind_some, hs, Option.map_some, Option.some.injEq, decide_eq_false_iff_not] at k2
    simp only [Prod.mk.injEq] at k'
    obtain ⟨hr, hst, h0, h3⟩ := k'
    have hc : IsControlees (keyLength .addControleeWithShortSubSessionKey)
        ([1, 0, 0x20, 0, 0, 0, 0] ++ List.replicate 16 0) [⟨[0, 0x20], rfl⟩] :=
      ⟨[(⟨[0, 0x20], rfl⟩, 0, ⟨List.replicate 16 0, rfl⟩)], by decide, by decide, rfl⟩
    refine ⟨_, d, s, Ex.after_reachable nineControlees (by decide +kernel), hd, hr, hs, ⟨.inr hst, h0, h3⟩,
      [1, 0, 0x20, 0, 0, 0, 0] ++ List.replicate 16 0, ⟨[0, 0x20], rfl⟩, hc, fun env => ⟨_, _,
        C30_keys_partial _ env 0 d 7 s _ _ _ hd hr hs ⟨.inr hst, h0, h3⟩ hc ?_ (by decide), ?_⟩⟩
    · rintro (h | ⟨-, h⟩)
      · cases h
      · exact k2 (.inl h)
    · unfold emptied
      rw [if_neg]
      rintro ⟨h, -⟩
      exact k2 (.inr h)
  · exact wrapped

/-! ### Examples -/

/-- Session 7 is ACTIVE and has the controlee 00:b1. -/
def oneControlee : List (Env × Command) :=
  [(Ex.env, .connect), Ex.pkt 0 Ex.reset, Ex.pkt 0 (Ex.sessionInit 7 1), Ex.pkt 0 (Ex.setApp 7 8 Ex.controller), Ex.pkt 0 (Ex.start 7)]

theorem oneControlee_session : ∃ d s, (Ex.after oneControlee).devices.get? 0 = some d ∧ d.isReset = true ∧
    d.sessions.get? 7 = some s ∧ Updatable s ∧ s.state = sessionStateActive ∧
    s.appConfig.dstMacAddress = [.short ⟨[0x00, 0xb1], rfl⟩] ∧ View.of s.appConfig 0x2f = some [1] ∧
    View.of s.appConfig 0x02 ≠ some [4] := by
  obtain ⟨d, s, hd, hs, k⟩ := Ex.find (p := Ex.after oneControlee) (h := 0) (sid := 7) (f := fun d s => decide (d.isReset = true ∧
    s.state = sessionStateActive ∧ View.of s.appConfig 0x00 = some [1] ∧ View.of s.appConfig 0x03 = some [1] ∧
    s.appConfig.dstMacAddress = [.short ⟨[0x00, 0xb1], rfl⟩] ∧ View.of s.appConfig 0x2f = some [1] ∧
    View.of s.appConfig 0x02 ≠ some [4])) (b := true) (by decide +kernel)
  obtain ⟨h1, h2, h3, h4, h5, h6, h7⟩ := of_decide_eq_true k
  exact ⟨d, s, hd, h1, hs, ⟨.inl h2, h3, h4⟩, h2, h5, h6, h7⟩

/-- Of three controlees one is there already and one is named twice. -/
example : ∃ (p : Pica) (d : Device) (s : Session) (payload : Bytes) (addrs : List (Arr 2)),
    p.Reachable ∧ p.devices.get? 0 = some d ∧ d.isReset = true ∧ d.sessions.get? 7 = some s ∧
    Updatable s ∧ IsControlees (keyLength .addControlee) payload addrs ∧ Adds s .addControlee ∧ addrs.length = 4 ∧
    (afterAdd s.appConfig.dstMacAddress addrs).length = 3 := by
  obtain ⟨d, s, hd, hr, hs, hu, -, hl, -⟩ := oneControlee_session
  refine ⟨_, d, s, [4, 0, 0xb1, 0, 0, 0, 0, 0, 0xb2, 0, 0, 0, 0, 0, 0xb3, 0, 0, 0, 0, 0, 0xb2, 0, 0, 0, 0],
    [⟨[0, 0xb1], rfl⟩, ⟨[0, 0xb2], rfl⟩, ⟨[0, 0xb3], rfl⟩, ⟨[0, 0xb2], rfl⟩], Ex.after_reachable oneControlee (by decide +kernel),
    hd, hr, hs, hu, ⟨[(⟨[0, 0xb1], rfl⟩, 0, ⟨[], rfl⟩), (⟨[0, 0xb2], rfl⟩, 0, ⟨[], rfl⟩), (⟨[0, 0xb3], rfl⟩, 0, ⟨[], rfl⟩),
      (⟨[0, 0xb2], rfl⟩, 0, ⟨[], rfl⟩)], by decide, by decide, rfl⟩, .inl rfl, rfl, ?_⟩
  rw [hl]
  decide

/-- An addition with a key while STS_CONFIG is not 4. -/
example : ∃ (p : Pica) (d : Device) (s : Session) (payload : Bytes) (addrs : List (Arr 2)),
    p.Reachable ∧ p.devices.get? 0 = some d ∧ d.isReset = true ∧ d.sessions.get? 7 = some s ∧
    Updatable s ∧ IsControlees (keyLength .addControleeWithShortSubSessionKey) payload addrs ∧
    ¬Adds s .addControleeWithShortSubSessionKey ∧ addrs.length = 1 := by
  obtain ⟨d, s, hd, hr, hs, hu, -, -, -, hk⟩ := oneControlee_session
  refine ⟨_, d, s, [1, 0, 0x20, 0, 0, 0, 0] ++ List.replicate 16 0, [⟨[0, 0x20], rfl⟩], Ex.after_reachable oneControlee (by decide +kernel),
    hd, hr, hs, hu, ⟨[(⟨[0, 0x20], rfl⟩, 0, ⟨List.replicate 16 0, rfl⟩)], by decide, by decide, rfl⟩, ?_, rfl⟩
  rintro (h | ⟨-, h⟩)
  · cases h
  · exact hk h

/-- Two controlees are removed from an ACTIVE session that has one of them. -/
example : ∃ (p : Pica) (d : Device) (s : Session) (payload : Bytes) (addrs : List (Arr 2)) (n : UInt8),
    p.Reachable ∧ p.devices.get? 0 = some d ∧ d.isReset = true ∧ d.sessions.get? 7 = some s ∧
    Updatable s ∧ IsControlees 0 payload addrs ∧ View.of s.appConfig 0x2f = some [n] ∧ n ≠ 0 ∧ s.state = sessionStateActive ∧
    addrs.length = 2 ∧ (succeeded (removeStatuses s.appConfig.dstMacAddress addrs)).length = 1 := by
  obtain ⟨d, s, hd, hr, hs, hu, ha, hl, hn, -⟩ := oneControlee_session
  refine ⟨_, d, s, [2, 0, 0xb2, 0, 0, 0, 0, 0, 0xb1, 0, 0, 0, 0], [⟨[0, 0xb2], rfl⟩, ⟨[0, 0xb1], rfl⟩], 1,
    Ex.after_reachable oneControlee (by decide +kernel), hd, hr, hs, hu,
    ⟨[(⟨[0, 0xb2], rfl⟩, 0, ⟨[], rfl⟩), (⟨[0, 0xb1], rfl⟩, 0, ⟨[], rfl⟩)], by decide, by decide, rfl⟩, hn, by decide, ha, rfl, ?_⟩
  rw [hl]
  decide

/-- No session 8, a session 7 that can be updated, and a list that is too short. -/
example : ∃ (p : Pica) (d : Device) (s : Session) (payload : Bytes),
    p.Reachable ∧ p.devices.get? 0 = some d ∧ d.isReset = true ∧ d.sessions.get? 8 = none ∧
    d.sessions.get? 7 = some s ∧ Updatable s ∧ ∀ addrs, ¬IsControlees (keyLength .removeControlee) payload addrs := by
  obtain ⟨d, s, hd, hr, hs, hu, -⟩ := oneControlee_session
  have h8 : ((Ex.after oneControlee).devices.get? 0).map (fun d => (d.sessions.get? 8).isNone) = some true := by decide +kernel
  rw [hd] at h8
  refine ⟨_, d, s, [1, 0], Ex.after_reachable oneControlee (by decide +kernel), hd, hr, ?_, hs, hu, ?_⟩
  · exact Option.isNone_iff_eq_none.mp (Option.some.inj h8)
  · rintro addrs ⟨l, -, h, -⟩
    have hlen := congrArg List.length h
    cases l with
    | nil => cases hlen
    | cons x l =>
      have h1 := x.1.2
      simp only [many, List.flatMap_cons, List.length_cons, List.length_append, h1] at hlen
      have h2 : (u32le x.2.1).length = 4 := rfl
      simp only [List.length_nil] at hlen
      omega

end Pica.Props
