import Verif.Proofs.Machine
import Verif.Props.Config
import Verif.Props.Multicast
import Verif.Props.Queries
import Verif.Props.Defaults
import Verif.Props.Registry
import Verif.Props.Reset
import Verif.Props.Answers
import Verif.Proofs.SystemExamples
import Verif.Proofs.Delivery
/-! C118: the emulator is, for each of its hosts, a small machine that answers commands. -/

namespace Pica.Props
open Spec SessionState Spec.Machine

/-- What a command was answered by. -/
theorem answered {p p' : Pica} {env : Env} {h : Nat} {bytes : Bytes} {c : Cmd} {out : List Out} {d' d₁ : Device} {r r₁ : Rsp}
    {e₁ : List Effect} (hb : IsCmd bytes c) (hst : p.step env (.uciPacket h bytes) = .ok (p', out))
    (hd' : p'.devices.get? h = some d') (ho : Spec.sentTo h out = [.rsp r]) (ha : Answers p env h c r₁ d₁ e₁) : r = r₁ ∧ d' = d₁ := by
  have := ha bytes hb
  unfold AnswersTo at this
  rw [hst] at this
  cases this
  change AMap.get? (AMap.insert _ _ _) _ = _ at hd'
  rw [AMap.get?_insert_self] at hd'
  have h2 : Spec.sentTo h (.send h (.rsp r₁) :: e₁.map (.effect h)) = [.rsp r₁] := by
    show Spec.sentTo h ([.send h (.rsp r₁)] ++ e₁.map (.effect h)) = _
    rw [sentTo_append, sentTo_send, if_pos rfl, sentTo_map]
    rfl
  rw [h2] at ho
  exact ⟨(by cases ho; rfl), (Option.some.inj hd').symm⟩

theorem blank_of (sid : UInt32) (ty : SessionType) (h : Nat) (st : SessionState) :
    Sess.of (Pica.Props.blank sid ty h st) = Machine.blank ty st := by
  unfold Sess.of Machine.blank
  congr 1
  funext i
  exact C68_values i

theorem withList_of (s : Session) (l : List MacAddress) : Sess.of (withList s l) = (Sess.of s).withPeers l := by
  unfold Sess.of Sess.withPeers
  congr 1
  funext i
  by_cases h5 : i = 0x05
  · subst h5; rfl
  · rw [if_neg h5]
    by_cases h7 : i = 0x07
    · subst h7; rfl
    · rw [if_neg h7]
      show AppConfig.get _ _ = AppConfig.get _ _
      unfold AppConfig.get
      cases ho : Param.ofTag? ⟨i⟩ with
      | none => rfl
      | some p =>
        have hi := Param.ofTag?_eq_some.mp ho
        cases p <;> first
          | rfl
          | exact absurd (congrArg AppConfigTlvType.code hi).symm h5
          | exact absurd (congrArg AppConfigTlvType.code hi).symm h7

theorem say_put {r : Ref} {c : Cmd} {x : Rsp} {d d' : Device} {sid : UInt32} {s s' : Session} (hs : d.sessions.get? sid = some s)
    (hc : d'.config.lowPowerMode = d.config.lowPowerMode) (hd : d'.sessions = d.sessions.insert sid s')
    (h : Says r c x ((Ref.of d).put sid (Sess.of s'))) : Says r c x (Ref.of d') := by
  rw [of_put hs hc hd]; exact h

theorem say_new {r : Ref} {c : Cmd} {x : Rsp} {d d' : Device} {sid : UInt32} {s' : Session} (hs : d.sessions.get? sid = none)
    (hc : d'.config.lowPowerMode = d.config.lowPowerMode) (hd : d'.sessions = d.sessions.insert sid s')
    (h : Says r c x { (Ref.of d).put sid (Sess.of s') with count := (Ref.of d).count + 1 }) : Says r c x (Ref.of d') := by
  rw [of_new hs hc hd]; exact h

/-- The answers of a device are those of the machine. -/
theorem machine_says {p p' : Pica} (hp : p.Reachable) {env : Env} {h : Nat} {bytes : Bytes} {c : Cmd} {out : List Out} {d d' : Device} {r : Rsp}
    {e : List Effect} (hd : p.devices.get? h = some d) (hb : IsCmd bytes c) (hst : p.step env (.uciPacket h bytes) = .ok (p', out))
    (hd' : p'.devices.get? h = some d') (ho : Spec.sentTo h out = [.rsp r]) (hr : Ready d c)
    (hx : d.exec env.tid c = .ok (d', r, e)) : Says (Ref.of d) c r (Ref.of d') := by
  have hi := ((Pica.reachable_inv hp).dev h d hd).2.2.2
  have hres : (∀ rc, c ≠ .coreDeviceReset rc) → d.isReset = true := fun hn => by
    rcases hr with hr | ⟨rc, hr⟩
    · exact hr
    · exact absurd hr (hn rc)
  have key : ∀ {r₁ d₁ e₁}, Answers p env h c r₁ d₁ e₁ → Says (Ref.of d) c r₁ (Ref.of d₁) → Says (Ref.of d) c r (Ref.of d') :=
    fun ha hs => by
      obtain ⟨rfl, rfl⟩ := answered hb hst hd' ho ha
      exact hs
  cases c with
  | coreDeviceReset rc =>
    obtain ⟨e, ha, -⟩ := C26_reset p hp env h d rc hd
    exact key ha (.reset rc)
  | coreGetDeviceInfo =>
    change d.coreGetDeviceInfo = _ at hx
    unfold Device.coreGetDeviceInfo at hx
    split at hx
    · cases hx; exact .info
    · cases hx
  | coreGetCapsInfo => cases hx; exact .caps _ (by decide +kernel)
  | coreSetConfig ps =>
    change d.coreSetConfig ps = _ at hx
    unfold Device.coreSetConfig at hx
    split at hx
    · rename_i hready
      exact key (C49_set p env h d ps hd (hres nofun) hready) (.setConfig ps)
    · cases hx
  | coreGetConfig ids =>
    refine key (C49_get_partial p hp env h d ids hd (hres nofun)) ?_
    split
    · rename_i hids; exact .getConfig ids hids
    · rename_i hids; exact .getConfigBad ids hids
  | sessionInit sid ty =>
    obtain ⟨h1, h2, h3⟩ := C28_partial p hp env h d sid ty hd (hres nofun)
    have hle : d.sessions.length ≤ 255 := hi.bound
    rcases Nat.lt_or_eq_of_le hle with hlt | heq
    · cases hs : d.sessions.get? sid with
      | none =>
        refine key (h2 hlt hs) ?_
        refine say_new hs rfl rfl ?_
        rw [blank_of]
        exact .init sid ty hlt (look_none hs)
      | some s =>
        obtain ⟨e, ha, -⟩ := h3 hlt s hs
        refine key ha ?_
        refine say_put hs rfl rfl ?_
        rw [blank_of]
        exact .initAgain sid ty _ hlt (look_of hs)
    · exact key (h1 heq) (.initFull sid ty heq)
  | sessionDeinit sid =>
    change d.sessionDeinit sid = _ at hx
    unfold Device.sessionDeinit at hx
    cases hs : d.session sid with
    | none => rw [hs] at hx; cases hx; exact .deinitNone sid (look_none hs)
    | some s =>
      rw [hs] at hx
      dsimp only at hx
      have : ∀ d₁ : Device, d₁.config.lowPowerMode = d.config.lowPowerMode → d₁.sessions = d.sessions →
          Says (Ref.of d) (.sessionDeinit sid) (.sessionDeinit .ok) (Ref.of { d₁ with sessions := d₁.sessions.erase sid }) := by
        intro d₁ h1 h2
        rw [of_erase (d' := { d₁ with sessions := d₁.sessions.erase sid }) hi.nodup hs h1 (by rw [h2])]
        exact .deinit sid _ (look_of hs)
      split at hx
      · unfold Device.releaseActive at hx
        split at hx
        · cases hx
        · dsimp only [bind, Except.bind] at hx
          split at hx
          · rw [Device.setState_eq] at hx; cases hx; exact this _ rfl rfl
          · cases hx; exact this _ rfl rfl
      · cases hx; exact this _ rfl rfl
  | sessionGetCount =>
    obtain ⟨n, hn, ha⟩ := C18_count p hp env h d hd (hres nofun)
    exact key ha (.count n hn)
  | sessionSetAppConfig sid tlvs =>
    cases hs : d.sessions.get? sid with
    | none => exact key ((C22_gates p env h d sid tlvs hd (hres nofun)).1 hs) (.setNone sid tlvs (look_none hs))
    | some s =>
      by_cases hf : Fira s.sessionType
      · by_cases ho : Open (Sess.of s) tlvs
        · have hc : Configurable s tlvs := ho
          have hx' := hx
          rw [setApp_eq hs hc] at hx'
          cases hl : Device.setAppConfigLoop s.appConfig tlvs with
          | error x => rw [hl] at hx'; cases hx'
          | ok y =>
            obtain ⟨c', inv⟩ := y
            obtain ⟨bad, ha, rfl⟩ := loop_ok hl
            by_cases hw : Complete (View.of c')
            · by_cases hbad : bad = []
              · subst hbad
                rw [hl] at hx'
                have hm : Device.hasMandatory c' = true := (hasMandatory_iff c').mpr hw
                simp only [bind, Except.bind, hm, Bool.not_true, Bool.false_eq_true, if_false, List.map_nil, List.isEmpty_nil,
                  if_true] at hx'
                have hfin := Says.set (r := Ref.of d) sid tlvs (Sess.of s) (View.of c') c'.dstMacAddress (look_of hs) ho ha hw
                  (loop_peers hl)
                by_cases hst : s.state = sessionStateInit
                · simp only [hst, if_true, Session.setState] at hx'
                  rw [if_neg (by decide)] at hx'
                  cases hx'
                  refine say_put hs rfl rfl ?_
                  rw [show (Sess.of s).phase = sessionStateInit from hst] at hfin
                  exact hfin
                · simp only [hst, if_false] at hx'
                  cases hx'
                  refine say_put hs rfl rfl ?_
                  rw [if_neg (show ¬(Sess.of s).phase = sessionStateInit from hst)] at hfin
                  exact hfin
              · exact key (C21_refused p env h d sid s tlvs _ bad hd (hres nofun) hs hc ha hbad hw)
                  (.setBad sid tlvs _ _ bad (look_of hs) ho ha hbad hw)
            · exact key (C22_incomplete p env h d sid s tlvs _ bad hd (hres nofun) hs hc ha hw)
                (.setIncomplete sid tlvs _ _ bad (look_of hs) ho ha hw)
        · by_cases hact : s.state = sessionStateActive
          · have haoa : ∃ t ∈ tlvs, t.cfgId.code = 0x0d := by
              by_contra hn
              exact ho ⟨hf, .inr ⟨hact, fun t ht he => hn ⟨t, ht, he⟩⟩⟩
            exact key (((C22_gates p env h d sid tlvs hd (hres nofun)).2 s hs hf).2 hact haoa)
              (.setActive sid tlvs _ (look_of hs) hf hact haoa)
          · have hini : s.state ≠ sessionStateInit := fun hini => ho ⟨hf, .inl hini⟩
            change d.sessionSetAppConfig sid tlvs = _ at hx
            unfold Device.sessionSetAppConfig at hx
            rw [show d.session sid = some s from hs] at hx
            dsimp only at hx
            rw [if_neg (fira_not hf), if_neg (fun hh => hact hh.1), if_pos ⟨hini, hact⟩] at hx
            cases hx
            exact .setRejected sid tlvs _ (look_of hs) hf hini hact
      · change d.sessionSetAppConfig sid tlvs = _ at hx
        unfold Device.sessionSetAppConfig at hx
        rw [show d.session sid = some s from hs] at hx
        dsimp only at hx
        rw [if_pos ⟨fun h => hf (.inl h), fun h => hf (.inr h)⟩] at hx
        cases hx
  | sessionGetAppConfig sid ids =>
    cases hs : d.sessions.get? sid with
    | none => exact key (C67_unknown p env h d sid ids hd (hres nofun) hs) (.getNone sid ids (look_none hs))
    | some s =>
      by_cases hn : ∃ i ∈ ids, View.of s.appConfig i.code = none
      · exact key (C67_failed p env h d sid ids s hd (hres nofun) hs hn) (.getFailed sid ids _ (look_of hs) hn)
      · by_cases hl : ∃ i ∈ ids, ∃ v, View.of s.appConfig i.code = some v ∧ 255 < v.length
        · obtain ⟨x, hh⟩ := C67_long p env h d sid ids s hp hd (hres nofun) hs (fun i hi he => hn ⟨i, hi, he⟩) hl bytes hb
          rw [hst] at hh; cases hh
        · obtain ⟨l, hl, ha⟩ := C67_values p env h d sid ids s hd (hres nofun) hs (fun i hi => by
            cases hv : View.of s.appConfig i.code with
            | none => exact absurd ⟨i, hi, hv⟩ hn
            | some v => exact ⟨v, rfl, Nat.le_of_not_lt fun hlt => hl ⟨i, hi, v, hv, hlt⟩⟩)
          exact key ha (.get sid ids _ l (look_of hs) hl)
  | sessionGetState sid =>
    cases hs : d.session sid with
    | none =>
      simp only [Device.exec, Device.sessionGetState, hs] at hx
      cases hx; exact .stateNone sid (look_none hs)
    | some s =>
      simp only [Device.exec, Device.sessionGetState, hs] at hx
      cases hx; exact .state sid _ (look_of hs)
  | sessionUpdateMulticast sid a q =>
    obtain ⟨h1, h2⟩ := C30_refused p env h d sid a q hd (hres nofun)
    cases hs : d.sessions.get? sid with
    | none => exact key (h1 hs) (.updateNone sid a q (look_none hs))
    | some s =>
      by_cases hu : Spec.Updatable s
      · by_cases hc : ∃ addrs, IsControlees (keyLength a) q addrs
        · obtain ⟨addrs, hc⟩ := hc
          by_cases ha : Adds s a
          · refine key (C30_add_partial p env h d sid s a q addrs hd (hres nofun) hs hu hc ha) ?_
            refine say_put hs rfl rfl ?_
            rw [withList_of]
            exact .add sid a q _ addrs (look_of hs) hu hc ha
          · by_cases hrem : a = .removeControlee
            · subst hrem
              refine key (C32_remove p env h d sid s q addrs s.appConfig.inBandTerminationAttemptCount hd (hres nofun) hs hu hc rfl) ?_
              refine say_put hs rfl rfl ?_
              rw [withList_of]
              exact .remove sid q _ addrs (look_of hs) hu hc
            · refine key (C30_keys_partial p env h d sid s a q addrs hd (hres nofun) hs hu hc ha hrem) ?_
              refine say_put hs rfl rfl ?_
              rw [withList_of]
              exact .keys sid a q _ addrs (look_of hs) hu hc ha hrem
        · exact key ((h2 s hs).2 hu fun addrs hh => hc ⟨addrs, hh⟩)
            (.updateSyntax sid a q _ (look_of hs) hu fun addrs hh => hc ⟨addrs, hh⟩)
      · exact key ((h2 s hs).1 hu) (.updateRejected sid a q _ (look_of hs) hu)
  | sessionStart sid =>
    obtain ⟨h1, h2⟩ := C29_start_partial p hp env h d sid hd (hres nofun)
    cases hs : d.sessions.get? sid with
    | none => exact key (h1 hs) (.startNone sid (look_none hs))
    | some s =>
      obtain ⟨h3, h4, h5⟩ := h2 s hs
      by_cases hidle : s.state = sessionStateIdle
      · by_cases ht : s.rangingTask = none
        · obtain ⟨dur, -, ha⟩ := h4 hidle ht
          refine key ha ?_
          refine say_put hs rfl rfl ?_
          exact .start sid _ (look_of hs) hidle
        · have := h5 hidle ht bytes hb
          rw [hst] at this; cases this
      · exact key (h3 hidle) (.startRefused sid _ (look_of hs) hidle)
  | sessionStop sid =>
    obtain ⟨h1, h2⟩ := C29_stop p hp env h d sid hd (hres nofun)
    cases hs : d.sessions.get? sid with
    | none => exact key (h1 hs) (.stopNone sid (look_none hs))
    | some s =>
      obtain ⟨h3, h4⟩ := h2 s hs
      by_cases hact : s.state = sessionStateActive
      · obtain ⟨t, -, ha⟩ := h4 hact
        refine key ha ?_
        refine say_put hs rfl rfl ?_
        exact .stop sid _ (look_of hs) hact
      · exact key (h3 hact) (.stopRefused sid _ (look_of hs) hact)
  | sessionGetRangingCount sid =>
    cases hs : d.session sid with
    | none =>
      simp only [Device.exec, Device.sessionGetRangingCount, hs] at hx
      cases hx; exact .roundsNone sid (look_none hs)
    | some s =>
      simp only [Device.exec, Device.sessionGetRangingCount, hs] at hx
      cases hx; exact .rounds sid _ (look_of hs)
  | androidGetPowerStats => cases hx; exact .power
  | androidSetCountryCode cc => cases hx; exact .country cc


/-! ### The answers are determined -/

theorem controlees_unique {a : UpdateMulticastListAction} {q : Bytes} {l l' : List (Arr 2)} (h : IsControlees (keyLength a) q l)
    (h' : IsControlees (keyLength a) q l') : l = l' :=
  Option.some.inj (((parseControlees_iff a q l).mpr h).symm.trans ((parseControlees_iff a q l').mpr h'))

theorem caps_unique {l l' : List CapTlv} (h : l.map (fun t => (t.t.code, t.v)) = l'.map (fun t => (t.t.code, t.v))) : l = l' := by
  refine List.map_injective_iff.mpr ?_ h
  rintro ⟨⟨a⟩, b⟩ ⟨⟨c⟩, d⟩ he
  cases he
  rfl

theorem tlvs_unique {l l' : List AppConfigTlv}
    (h : l.map (fun t => (t.cfgId, some t.v)) = l'.map (fun t => (t.cfgId, some t.v))) : l = l' := by
  refine List.map_injective_iff.mpr ?_ h
  rintro ⟨a, b⟩ ⟨c, d⟩ he
  cases he
  rfl

theorem remove_adds {s : Sess} : ¬s.Adds .removeControlee := by
  rintro (h | ⟨h | h, -⟩) <;> cases h

theorem failed_get {s : Sess} {ids : List AppConfigTlvType} {l : List AppConfigTlv} (hn : ∃ i ∈ ids, s.view i.code = none)
    (hl : l.map (fun t => (t.cfgId, some t.v)) = ids.map (fun i => (i, s.view i.code))) : False := by
  obtain ⟨i, hi, hv⟩ := hn
  have : (i, s.view i.code) ∈ ids.map (fun i => (i, s.view i.code)) := List.mem_map_of_mem hi
  rw [← hl] at this
  obtain ⟨t, -, he⟩ := List.mem_map.mp this
  rw [hv] at he
  cases he

theorem closed {s : Sess} {tlvs : List AppConfigTlv} (h : Open s tlvs) :
    ¬(s.phase = sessionStateActive ∧ ∃ t ∈ tlvs, t.cfgId.code = 0x0d) ∧
    ¬(s.phase ≠ sessionStateInit ∧ s.phase ≠ sessionStateActive) := by
  obtain ⟨-, h | ⟨h, ha⟩⟩ := h
  · exact ⟨fun hh => (by rw [h] at hh; exact absurd hh.1 (by decide)), fun hh => hh.1 h⟩
  · exact ⟨fun hh => by obtain ⟨t, ht, he⟩ := hh.2; exact ha t ht he, fun hh => hh.2 h⟩

/-- C118: the machine has at most one answer to a command, and is one machine afterwards. -/
theorem C118_unique (r r₁ r₂ : Ref) (c : Cmd) (x y : Rsp) (h : Says r c x r₁) (h' : Says r c y r₂) : x = y ∧ r₁ = r₂ := by
  have lk : ∀ {sid s s'}, r.look sid = some s → r.look sid = some s' → s = s' := fun a b => Option.some.inj (a.symm.trans b)
  cases h with
  | reset => cases h'; exact ⟨rfl, rfl⟩
  | info => cases h'; exact ⟨rfl, rfl⟩
  | caps l hl => cases h' with | caps l' hl' => cases caps_unique (hl.trans hl'.symm); exact ⟨rfl, rfl⟩
  | setConfig => cases h'; exact ⟨rfl, rfl⟩
  | getConfig ids hi =>
    cases h' with
    | getConfig => exact ⟨rfl, rfl⟩
    | getConfigBad _ hn => exact absurd hi hn
  | getConfigBad ids hn =>
    cases h' with
    | getConfig _ hi => exact absurd hi hn
    | getConfigBad => exact ⟨rfl, rfl⟩
  | initFull sid ty hc =>
    cases h' with
    | initFull => exact ⟨rfl, rfl⟩
    | init _ _ h1 => omega
    | initAgain _ _ _ h1 => omega
  | init sid ty hc hl =>
    cases h' with
    | initFull _ _ h1 => omega
    | init => exact ⟨rfl, rfl⟩
    | initAgain _ _ _ _ h1 => rw [hl] at h1; cases h1
  | initAgain sid ty s hc hl =>
    cases h' with
    | initFull _ _ h1 => omega
    | init _ _ _ h1 => rw [hl] at h1; cases h1
    | initAgain => exact ⟨rfl, rfl⟩
  | deinitNone sid hl =>
    cases h' with
    | deinitNone => exact ⟨rfl, rfl⟩
    | deinit _ _ h1 => rw [hl] at h1; cases h1
  | deinit sid s hl =>
    cases h' with
    | deinitNone _ h1 => rw [hl] at h1; cases h1
    | deinit => exact ⟨rfl, rfl⟩
  | count n hn => cases h' with | count m hm => cases UInt8.toNat_inj.mp (hn.trans hm.symm); exact ⟨rfl, rfl⟩
  | setNone sid tlvs hl =>
    cases h' with
    | setNone => exact ⟨rfl, rfl⟩
    | setActive _ _ _ h1 => rw [hl] at h1; cases h1
    | setRejected _ _ _ h1 => rw [hl] at h1; cases h1
    | setIncomplete _ _ _ _ _ h1 => rw [hl] at h1; cases h1
    | setBad _ _ _ _ _ h1 => rw [hl] at h1; cases h1
    | set _ _ _ _ _ h1 => rw [hl] at h1; cases h1
  | setActive sid tlvs s hl hf ha ht =>
    cases h' with
    | setNone _ _ h1 => rw [hl] at h1; cases h1
    | setActive => exact ⟨rfl, rfl⟩
    | setRejected _ _ _ h1 _ _ h2 => cases lk hl h1; exact absurd ha h2
    | setIncomplete _ _ _ _ _ h1 h2 => cases lk hl h1; exact absurd ⟨ha, ht⟩ (closed h2).1
    | setBad _ _ _ _ _ h1 h2 => cases lk hl h1; exact absurd ⟨ha, ht⟩ (closed h2).1
    | set _ _ _ _ _ h1 h2 => cases lk hl h1; exact absurd ⟨ha, ht⟩ (closed h2).1
  | setRejected sid tlvs s hl hf hi ha =>
    cases h' with
    | setNone _ _ h1 => rw [hl] at h1; cases h1
    | setActive _ _ _ h1 _ h2 => cases lk hl h1; exact absurd h2 ha
    | setRejected => exact ⟨rfl, rfl⟩
    | setIncomplete => exact ⟨rfl, rfl⟩
    | setBad _ _ _ _ _ h1 h2 => cases lk hl h1; exact absurd ⟨hi, ha⟩ (closed h2).2
    | set _ _ _ _ _ h1 h2 => cases lk hl h1; exact absurd ⟨hi, ha⟩ (closed h2).2
  | setIncomplete sid tlvs s w bad hl ho ha hw =>
    cases h' with
    | setNone _ _ h1 => rw [hl] at h1; cases h1
    | setActive _ _ _ h1 _ h2 h3 => cases lk hl h1; exact absurd ⟨h2, h3⟩ (closed ho).1
    | setRejected => exact ⟨rfl, rfl⟩
    | setIncomplete => exact ⟨rfl, rfl⟩
    | setBad _ _ _ _ _ h1 _ h2 _ h3 => cases lk hl h1; cases (ha.unique h2).1; exact absurd h3 hw
    | set _ _ _ _ _ h1 _ h2 h3 => cases lk hl h1; cases (ha.unique h2).1; exact absurd h3 hw
  | setBad sid tlvs s w bad hl ho ha hb hw =>
    cases h' with
    | setNone _ _ h1 => rw [hl] at h1; cases h1
    | setActive _ _ _ h1 _ h2 h3 => cases lk hl h1; exact absurd ⟨h2, h3⟩ (closed ho).1
    | setRejected _ _ _ h1 _ h2 h3 => cases lk hl h1; exact absurd ⟨h2, h3⟩ (closed ho).2
    | setIncomplete _ _ _ _ _ h1 _ h2 h3 => cases lk hl h1; cases (ha.unique h2).1; exact absurd hw h3
    | setBad _ _ _ _ _ h1 _ h2 => cases lk hl h1; cases (ha.unique h2).2; exact ⟨rfl, rfl⟩
    | set _ _ _ _ _ h1 _ h2 => cases lk hl h1; exact absurd (ha.unique h2).2 hb
  | set sid tlvs s w l hl ho ha hw hp =>
    cases h' with
    | setNone _ _ h1 => rw [hl] at h1; cases h1
    | setActive _ _ _ h1 _ h2 h3 => cases lk hl h1; exact absurd ⟨h2, h3⟩ (closed ho).1
    | setRejected _ _ _ h1 _ h2 h3 => cases lk hl h1; exact absurd ⟨h2, h3⟩ (closed ho).2
    | setIncomplete _ _ _ _ _ h1 _ h2 h3 => cases lk hl h1; cases (ha.unique h2).1; exact absurd hw h3
    | setBad _ _ _ _ _ h1 _ h2 h3 => cases lk hl h1; exact absurd (ha.unique h2).2.symm h3
    | set _ _ _ _ _ h1 _ h2 _ h3 =>
      cases lk hl h1
      cases (ha.unique h2).1
      cases peers_unique hp h3
      exact ⟨rfl, rfl⟩
  | getNone sid ids hl =>
    cases h' with
    | getNone => exact ⟨rfl, rfl⟩
    | getFailed _ _ _ h1 => rw [hl] at h1; cases h1
    | get _ _ _ _ h1 => rw [hl] at h1; cases h1
  | getFailed sid ids s hl hn =>
    cases h' with
    | getNone _ _ h1 => rw [hl] at h1; cases h1
    | getFailed => exact ⟨rfl, rfl⟩
    | get _ _ _ _ h1 h2 => cases lk hl h1; exact (failed_get hn h2).elim
  | get sid ids s l hl hm =>
    cases h' with
    | getNone _ _ h1 => rw [hl] at h1; cases h1
    | getFailed _ _ _ h1 h2 => cases lk hl h1; exact (failed_get h2 hm).elim
    | get _ _ _ _ h1 h2 => cases lk hl h1; cases tlvs_unique (hm.trans h2.symm); exact ⟨rfl, rfl⟩
  | stateNone sid hl =>
    cases h' with
    | stateNone => exact ⟨rfl, rfl⟩
    | state _ _ h1 => rw [hl] at h1; cases h1
  | state sid s hl =>
    cases h' with
    | stateNone _ h1 => rw [hl] at h1; cases h1
    | state _ _ h1 => cases lk hl h1; exact ⟨rfl, rfl⟩
  | updateNone sid a q hl =>
    cases h' with
    | updateNone => exact ⟨rfl, rfl⟩
    | updateRejected _ _ _ _ h1 => rw [hl] at h1; cases h1
    | updateSyntax _ _ _ _ h1 => rw [hl] at h1; cases h1
    | add _ _ _ _ _ h1 => rw [hl] at h1; cases h1
    | keys _ _ _ _ _ h1 => rw [hl] at h1; cases h1
    | remove _ _ _ _ h1 => rw [hl] at h1; cases h1
  | updateRejected sid a q s hl hu =>
    cases h' with
    | updateNone _ _ _ h1 => rw [hl] at h1; cases h1
    | updateRejected => exact ⟨rfl, rfl⟩
    | updateSyntax _ _ _ _ h1 h2 => cases lk hl h1; exact absurd h2 hu
    | add _ _ _ _ _ h1 h2 => cases lk hl h1; exact absurd h2 hu
    | keys _ _ _ _ _ h1 h2 => cases lk hl h1; exact absurd h2 hu
    | remove _ _ _ _ h1 h2 => cases lk hl h1; exact absurd h2 hu
  | updateSyntax sid a q s hl hu hn =>
    cases h' with
    | updateNone _ _ _ h1 => rw [hl] at h1; cases h1
    | updateRejected _ _ _ _ h1 h2 => cases lk hl h1; exact absurd hu h2
    | updateSyntax => exact ⟨rfl, rfl⟩
    | add _ _ _ _ _ _ _ h2 => exact absurd h2 (hn _)
    | keys _ _ _ _ _ _ _ h2 => exact absurd h2 (hn _)
    | remove _ _ _ _ _ _ h2 => exact absurd h2 (hn _)
  | add sid a q s addrs hl hu hc ha =>
    cases h' with
    | updateNone _ _ _ h1 => rw [hl] at h1; cases h1
    | updateRejected _ _ _ _ h1 h2 => cases lk hl h1; exact absurd hu h2
    | updateSyntax _ _ _ _ _ _ h2 => exact absurd hc (h2 _)
    | add _ _ _ _ _ h1 _ h2 => cases lk hl h1; cases controlees_unique hc h2; exact ⟨rfl, rfl⟩
    | keys _ _ _ _ _ h1 _ _ h2 => cases lk hl h1; exact absurd ha h2
    | remove => exact absurd ha remove_adds
  | keys sid a q s addrs hl hu hc ha hk =>
    cases h' with
    | updateNone _ _ _ h1 => rw [hl] at h1; cases h1
    | updateRejected _ _ _ _ h1 h2 => cases lk hl h1; exact absurd hu h2
    | updateSyntax _ _ _ _ _ _ h2 => exact absurd hc (h2 _)
    | add _ _ _ _ _ h1 _ _ h2 => cases lk hl h1; exact absurd h2 ha
    | keys _ _ _ _ _ h1 _ h2 => cases lk hl h1; cases controlees_unique hc h2; exact ⟨rfl, rfl⟩
    | remove => exact absurd rfl hk
  | remove sid q s addrs hl hu hc =>
    cases h' with
    | updateNone _ _ _ h1 => rw [hl] at h1; cases h1
    | updateRejected _ _ _ _ h1 h2 => cases lk hl h1; exact absurd hu h2
    | updateSyntax _ _ _ _ _ _ h2 => exact absurd hc (h2 _)
    | add _ _ _ _ _ _ _ _ h2 => exact absurd h2 remove_adds
    | keys _ _ _ _ _ _ _ _ _ h2 => exact absurd rfl h2
    | remove _ _ _ _ h1 _ h2 =>
      cases lk hl h1
      cases controlees_unique (a := .removeControlee) hc h2
      exact ⟨rfl, rfl⟩
  | startNone sid hl =>
    cases h' with
    | startNone => exact ⟨rfl, rfl⟩
    | startRefused _ _ h1 => rw [hl] at h1; cases h1
    | start _ _ h1 => rw [hl] at h1; cases h1
  | startRefused sid s hl hi =>
    cases h' with
    | startNone _ h1 => rw [hl] at h1; cases h1
    | startRefused => exact ⟨rfl, rfl⟩
    | start _ _ h1 h2 => cases lk hl h1; exact absurd h2 hi
  | start sid s hl hi =>
    cases h' with
    | startNone _ h1 => rw [hl] at h1; cases h1
    | startRefused _ _ h1 h2 => cases lk hl h1; exact absurd hi h2
    | start _ _ h1 => cases lk hl h1; exact ⟨rfl, rfl⟩
  | stopNone sid hl =>
    cases h' with
    | stopNone => exact ⟨rfl, rfl⟩
    | stopRefused _ _ h1 => rw [hl] at h1; cases h1
    | stop _ _ h1 => rw [hl] at h1; cases h1
  | stopRefused sid s hl hi =>
    cases h' with
    | stopNone _ h1 => rw [hl] at h1; cases h1
    | stopRefused => exact ⟨rfl, rfl⟩
    | stop _ _ h1 h2 => cases lk hl h1; exact absurd h2 hi
  | stop sid s hl hi =>
    cases h' with
    | stopNone _ h1 => rw [hl] at h1; cases h1
    | stopRefused _ _ h1 h2 => cases lk hl h1; exact absurd hi h2
    | stop _ _ h1 => cases lk hl h1; exact ⟨rfl, rfl⟩
  | roundsNone sid hl =>
    cases h' with
    | roundsNone => exact ⟨rfl, rfl⟩
    | rounds _ _ h1 => rw [hl] at h1; cases h1
  | rounds sid s hl =>
    cases h' with
    | roundsNone _ h1 => rw [hl] at h1; cases h1
    | rounds _ _ h1 => cases lk hl h1; exact ⟨rfl, rfl⟩
  | power => cases h'; exact ⟨rfl, rfl⟩
  | country => cases h'; exact ⟨rfl, rfl⟩

/-! ### Steps and histories -/

theorem mem_sentOut {h : Nat} {x : Packet} {out : List Out} : x ∈ Spec.sentTo h out ↔ .send h x ∈ out := by
  unfold Spec.sentTo
  rw [List.mem_filterMap]
  constructor
  · rintro ⟨o, ho, he⟩
    cases o <;> try cases he
    rename_i k y
    dsimp only at he
    split at he
    · rename_i hk; cases he; rw [← hk]; exact ho
    · cases he
  · intro ho
    exact ⟨_, ho, if_pos rfl⟩

/-- What a packet of a host does. -/
theorem packet_step {p p' : Pica} (hp : p.Reachable) {env : Env} {h : Nat} {bytes : Bytes} {out : List Out} {d : Device}
    (hd : p.devices.get? h = some d) (hst : p.step env (.uciPacket h bytes) = .ok (p', out)) :
    ∃ d', p'.devices.get? h = some d' ∧
      ((∃ c x, IsCmd bytes c ∧ Ready d c ∧ Spec.sentTo h out = [.rsp x] ∧ Says (Ref.of d) c x (Ref.of d')) ∨
       Ref.of d' = Ref.of d ∧ ∀ x, .rsp x ∉ Spec.sentTo h out) := by
  have hst' := hst
  change p.uciPacket env h bytes = _ at hst'
  unfold Pica.uciPacket at hst'
  rw [hd] at hst'
  dsimp only at hst'
  cases hx : d.receivePacket env.tid bytes with
  | error y => rw [hx] at hst'; cases hst'
  | ok y =>
    obtain ⟨d', o, e⟩ := y
    rw [hx] at hst'
    obtain ⟨e1, e2⟩ := Prod.mk.inj (Except.ok.inj hst')
    have hd' : p'.devices.get? h = some d' := by
      rw [← e1]
      exact AMap.get?_insert_self ..
    have ho : Spec.sentTo h out = o.toList := by
      rw [← e2]
      show Spec.sentTo h ((o.map (.send h)).toList ++ e.map (.effect h)) = _
      rw [sentTo_append, sentTo_map, List.append_nil]
      cases o with
      | none => rfl
      | some x => show Spec.sentTo h [.send h x] = [x]; rw [sentTo_send, if_pos rfl]
    refine ⟨d', hd', ?_⟩
    rcases of_receive hx with ⟨c, r, hc, hr, hxe, rfl⟩ | ⟨h1, h2⟩
    · exact .inl ⟨c, r, hc, hr, ho, machine_says hp hd hc hst hd' ho hr hxe⟩
    · refine .inr ⟨h1, fun x hx => ?_⟩
      rw [ho] at hx
      cases o with
      | none => cases hx
      | some y => cases List.mem_singleton.mp hx; exact h2 x rfl

/-- C118: a command that is answered by a response is answered by that of the machine, and the device is the machine
afterwards. -/
theorem C118_answer (p p' : Pica) (hp : p.Reachable) (env : Env) (h : Nat) (bytes : Bytes) (c : Cmd) (out : List Out) (d : Device)
    (hd : p.devices.get? h = some d) (hc : IsCmd bytes c) (hr : d.isReset = true ∨ ∃ rc, c = .coreDeviceReset rc)
    (hst : p.step env (.uciPacket h bytes) = .ok (p', out)) :
    ∃ d' x, p'.devices.get? h = some d' ∧ Spec.sentTo h out = [.rsp x] ∧ Says (Ref.of d) c x (Ref.of d') := by
  obtain ⟨d', hd', ⟨c', x, hc', -, ho, hs⟩ | ⟨h1, h2⟩⟩ := packet_step hp hd hst
  · cases isCmd_unique hc hc'
    exact ⟨d', x, hd', ho, hs⟩
  · exfalso
    have hst' := hst
    change p.uciPacket env h bytes = _ at hst'
    unfold Pica.uciPacket at hst'
    rw [hd] at hst'
    dsimp only at hst'
    rw [receive_cmd hr hc] at hst'
    cases hx : d.exec env.tid c with
    | error y => rw [hx] at hst'; cases hst'
    | ok y =>
      obtain ⟨d₁, r₁, e₁⟩ := y
      rw [hx] at hst'
      simp only [finish, Device.sending] at hst'
      split at hst'
      · cases hst'
        exact h2 r₁ (mem_sentOut.mpr (List.mem_append_left _ (List.mem_singleton.mpr rfl)))
      · cases hst'

/-- C118: any other packet of a host, and what other hosts and the tasks of the emulator do, leaves the machine as it is or
lets it drift, and brings no response. -/
theorem C118_other (p p' : Pica) (hp : p.Reachable) (env : Env) (cmd : Command) (h : Nat) (out : List Out) (d d' : Device)
    (hd : p.devices.get? h = some d) (hd' : p'.devices.get? h = some d')
    (hn : ∀ bytes c, cmd = .uciPacket h bytes → IsCmd bytes c → d.isReset = false ∧ ∀ rc, c ≠ .coreDeviceReset rc)
    (hst : p.step env cmd = .ok (p', out)) :
    (Ref.of d' = Ref.of d ∨ (∀ bytes, cmd ≠ .uciPacket h bytes) ∧ Drifts (Ref.of d) (Ref.of d')) ∧
      ∀ x, .rsp x ∉ Spec.sentTo h out := by
  have hi := Pica.reachable_inv hp
  have same : p'.devices.get? h = p.devices.get? h → Ref.of d' = Ref.of d := fun he => by
    rw [hd, hd'] at he
    rw [Option.some.inj he]
  cases cmd with
  | connect =>
    cases hst
    have hlt := (hi.dev h d hd).2.1
    refine ⟨.inl (same ?_), fun x hx => ?_⟩
    · exact AMap.get?_insert_of_ne (by omega)
    · have := mem_sentOut.mp hx
      simp at this
  | disconnect k =>
    have hst := Except.ok.inj hst
    unfold Pica.disconnect at hst
    cases hk : p.devices.get? k with
    | none =>
      rw [hk] at hst; cases hst
      exact ⟨.inl (same rfl), fun x hx => by cases hx⟩
    | some dk =>
      rw [hk] at hst
      cases hst
      have hne : h ≠ k := by
        rintro rfl
        change AMap.get? (AMap.erase _ _) _ = _ at hd'
        rw [AMap.get?_erase, if_pos rfl] at hd'
        cases hd'
      refine ⟨.inl (same (AMap.get?_erase_of_ne hne)), fun x hx => ?_⟩
      have := mem_sentOut.mp hx
      simp at this
  | ranging k sid =>
    obtain ⟨dk, s, ms, ms', ts, o₁, hdk, hs, -, -, ho, hc⟩ := Pica.ranging_ok hst
    have hq : ∀ x, Out.send h (.rsp x) ∉ o₁ := fun x hx => by
      obtain ⟨_, _, he, -⟩ := fit_dataSends ho _ hx
      cases he
    rcases hc with ⟨hen, -, rfl, hlt, rfl⟩ | ⟨-, rfl, rfl⟩
    · refine ⟨?_, fun x hx => ?_⟩
      · by_cases hk : h = k
        · subst hk
          rw [hd] at hdk
          cases hdk
          change AMap.get? (AMap.insert _ _ _) _ = _ at hd'
          rw [AMap.get?_insert_self] at hd'
          cases hd'
          refine .inr ⟨nofun, ?_⟩
          rw [of_put (d' := d.putSession sid _) hs rfl rfl]
          refine .round sid (Sess.of s) (look_of hs) ?_ hlt
          intro h0
          have h0 : some [s.appConfig.sessionInfoNtfConfig.code] = some [0] := h0
          unfold Session.isSessionInfoNtfEnabled at hen
          revert hen h0
          cases s.appConfig.sessionInfoNtfConfig <;> decide
        · exact .inl (same (AMap.get?_insert_of_ne hk))
      · rcases List.mem_append.mp (mem_sentOut.mp hx) with hx | hx
        · exact hq x hx
        · cases List.mem_singleton.mp hx
    · refine ⟨?_, fun x hx => hq x (mem_sentOut.mp hx)⟩
      by_cases hk : h = k
      · subst hk
        rw [hd] at hdk
        cases hdk
        change AMap.get? (AMap.insert _ _ _) _ = _ at hd'
        rw [AMap.get?_insert_self] at hd'
        cases hd'
        exact .inl (of_hidden (d' := d.putSession sid _) (s' := { s with data := [] }) hs rfl rfl rfl)
      · exact .inl (same (AMap.get?_insert_of_ne hk))
  | stopRanging mac sid =>
    cases hst
    have hm : d' = (d.stopInBand mac sid).1 := by
      have h1 : AMap.get? (p.devices.map (fun e => (e.1, (e.2.stopInBand mac sid).1))) h = some d' := hd'
      rw [Pica.get?_map_values p.devices (fun d => (d.stopInBand mac sid).1), hd] at h1
      exact (Option.some.inj h1).symm
    refine ⟨?_, fun x hx => ?_⟩
    · rw [hm]
      rcases of_stop d mac sid with h1 | h1
      · exact .inl h1
      · exact .inr ⟨nofun, h1⟩
    · have := mem_sentOut.mp hx
      simp at this
  | uciPacket k bytes =>
    by_cases hk : k = h
    · subst hk
      obtain ⟨d₁, hd₁, ⟨c, x, hc, hr, -⟩ | h1⟩ := packet_step hp hd hst
      · exfalso
        obtain ⟨h1, h2⟩ := hn bytes c rfl hc
        rcases hr with hr | ⟨rc, hr⟩
        · rw [h1] at hr; cases hr
        · exact h2 rc hr
      · rw [hd'] at hd₁
        cases hd₁
        exact ⟨.inl h1.1, h1.2⟩
    · obtain ⟨-, -, h1, -, -, h2⟩ := C24_devices_independent p p' env k bytes out hst
      refine ⟨.inl (same (h1 h (Ne.symm hk))), fun x hx => ?_⟩
      rcases h2 _ (mem_sentOut.mp hx) with ⟨r, he⟩ | ⟨e, he⟩
      · exact hk (Out.send.inj he).1.symm
      · cases he
  | createAnchor mac =>
    change p.createAnchor mac = _ at hst
    unfold Pica.createAnchor at hst
    split at hst
    · cases hst
      exact ⟨.inl (same rfl), fun x hx => by simpa using mem_sentOut.mp hx⟩
    · split at hst
      · cases hst
      · cases hst
        exact ⟨.inl (same rfl), fun x hx => by simpa using mem_sentOut.mp hx⟩
  | destroyAnchor mac =>
    have hst := Except.ok.inj hst
    unfold Pica.destroyAnchor at hst
    split at hst <;> cases hst
    · exact ⟨.inl (same rfl), fun x hx => by simpa using mem_sentOut.mp hx⟩
    · exact ⟨.inl (same rfl), fun x hx => by simpa using mem_sentOut.mp hx⟩

theorem of_initial (h : Nat) (mac : MacAddress) : Ref.of (Device.new h mac).init.1 = Ref.fresh := by
  rw [Device.init, Device.setState_eq]
  rfl

theorem silent {p p' : Pica} {env : Env} {c : Command} {out : List Out} (hst : p.step env c = .ok (p', out)) {h : Nat}
    (hd : p.devices.get? h = none) : ∀ x, .rsp x ∉ Spec.sentTo h out := by
  intro x hx
  have hx := mem_sentOut.mp hx
  cases c with
  | connect => cases hst; simp at hx
  | disconnect k =>
    have hst := Except.ok.inj hst
    unfold Pica.disconnect at hst
    split at hst <;> (cases hst; simp at hx)
  | ranging k sid =>
    obtain ⟨dk, s, ms, ms', ts, o₁, hdk, hs, -, -, ho, hc⟩ := Pica.ranging_ok hst
    have hq : ∀ x, Out.send h (.rsp x) ∉ o₁ := fun x hx => by
      obtain ⟨_, _, he, -⟩ := fit_dataSends ho _ hx
      cases he
    rcases hc with ⟨-, -, rfl, -⟩ | ⟨-, rfl, -⟩
    · rcases List.mem_append.mp hx with hx | hx
      · exact hq x hx
      · cases List.mem_singleton.mp hx
    · exact hq x hx
  | stopRanging mac sid => cases hst; simp at hx
  | uciPacket k bytes =>
    obtain ⟨-, -, -, h1, -, h2⟩ := C24_devices_independent p p' env k bytes out hst
    rcases h2 _ hx with ⟨r, he⟩ | ⟨e, he⟩
    · cases he
      rw [(h1 hd).2] at hx
      cases hx
    · cases he
  | createAnchor mac =>
    change p.createAnchor mac = _ at hst
    unfold Pica.createAnchor at hst
    split at hst
    · cases hst; simp at hx
    · split at hst
      · cases hst
      · cases hst; simp at hx
  | destroyAnchor mac =>
    have hst := Except.ok.inj hst
    unfold Pica.destroyAnchor at hst
    split at hst <;> (cases hst; simp at hx)

theorem reset_done {p p' : Pica} (hp : p.Reachable) {env : Env} {h : Nat} {bytes : Bytes} {rc : ResetConfig} {out : List Out} {d d' : Device}
    (hd : p.devices.get? h = some d) (hc : IsCmd bytes (.coreDeviceReset rc)) (hst : p.step env (.uciPacket h bytes) = .ok (p', out))
    (hd' : p'.devices.get? h = some d') : d'.isReset = true := by
  obtain ⟨e, ha, -⟩ := C26_reset p hp env h d rc hd
  have he := ha bytes hc
  unfold AnswersTo at he
  rw [hst] at he
  cases he
  rw [show AMap.get? _ h = _ from AMap.get?_insert_self ..] at hd'
  cases hd'
  rfl

/-- C118: the whole conversation of a host with the emulator, from its connection on, is one of the machine: the same commands
and responses in the same order, with nothing but rounds and stops by other hosts in between, and the device is the machine. -/
theorem C118_history (p : Pica) (tr : List Pica.Event) (hr : Pica.Run .new tr p) (h : Nat) (d : Device) (hd : p.devices.get? h = some d) :
    ∃ l, Heard h tr l ∧ Talks .fresh l (Ref.of d) := by
  suffices hall : (∀ d, p.devices.get? h = some d → ∃ l, (Heard h tr l ∧ Talks .fresh l (Ref.of d)) ∧ (d.isReset = true ↔ l ≠ [])) ∧
      (p.counter ≤ h → Heard h tr []) by
    obtain ⟨l, hl, -⟩ := hall.1 d hd
    exact ⟨l, hl⟩
  clear hd d
  generalize hq : Pica.new = q at hr
  induction hr with
  | nil => subst hq; exact ⟨fun d hd => (by cases hd), fun _ => .nil⟩
  | @cmd q r tr env c out hrun hst ih =>
    obtain ⟨ih1, ih2⟩ := ih
    have hp : q.Reachable := ⟨tr, hq ▸ hrun⟩
    have hi := Pica.reachable_inv hp
    have hct := Pica.step_counter hst
    refine ⟨fun d' hd' => ?_, fun hle => ?_⟩
    · cases hd : q.devices.get? h with
      | none =>
        have hs := Pica.step_dev hi hst h
        rw [hd, hd'] at hs
        generalize effectsOf h out = e at hs
        cases hs with
        | connect hc hx =>
          refine ⟨[], ⟨.other (ih2 (by omega)) (fun h => absurd rfl h) (silent hst hd), ?_⟩, ?_⟩
          · rw [of_initial]
            exact .nil
          · rw [Device.init, Device.setState_eq]
            exact ⟨fun h => (by cases h), fun h => absurd rfl h⟩
      | some d =>
        obtain ⟨l, ⟨hl, ht⟩, hrl⟩ := ih1 d hd
        by_cases hn : ∀ bytes c', c = .uciPacket h bytes → IsCmd bytes c' → d.isReset = false ∧ ∀ rc, c' ≠ .coreDeviceReset rc
        · obtain ⟨h1, h2⟩ := C118_other q r hp env c h out d d' hd hd' hn hst
          refine ⟨l, ⟨.other hl ?_ h2, ?_⟩, ?_⟩
          · intro hne bytes c' he hc'
            have := (hn bytes c' he hc').1
            rw [hrl.mpr hne] at this
            cases this
          · rcases h1 with h1 | h1
            · rw [h1]; exact ht
            · exact .drifts ht h1.2
          · rcases step_isReset hi hst h d d' hd hd' with he | ⟨bytes, rc, he, hc'⟩
            · rw [he]; exact hrl
            · exact absurd rfl ((hn bytes _ he hc').2 rc)
        · simp only [not_forall] at hn
          obtain ⟨bytes, c', rfl, hc, hn⟩ := hn
          have hready : d.isReset = true ∨ ∃ rc, c' = .coreDeviceReset rc := by
            by_contra hcon
            refine hn ⟨?_, fun rc he => hcon (.inr ⟨rc, he⟩)⟩
            cases hb : d.isReset with
            | false => rfl
            | true => exact absurd (.inl hb) hcon
          obtain ⟨d₁, x, hd₁, ho, hs⟩ := C118_answer q r hp env h bytes c' out d hd hc hready hst
          rw [hd'] at hd₁
          cases hd₁
          refine ⟨_, ⟨.cmd hl rfl hc ?_ ho, .says ht hs⟩, ?_⟩
          · intro he
            refine hready.resolve_left fun h0 => hrl.mp h0 he
          · refine ⟨fun _ => by simp, fun _ => ?_⟩
            rcases step_isReset hi hst h d d' hd hd' with he | ⟨bytes', rc, he, hc'⟩
            · rcases hready with h0 | ⟨rc, rfl⟩
              · rw [he, h0]
              · exact reset_done hp hd hc hst hd'
            · cases he
              exact reset_done hp hd hc' hst hd'
    · have hnone : q.devices.get? h = none := by
        cases hd : q.devices.get? h with
        | none => rfl
        | some d => have := (hi.dev h d hd).2.1; omega
      exact .other (ih2 (by omega)) (fun h => absurd rfl h) (silent hst hnone)
  | @reorder q r tr hrun hre ih =>
    obtain ⟨ih1, ih2⟩ := ih
    have hi := Pica.reachable_inv ⟨tr, hq ▸ hrun⟩
    obtain ⟨hc, -, -, hg⟩ := Pica.reorder_dev hi hre
    refine ⟨fun d hd => ?_, fun hle => ih2 (by omega)⟩
    rcases hg h with he | ⟨d₀, l, hd₀, hp, he⟩
    · rw [he] at hd; exact ih1 d hd
    · rw [hd] at he
      cases he
      rw [of_perm (hi.dev h d₀ hd₀).2.2.2.nodup hp]
      exact ih1 d₀ hd₀

theorem heard_answers {h : Nat} {tr : List Pica.Event} {l : List (Cmd × Rsp)} (hl : Heard h tr l) :
    (tr.flatMap fun ev => Spec.sentTo h ev.out).filterMap answer = l.map Prod.snd := by
  induction hl with
  | nil => rfl
  | cmd _ _ _ _ ho ih => simp [List.flatMap_append, ih, ho, answer]
  | @other tr l ev _ _ hn ih =>
    rw [List.flatMap_append, List.filterMap_append, ih]
    have : (Spec.sentTo h ev.out).filterMap answer = [] := by
      rw [List.filterMap_eq_nil_iff]
      intro x hx
      cases x with
      | rsp x => exact absurd hx (hn x)
      | _ => rfl
    simp [this]

theorem heard_commands {h : Nat} {tr : List Pica.Event} {l : List (Cmd × Rsp)} (hl : Heard h tr l) :
    ∃ bs, bs.Sublist (tr.filterMap fun ev => packetOf h ev.command) ∧ List.Forall₂ IsCmd bs (l.map Prod.fst) := by
  induction hl with
  | nil => exact ⟨[], .refl _, .nil⟩
  | @cmd tr l ev bytes c x _ he hc _ _ ih =>
    obtain ⟨bs, h1, h2⟩ := ih
    refine ⟨bs ++ [bytes], ?_, ?_⟩
    · rw [List.filterMap_append]
      refine h1.append ?_
      simp [he, packetOf]
    · rw [List.map_append]
      exact List.rel_append h2 (.cons hc .nil)
  | @other tr l ev _ _ _ ih =>
    obtain ⟨bs, h1, h2⟩ := ih
    refine ⟨bs, ?_, h2⟩
    rw [List.filterMap_append]
    exact h1.trans (List.sublist_append_left _ _)

/-- C118: in every schedule, with all that goes on at the same time, the responses on the way to a host are, in this order, those of
the machine to commands that the host has sent, in this order. -/
theorem C118_schedule (ls : List System.Label) (s : System) (hr : System.Run .new ls s) (h : Nat) (d : Device)
    (hd : s.pica.devices.get? h = some d) : ∃ l bs, Talks .fresh l (Ref.of d) ∧
      (ls.flatMap (sentTo h)).filterMap answer = l.map Prod.snd ∧ bs.Sublist (received h ls) ∧
      List.Forall₂ IsCmd bs (l.map Prod.fst) := by
  obtain ⟨l, h1, h2⟩ := C118_history s.pica _ (run_processed hr) h d hd
  obtain ⟨bs, h3, h4⟩ := heard_commands h1
  have e1 : (ls.flatMap (sentTo h)).filterMap answer =
      ((Spec.processed ls).flatMap fun ev => Spec.sentTo h ev.out).filterMap answer := by
    clear hr hd h1 h2 h3 h4
    induction ls with
    | nil => rfl
    | cons x ls ih =>
      rw [List.flatMap_cons, List.filterMap_append, ih]
      cases x with
      | process ev =>
        change _ = (((ev :: Spec.processed ls).flatMap fun ev => Spec.sentTo h ev.out).filterMap answer)
        rw [List.flatMap_cons, List.filterMap_append]
        rfl
      | notifies k n =>
        have : (sentTo h (.notifies k n)).filterMap answer = [] := by
          change (if k = h then [Packet.ntf n] else []).filterMap answer = []
          split <;> rfl
        rw [this]
        rfl
      | _ => rfl
  have e2 : (Spec.processed ls).filterMap (fun ev => packetOf h ev.command) = Spec.heard h ls := by
    unfold Spec.processed Spec.heard
    rw [List.filterMap_filterMap]
    refine List.filterMap_congr fun x _ => ?_
    cases x with
    | process ev => cases hc : ev.command <;> simp [packetOf, hc]
    | _ => rfl
  refine ⟨l, bs, h2, e1.trans (heard_answers h1), ?_, h4⟩
  rw [e2] at h3
  exact h3.trans (C74_answers ls s hr h).2.sublist

/-- A schedule with a controller that is ACTIVE: the responses on the way to its host. -/
example : ∃ ls s d, System.Run .new ls s ∧ s.pica.devices.get? 0 = some d ∧
    (ls.flatMap (sentTo 0)).filterMap answer =
      [.coreDeviceReset .ok, .sessionInit .ok, .sessionSetAppConfig .ok [], .sessionStart .ok] := by
  refine ⟨Ex.labels Ex.active, Ex.final Ex.active, _, Ex.final_run (by decide +kernel),
    (Option.some_get (x := (Ex.final Ex.active).pica.devices.get? 0) (by decide +kernel)).symm, by decide +kernel⟩

/-- The machine with a session that was opened: its state is asked for, and opening it again resets it. -/
example : ∃ r, Says .fresh (.sessionInit 7 .firaRangingSession) (.sessionInit .ok) r ∧
    Says r (.sessionGetState 7) (.sessionGetState .ok .sessionStateInit) r ∧
    Says r (.sessionInit 7 .firaRangingSession) (.sessionInit .errorSessionDuplicate)
      (r.put 7 (Spec.Machine.blank .firaRangingSession .sessionStateDeinit)) := by
  refine ⟨{ Ref.fresh.put 7 (Spec.Machine.blank .firaRangingSession .sessionStateInit) with count := 1 },
    .init 7 _ (by decide) rfl, ?_, ?_⟩
  · exact .state 7 (Spec.Machine.blank .firaRangingSession .sessionStateInit) rfl
  · exact .initAgain 7 _ (Spec.Machine.blank .firaRangingSession .sessionStateInit) (by decide) rfl

/-- A controller that ranged once with a controlee and was then stopped, asked for the count and the state: what it is told. -/
example : (Ex.trace (Ex.twoActive ++ [(Ex.env, .ranging 0 7), Ex.pkt 0 (Ex.cmd 2 3 [7, 0, 0, 0]), Ex.pkt 0 (Ex.start 7),
      Ex.pkt 0 (Ex.stop 7), Ex.pkt 0 (Ex.cmd 1 6 [7, 0, 0, 0])])).flatMap
      (fun ev => (Spec.sentTo 0 ev.out).filter fun x => x matches .rsp _) =
    [.rsp (.coreDeviceReset .ok), .rsp (.sessionInit .ok), .rsp (.sessionSetAppConfig .ok []), .rsp (.sessionStart .ok),
     .rsp (.sessionInit .ok), .rsp (.sessionSetAppConfig .ok []), .rsp (.sessionGetRangingCount .ok 1),
     .rsp (.sessionStart .errorSessionNotConfigured), .rsp (.sessionStop .ok),
     .rsp (.sessionGetState .ok .sessionStateIdle)] := by decide +kernel

/-- The device of that controller is the machine after that conversation: with two sessions, one of them IDLE after one round. -/
example : ∃ p tr d l, Pica.Run .new tr p ∧ p.devices.get? 0 = some d ∧ Heard 0 tr l ∧ Talks .fresh l (Ref.of d) ∧
    ((Ref.of d).look 7).map (fun s => (s.phase, s.rounds)) = some (.sessionStateIdle, 1) ∧ (Ref.of d).count = 2 := by
  obtain ⟨⟨p, tr⟩, hp, hf⟩ := Ex.exists_ok
    (x := Ex.play .new (Ex.twoActive ++ [(Ex.env, .ranging 0 7), Ex.pkt 0 (Ex.stop 7)]))
    (f := fun x => (x.1.devices.get? 0).map fun d => (((Ref.of d).look 7).map fun s => (s.phase, s.rounds), (Ref.of d).count))
    (b := some (some (.sessionStateIdle, 1), 2)) (by decide +kernel)
  obtain ⟨d, hd, hf⟩ := Option.map_eq_some_iff.mp hf
  obtain ⟨l, h1, h2⟩ := C118_history p tr (Ex.play_run hp) 0 d hd
  exact ⟨p, tr, d, l, Ex.play_run hp, hd, h1, h2, congrArg Prod.fst hf, congrArg Prod.snd hf⟩

theorem chunks {k : Nat} {f : Arr k → MacAddress} (hf : ∀ a, (f a).toBytes = a.1) (n : Nat) (v : Bytes) (h : v.length = n * k) :
    ∃ l : List MacAddress, v = l.flatMap MacAddress.toBytes ∧ ∀ m ∈ l, ∃ a, m = f a := by
  induction n generalizing v with
  | zero => exact ⟨[], List.eq_nil_of_length_eq_zero (by omega), nofun⟩
  | succ n ih =>
    have hk : k ≤ v.length := by rw [h, Nat.succ_mul]; omega
    obtain ⟨l, hl, hm⟩ := ih (v.drop k) (by rw [List.length_drop, h, Nat.succ_mul]; omega)
    refine ⟨f ⟨v.take k, by rw [List.length_take]; omega⟩ :: l, ?_, ?_⟩
    · rw [List.flatMap_cons, hf, ← hl]
      exact (List.take_append_drop k v).symm
    · intro m hm'
      rcases List.mem_cons.mp hm' with rfl | hm'
      · exact ⟨_, rfl⟩
      · exact hm m hm'

theorem isList_exists {mode n : UInt8} {v : Bytes} (h : v.length = n.toNat * addressSize mode) : ∃ l, IsList mode v l := by
  unfold addressSize at h
  by_cases hm : mode = 0
  · rw [if_pos hm] at h
    obtain ⟨l, h1, h2⟩ := chunks (f := .short) (fun _ => rfl) _ v h
    exact ⟨l, h1, fun m hx => by rw [if_pos hm]; exact h2 m hx⟩
  · rw [if_neg hm] at h
    obtain ⟨l, h1, h2⟩ := chunks (f := .extended) (fun _ => rfl) _ v h
    exact ⟨l, h1, fun m hx => by rw [if_neg hm]; exact h2 m hx⟩

theorem applied_peers {w w' : View} {ps : List (UInt8 × Bytes)} {bad : List UInt8} (h : Applied w ps w' bad) (hb : bad = []) (l : List MacAddress) :
    ∃ l', Peers (w.byte 0x26) l ps l' := by
  induction h generalizing l with
  | nil => exact ⟨l, .nil _ _⟩
  | bad => cases hb
  | @good w w' id v ps bad hu hl _ ih =>
    by_cases h26 : id = 0x26
    · subst h26
      obtain ⟨f, h1, h2⟩ := hl
      cases h1
      obtain ⟨b, -, rfl⟩ := h2
      obtain ⟨l', h⟩ := ih hb l
      exact ⟨l', .mode h⟩
    · have hbyte : View.byte (fun i => if i = id then some (kept id v) else w i) 0x26 = w.byte 0x26 := by
        unfold View.byte
        dsimp only
        rw [if_neg (Ne.symm h26)]
      rw [hbyte] at ih
      by_cases h7 : id = 0x07
      · subst h7
        obtain ⟨f, h1, h2⟩ := hl
        cases h1
        obtain ⟨l₁, hl₁⟩ := isList_exists h2
        obtain ⟨l', h⟩ := ih hb l₁
        exact ⟨l', .list hl₁ h⟩
      · obtain ⟨l', h⟩ := ih hb l
        exact ⟨l', .other h26 h7 h⟩

/-- C118: the machine has an answer, except to SESSION_SET_APP_CONFIG for a session of a type that is not supported, or with an
address while MAC_ADDRESS_MODE is 1. -/
theorem C118_silent (r : Ref) (hc : r.count ≤ 255) (c : Cmd) : (¬∃ x r', Says r c x r') ↔
    ∃ sid tlvs s, c = .sessionSetAppConfig sid tlvs ∧ r.look sid = some s ∧
      (¬Fira s.type ∨ Open s tlvs ∧ ¬∃ w bad, Applied s.view (pairs tlvs) w bad) := by
  constructor
  · intro hn
    have ex : ∀ {x r'}, ¬Says r c x r' := fun {x r'} h => hn ⟨x, r', h⟩
    cases c with
    | coreDeviceReset rc => exact absurd (.reset rc) ex
    | coreGetDeviceInfo => exact absurd .info ex
    | coreGetCapsInfo =>
      refine absurd (.caps (capabilities.map fun e => ⟨⟨e.1⟩, e.2⟩) ?_) ex
      rw [List.map_map]
      exact List.map_id' _
    | coreSetConfig ps => exact absurd (.setConfig ps) ex
    | coreGetConfig ids =>
      by_cases h : ∀ i ∈ ids, i.code = 0x00 ∨ i.code = 0x01
      · exact absurd (.getConfig ids h) ex
      · exact absurd (.getConfigBad ids h) ex
    | sessionInit sid ty =>
      rcases Nat.lt_or_eq_of_le hc with h | h
      · cases hl : r.look sid with
        | none => exact absurd (.init sid ty h hl) ex
        | some s => exact absurd (.initAgain sid ty s h hl) ex
      · exact absurd (.initFull sid ty h) ex
    | sessionDeinit sid =>
      cases hl : r.look sid with
      | none => exact absurd (.deinitNone sid hl) ex
      | some s => exact absurd (.deinit sid s hl) ex
    | sessionGetCount =>
      exact absurd (.count (UInt8.ofNat r.count) (by rw [UInt8.toNat_ofNat']; exact Nat.mod_eq_of_lt (by omega))) ex
    | sessionSetAppConfig sid tlvs =>
      cases hl : r.look sid with
      | none => exact absurd (.setNone sid tlvs hl) ex
      | some s =>
        refine ⟨sid, tlvs, s, rfl, hl, ?_⟩
        by_cases hf : Fira s.type
        · refine .inr ?_
          have ho : Open s tlvs := by
            refine ⟨hf, ?_⟩
            by_cases hi : s.phase = sessionStateInit
            · exact .inl hi
            · by_cases ha : s.phase = sessionStateActive
              · refine .inr ⟨ha, fun t ht he => ?_⟩
                exact ex (.setActive sid tlvs s hl hf ha ⟨t, ht, he⟩)
              · exact absurd (.setRejected sid tlvs s hl hf hi ha) ex
          refine ⟨ho, ?_⟩
          rintro ⟨w, bad, ha⟩
          by_cases hw : Complete w
          · by_cases hb : bad = []
            · subst hb
              obtain ⟨l, hp⟩ := applied_peers ha rfl s.peers
              exact ex (.set sid tlvs s w l hl ho ha hw hp)
            · exact ex (.setBad sid tlvs s w bad hl ho ha hb hw)
          · exact ex (.setIncomplete sid tlvs s w bad hl ho ha hw)
        · exact .inl hf
    | sessionGetAppConfig sid ids =>
      cases hl : r.look sid with
      | none => exact absurd (.getNone sid ids hl) ex
      | some s =>
        by_cases h : ∃ i ∈ ids, s.view i.code = none
        · exact absurd (.getFailed sid ids s hl h) ex
        · refine absurd (.get sid ids s (ids.map fun i => ⟨i, (s.view i.code).getD []⟩) hl ?_) ex
          rw [List.map_map]
          refine List.map_congr_left fun i hi => ?_
          cases hv : s.view i.code with
          | none => exact absurd ⟨i, hi, hv⟩ h
          | some v => simp [hv]
    | sessionGetState sid =>
      cases hl : r.look sid with
      | none => exact absurd (.stateNone sid hl) ex
      | some s => exact absurd (.state sid s hl) ex
    | sessionUpdateMulticast sid a q =>
      cases hl : r.look sid with
      | none => exact absurd (.updateNone sid a q hl) ex
      | some s =>
        by_cases hu : s.Updatable
        · by_cases hq : ∃ addrs, IsControlees (keyLength a) q addrs
          · obtain ⟨addrs, hq⟩ := hq
            by_cases hr : a = .removeControlee
            · subst hr
              exact absurd (.remove sid q s addrs hl hu hq) ex
            · by_cases ha : s.Adds a
              · exact absurd (.add sid a q s addrs hl hu hq ha) ex
              · exact absurd (.keys sid a q s addrs hl hu hq ha hr) ex
          · exact absurd (.updateSyntax sid a q s hl hu (fun addrs h => hq ⟨addrs, h⟩)) ex
        · exact absurd (.updateRejected sid a q s hl hu) ex
    | sessionStart sid =>
      cases hl : r.look sid with
      | none => exact absurd (.startNone sid hl) ex
      | some s =>
        by_cases h : s.phase = sessionStateIdle
        · exact absurd (.start sid s hl h) ex
        · exact absurd (.startRefused sid s hl h) ex
    | sessionStop sid =>
      cases hl : r.look sid with
      | none => exact absurd (.stopNone sid hl) ex
      | some s =>
        by_cases h : s.phase = sessionStateActive
        · exact absurd (.stop sid s hl h) ex
        · exact absurd (.stopRefused sid s hl h) ex
    | sessionGetRangingCount sid =>
      cases hl : r.look sid with
      | none => exact absurd (.roundsNone sid hl) ex
      | some s => exact absurd (.rounds sid s hl) ex
    | androidGetPowerStats => exact absurd .power ex
    | androidSetCountryCode cc => exact absurd (.country cc) ex
  · rintro ⟨sid, tlvs, s, rfl, hl, hs⟩ ⟨x, r', h⟩
    have lk : ∀ {s'}, r.look sid = some s' → s = s' := fun h => Option.some.inj (hl.symm.trans h)
    cases h with
    | setNone _ _ h => rw [hl] at h; cases h
    | setActive _ _ s' h hf ha he =>
      cases lk h
      rcases hs with hs | ⟨ho, -⟩
      · exact hs hf
      · exact (closed ho).1 ⟨ha, he⟩
    | setRejected _ _ s' h hf hi ha =>
      cases lk h
      rcases hs with hs | ⟨ho, -⟩
      · exact hs hf
      · exact (closed ho).2 ⟨hi, ha⟩
    | setIncomplete _ _ s' w bad h ho ha => cases lk h; exact hs.elim (fun hs => hs ho.1) fun hs => hs.2 ⟨w, bad, ha⟩
    | setBad _ _ s' w bad h ho ha => cases lk h; exact hs.elim (fun hs => hs ho.1) fun hs => hs.2 ⟨w, bad, ha⟩
    | set _ _ s' w l h ho ha => cases lk h; exact hs.elim (fun hs => hs ho.1) fun hs => hs.2 ⟨w, [], ha⟩

/-- C118: the number of sessions of the machine of a device is of that size; and where the machine has no answer the emulator
panics. -/
theorem C118_stuck (p : Pica) (hp : p.Reachable) (env : Env) (h : Nat) (bytes : Bytes) (c : Cmd) (d : Device)
    (hd : p.devices.get? h = some d) (hc : IsCmd bytes c) (hr : d.isReset = true ∨ ∃ rc, c = .coreDeviceReset rc) :
    (Ref.of d).count ≤ 255 ∧ ((¬∃ x r', Says (Ref.of d) c x r') → ∃ x, p.step env (.uciPacket h bytes) = .error x) := by
  refine ⟨(((Pica.reachable_inv hp).dev h d hd).2.2.2).bound, fun hn => ?_⟩
  cases hst : p.step env (.uciPacket h bytes) with
  | error x => exact ⟨x, rfl⟩
  | ok y =>
    obtain ⟨d', x, -, -, hs⟩ := C118_answer p y.1 hp env h bytes c y.2 d hd hc hr hst
    exact absurd ⟨x, _, hs⟩ hn

/-- A session for data transfer only: no answer to the setting of parameters, by the machine and the emulator. -/
example : ∃ p d, Pica.Reachable p ∧ p.devices.get? 0 = some d ∧ d.isReset = true ∧
    IsCmd (Ex.setApp 7 0 []) (.sessionSetAppConfig 7 []) ∧ (¬∃ x r', Says (Ref.of d) (.sessionSetAppConfig 7 []) x r') ∧
    p.step Ex.env (.uciPacket 0 (Ex.setApp 7 0 [])) = .error .sessionType := by
  obtain ⟨⟨p, tr⟩, hp, hf⟩ := Ex.exists_ok
    (x := Ex.play .new [(Ex.env, .connect), Ex.pkt 0 Ex.reset, Ex.pkt 0 (Ex.sessionInit 7 2)])
    (f := fun x => ((x.1.devices.get? 0).bind fun d => (d.sessions.get? 7).map fun s => (d.isReset, s.sessionType),
      Ex.panics (x.1.step Ex.env (.uciPacket 0 (Ex.setApp 7 0 [])))))
    (b := (some (true, .firaDataTransferSession), some .sessionType)) (by decide +kernel)
  obtain ⟨d, s, hd, hs, hf'⟩ := Ex.find (congrArg Prod.fst hf)
  refine ⟨p, d, ⟨tr, Ex.play_run hp⟩, hd, congrArg Prod.fst hf', ?_, ?_, Ex.panics_eq (congrArg Prod.snd hf)⟩
  · exact isCmd_iff.mpr (by decide +kernel)
  · have hb : (Ref.of d).count ≤ 255 := (((Pica.reachable_inv ⟨tr, Ex.play_run hp⟩).dev 0 d hd).2.2.2).bound
    refine (C118_silent _ hb _).mpr ⟨7, [], Sess.of s, rfl, look_of hs, .inl ?_⟩
    have ht : s.sessionType = .firaDataTransferSession := congrArg Prod.snd hf'
    change ¬(s.sessionType = _ ∨ s.sessionType = _)
    rw [ht]
    decide

end Pica.Props
