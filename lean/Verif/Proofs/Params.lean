import Verif.Proofs.Scope
import Verif.Proofs.SetApp
/-! Where the application parameters of a session come from. -/

set_option linter.dupNamespace false

namespace Pica
open Spec SessionState

/-- Every session of `d'` was there in `d`, with the same parameters. -/
def Kept (d d' : Device) (sid : UInt32) : Prop :=
  ∀ s', d'.sessions.get? sid = some s' → ∃ s, d.sessions.get? sid = some s ∧ s.appConfig = s'.appConfig

theorem Kept.refl (d : Device) (sid : UInt32) : Kept d d sid := fun s h => ⟨s, h, rfl⟩

theorem Kept.sessions {d d' : Device} {sid : UInt32} (h : d'.sessions = d.sessions) : Kept d d' sid := by
  intro s' hs; rw [h] at hs; exact ⟨s', hs, rfl⟩

theorem Kept.put {d : Device} {sid x : UInt32} {s s' : Session} (hs : d.sessions.get? x = some s)
    (hc : s.appConfig = s'.appConfig) {d' : Device} (hd : d'.sessions = d.sessions.insert x s') : Kept d d' sid := by
  intro t ht
  rw [hd, AMap.get?_insert] at ht
  split at ht
  · rename_i e; subst e; cases ht; exact ⟨s, hs, hc⟩
  · exact ⟨t, ht, rfl⟩

theorem Session.setState_config (s : Session) (st : SessionState) (r : ReasonCode) :
    (s.setState st r).1.appConfig = s.appConfig := by
  unfold Session.setState; split <;> rfl

theorem Session.stopTask_config (s : Session) : s.stopRangingTask.1.appConfig = s.appConfig := by
  unfold Session.stopRangingTask; split <;> rfl

theorem Device.setState_sessions (d : Device) (st : DeviceState) : (d.setState st).1.sessions = d.sessions := by
  unfold Device.setState; split <;> rfl

theorem releaseActive_sessions {d : Device} {x : Device × List Effect} (h : d.releaseActive = .ok x) :
    x.1.sessions = d.sessions := by
  unfold Device.releaseActive at h
  split at h
  · cases h
  · cases h
    split
    · exact Device.setState_sessions _ _
    · rfl

/-- A command keeps the parameters of a session unless it is SESSION_INIT, SESSION_SET_APP_CONFIG or
SESSION_UPDATE_CONTROLLER_MULTICAST_LIST of that session. -/
theorem exec_kept {d d' : Device} {tid : Nat} {c : Cmd} {r : Rsp} {e : List Effect} {sid : UInt32}
    (h : d.exec tid c = .ok (d', r, e)) (h0 : ∀ ty, c ≠ .sessionInit sid ty) (h1 : ∀ l, c ≠ .sessionSetAppConfig sid l)
    (h2 : ∀ a q, c ≠ .sessionUpdateMulticast sid a q) : Kept d d' sid := by
  have hout : ∀ {x : UInt32} {s : Session} {d' : Device}, x ≠ sid → d'.sessions = d.sessions.insert x s → Kept d d' sid := by
    intro x s d' hx hd t ht
    rw [hd, AMap.get?_insert, if_neg hx] at ht
    exact ⟨t, ht, rfl⟩
  cases c with
  | coreDeviceReset rc => cases h; intro s' hs; cases hs
  | coreGetDeviceInfo =>
    change d.coreGetDeviceInfo = _ at h
    unfold Device.coreGetDeviceInfo at h
    split at h <;> cases h; exact .refl _ _
  | coreGetCapsInfo => cases h; exact .refl _ _
  | coreSetConfig ps =>
    change d.coreSetConfig ps = _ at h
    unfold Device.coreSetConfig at h
    split at h <;> cases h; exact .sessions rfl
  | coreGetConfig ids => cases h; exact .refl _ _
  | sessionInit x ty =>
    have hx : x ≠ sid := by rintro rfl; exact h0 ty rfl
    change Except.ok (d.sessionInit x ty) = _ at h
    unfold Device.sessionInit at h
    split at h
    · cases h; exact .refl _ _
    · split at h <;> cases h <;> exact hout hx rfl
  | sessionDeinit x =>
    change d.sessionDeinit x = _ at h
    unfold Device.sessionDeinit at h
    split at h
    · rename_i s hs
      have herase : ∀ d₁ : Device, d₁.sessions = d.sessions →
          Kept d { d₁ with sessions := d₁.sessions.erase x } sid := by
        intro d₁ hd t ht
        change (d₁.sessions.erase x).get? sid = _ at ht
        rw [hd, AMap.get?_erase] at ht
        split at ht
        · cases ht
        · exact ⟨t, ht, rfl⟩
      split at h
      · cases hr : d.releaseActive with
        | error z => rw [hr] at h; cases h
        | ok z =>
          rw [hr] at h
          cases h
          exact herase _ (releaseActive_sessions hr)
      · cases h
        exact herase _ rfl
    · cases h; exact .refl _ _
  | sessionGetCount => cases h; exact .refl _ _
  | sessionSetAppConfig x l =>
    have hx : x ≠ sid := by rintro rfl; exact h1 l rfl
    change d.sessionSetAppConfig x l = _ at h
    unfold Device.sessionSetAppConfig at h
    split at h
    · cases h; exact .refl _ _
    · split at h
      · cases h
      · split at h
        · cases h; exact .refl _ _
        · split at h
          · cases h; exact .refl _ _
          · rename_i s _ _ _ _
            cases hl : Device.setAppConfigLoop s.appConfig l with
            | error z => rw [hl] at h; cases h
            | ok z =>
              rw [hl] at h
              simp only [bind, Except.bind] at h
              split at h
              · cases h; exact .refl _ _
              · split at h
                · split at h <;> cases h <;> exact hout hx rfl
                · cases h; exact .refl _ _
  | sessionGetAppConfig x ids =>
    change Except.ok (d.sessionGetAppConfig x ids) = _ at h
    unfold Device.sessionGetAppConfig at h
    split at h <;> cases h <;> exact .refl _ _
  | sessionGetState x =>
    change Except.ok (d.sessionGetState x) = _ at h
    unfold Device.sessionGetState at h
    split at h <;> cases h <;> exact .refl _ _
  | sessionUpdateMulticast x a q =>
    have hx : x ≠ sid := by rintro rfl; exact h2 a q rfl
    change Except.ok (d.sessionUpdateMulticast x a q) = _ at h
    unfold Device.sessionUpdateMulticast at h
    split at h
    · cases h; exact .refl _ _
    · split at h
      · cases h; exact .refl _ _
      · split at h
        · cases h; exact .refl _ _
        · cases h; exact hout hx rfl
  | sessionStart x =>
    change d.sessionStart tid x = _ at h
    unfold Device.sessionStart at h
    split at h
    · cases h; exact .refl _ _
    · split at h
      · cases h; exact .refl _ _
      · split at h
        · cases h
        · rename_i s hs _ _
          cases h
          exact .put hs (s' := (Session.setState { s with rangingTask := some tid } .sessionStateActive
            .stateChangeWithSessionManagementCommands).1) (by rw [Session.setState_config]) (Device.setState_sessions _ _)
  | sessionStop x =>
    change d.sessionStop x = _ at h
    unfold Device.sessionStop at h
    split at h
    · cases h; exact .refl _ _
    · split at h
      · cases h; exact .refl _ _
      · rename_i s hs _
        simp only [bind, Except.bind] at h
        split at h
        · cases h
        · rename_i z hr
          cases h
          exact .put hs (by rw [Session.setState_config, Session.stopTask_config]) (releaseActive_sessions hr)
  | sessionGetRangingCount x =>
    change Except.ok (d.sessionGetRangingCount x) = _ at h
    unfold Device.sessionGetRangingCount at h
    split at h <;> cases h <;> exact .refl _ _
  | androidGetPowerStats => cases h; exact .refl _ _
  | androidSetCountryCode cc => cases h; exact .sessions rfl

theorem stopInBand_kept (d : Device) (mac : MacAddress) (x sid : UInt32) : Kept d (d.stopInBand mac x).1 sid := by
  unfold Device.stopInBand
  split
  · exact .refl _ _
  · rename_i s hs
    split
    · exact .refl _ _
    · split
      · refine .put hs (s' := (s.stopRangingTask.1.setState .sessionStateIdle .sessionStoppedDueToInbandSignal).1)
          (by rw [Session.setState_config, Session.stopTask_config]) ?_
        dsimp only
        split
        · exact Device.setState_sessions _ _
        · rfl
      · exact .refl _ _

theorem dataSnd_config {s s' : Session} {m : DataMessageSnd} {n : Ntf} (h : s.dataMessageSnd m = .ok (s', n)) :
    s'.appConfig = s.appConfig := by
  unfold Session.dataMessageSnd at h
  split at h
  · cases h; rfl
  · split at h <;> cases h; rfl

/-- A packet keeps the parameters of a session unless it is one of the three commands. -/
theorem receive_kept {d d' : Device} {tid : Nat} {bytes : Bytes} {o : Option Packet} {e : List Effect} {sid : UInt32}
    (h : d.receivePacket tid bytes = .ok (d', o, e)) (h0 : ∀ ty, ¬IsCmd bytes (.sessionInit sid ty))
    (h1 : ∀ l, ¬IsCmd bytes (.sessionSetAppConfig sid l))
    (h2 : ∀ a q, ¬IsCmd bytes (.sessionUpdateMulticast sid a q)) : Kept d d' sid := by
  cases receive_ok h with
  | ignored => exact .refl _ _
  | refused => exact .refl _ _
  | early => exact .refl _ _
  | cmd _ c _ rsp _ hc hr hx hf =>
    refine exec_kept hx ?_ ?_ ?_
    · rintro ty rfl; exact h0 ty hc
    · rintro l rfl; exact h1 l hc
    · rintro a q rfl; exact h2 a q hc
  | snd _ m _ n hm hx =>
    rcases hx with ⟨-, rfl, -⟩ | ⟨s, s', hs, hx, rfl⟩
    · exact .refl _ _
    · exact .put hs (dataSnd_config hx).symm rfl
  | rcv => exact .refl _ _

/-- A step keeps the parameters of a session unless it is one of the three commands from its host. -/
theorem step_kept {p p' : Pica} {env : Env} {c : Command} {out : List Out} (h : p.step env c = .ok (p', out))
    (x : Nat) (d' : Device) (hd' : p'.devices.get? x = some d') (sid : UInt32) (s' : Session)
    (hs' : d'.sessions.get? sid = some s') :
    (∃ d s, p.devices.get? x = some d ∧ d.sessions.get? sid = some s ∧ s.appConfig = s'.appConfig) ∨
    ∃ bytes d o e, c = .uciPacket x bytes ∧ p.devices.get? x = some d ∧ d.receivePacket env.tid bytes = .ok (d', o, e) ∧
      ((∃ ty, IsCmd bytes (.sessionInit sid ty)) ∨ (∃ l, IsCmd bytes (.sessionSetAppConfig sid l)) ∨
        ∃ a q, IsCmd bytes (.sessionUpdateMulticast sid a q)) := by
  have same : p'.devices.get? x = p.devices.get? x →
      ∃ d s, p.devices.get? x = some d ∧ d.sessions.get? sid = some s ∧ s.appConfig = s'.appConfig :=
    fun e => ⟨d', s', e.symm.trans hd', hs', rfl⟩
  cases c with
  | connect =>
    cases h
    change AMap.get? (AMap.insert _ _ _) x = _ at hd'
    rw [AMap.get?_insert] at hd'
    split at hd'
    · cases hd'; cases hs'
    · exact .inl ⟨d', s', hd', hs', rfl⟩
  | disconnect y =>
    change Except.ok (p.disconnect y) = _ at h
    unfold Pica.disconnect at h
    split at h
    · cases h
      change AMap.get? (AMap.erase _ _) x = _ at hd'
      rw [AMap.get?_erase] at hd'
      split at hd'
      · cases hd'
      · exact .inl ⟨d', s', hd', hs', rfl⟩
    · cases h; exact .inl (same rfl)
  | ranging y sid' =>
    obtain ⟨d, s, ms, ms', ts, o₁, hd, hs, -, -, ho, hc⟩ := Pica.ranging_ok h
    left
    rcases hc with ⟨-, -, rfl, -, rfl⟩ | ⟨-, rfl, rfl⟩ <;>
    · change AMap.get? (AMap.insert _ _ _) x = _ at hd'
      rw [AMap.get?_insert] at hd'
      split at hd'
      · rename_i e; subst e; cases hd'
        obtain ⟨t, ht, he⟩ := Kept.put (sid := sid) hs (by rfl) rfl s' hs'
        exact ⟨d, t, hd, ht, he⟩
      · exact ⟨d', s', hd', hs', rfl⟩
  | stopRanging mac sid' =>
    cases h
    left
    change AMap.get? (p.devices.map fun e => (e.1, (e.2.stopInBand mac sid').1)) x = _ at hd'
    rw [Pica.get?_map_values p.devices (fun d => (d.stopInBand mac sid').1) x] at hd'
    obtain ⟨d, hd, rfl⟩ := Option.map_eq_some_iff.mp hd'
    obtain ⟨t, ht, he⟩ := stopInBand_kept d mac sid' sid s' hs'
    exact ⟨d, t, hd, ht, he⟩
  | uciPacket y bytes =>
    change p.uciPacket env y bytes = _ at h
    unfold Pica.uciPacket at h
    cases hg : p.devices.get? y with
    | none => rw [hg] at h; cases h; exact .inl (same rfl)
    | some d =>
      rw [hg] at h
      cases hr : d.receivePacket env.tid bytes with
      | error z => simp only [hr] at h; cases h
      | ok z =>
        obtain ⟨d₁, o, e⟩ := z
        simp only [hr] at h
        cases h
        change AMap.get? (AMap.insert _ _ _) x = _ at hd'
        rw [AMap.get?_insert] at hd'
        split at hd'
        · rename_i e; subst e; cases hd'
          by_cases hc : (∃ ty, IsCmd bytes (.sessionInit sid ty)) ∨ (∃ l, IsCmd bytes (.sessionSetAppConfig sid l)) ∨
              ∃ a q, IsCmd bytes (.sessionUpdateMulticast sid a q)
          · exact .inr ⟨bytes, d, o, _, rfl, hg, hr, hc⟩
          · rw [not_or, not_or] at hc
            obtain ⟨t, ht, he⟩ := receive_kept hr (fun ty h => hc.1 ⟨ty, h⟩) (fun l h => hc.2.1 ⟨l, h⟩)
              (fun a q h => hc.2.2 ⟨a, q, h⟩) s' hs'
            exact .inl ⟨d, t, hg, ht, he⟩
        · exact .inl ⟨d', s', hd', hs', rfl⟩
  | createAnchor mac =>
    change p.createAnchor mac = _ at h
    unfold Pica.createAnchor at h
    split at h
    · cases h; exact .inl (same rfl)
    · split at h
      · cases h
      · cases h; exact .inl (same rfl)
  | destroyAnchor mac =>
    change Except.ok (p.destroyAnchor mac) = _ at h
    unfold Pica.destroyAnchor at h
    split at h <;> cases h <;> exact .inl (same rfl)

/-- The value of a parameter after a loop is the old one or one of the values given. -/
theorem Spec.Applied.origin {w w' : View} {l : List (UInt8 × Bytes)} {bad : List UInt8} (h : Applied w l w' bad) (id : UInt8) :
    w' id = w id ∨ ∃ v, (id, v) ∈ l ∧ w' id = some (kept id v) := by
  induction h with
  | nil => exact .inl rfl
  | @good w w' i v l bad _ _ _ ih =>
    rcases ih with h | ⟨u, hu, h⟩
    · dsimp only at h
      by_cases hi : id = i
      · subst hi
        rw [if_pos rfl] at h
        exact .inr ⟨v, by simp, h⟩
      · rw [if_neg hi] at h; exact .inl h
    · exact .inr ⟨u, by simp [hu], h⟩
  | bad _ _ _ ih =>
    rcases ih with h | ⟨u, hu, h⟩
    · exact .inl h
    · exact .inr ⟨u, by simp [hu], h⟩

/-- SESSION_SET_APP_CONFIG leaves the parameters alone or applies all of them. -/
theorem setApp_origin {d d' : Device} {tid : Nat} {sid : UInt32} {l : List AppConfigTlv} {r : Rsp} {e : List Effect}
    (h : d.exec tid (.sessionSetAppConfig sid l) = .ok (d', r, e)) {s' : Session} (hs' : d'.sessions.get? sid = some s') :
    ∃ s, d.sessions.get? sid = some s ∧
      (s.appConfig = s'.appConfig ∨ Applied (View.of s.appConfig) (tlvPairs l) (View.of s'.appConfig) [] ∧
        Device.setAppConfigLoop s.appConfig l = .ok (s'.appConfig, []) ∧ Device.hasMandatory s'.appConfig = true) := by
  change d.sessionSetAppConfig sid l = _ at h
  unfold Device.sessionSetAppConfig at h
  split at h
  · cases h; exact ⟨s', hs', .inl rfl⟩
  · rename_i s hs
    split at h
    · cases h
    · split at h
      · cases h; exact ⟨s', hs', .inl rfl⟩
      · split at h
        · cases h; exact ⟨s', hs', .inl rfl⟩
        · cases hl : Device.setAppConfigLoop s.appConfig l with
          | error z => rw [hl] at h; cases h
          | ok z =>
            obtain ⟨c, inv⟩ := z
            rw [hl] at h
            simp only [bind, Except.bind] at h
            split at h
            · cases h; exact ⟨s', hs', .inl rfl⟩
            · rename_i hmand
              split at h
              · rename_i hinv
                obtain ⟨bad, ha, hb⟩ := loop_ok hl
                have hbad : bad = [] := by
                  cases bad with
                  | nil => rfl
                  | cons b bs => rw [hb] at hinv; cases hinv
                subst hbad
                rw [hb] at hl
                refine ⟨s, hs, .inr ?_⟩
                split at h <;> cases h
                · change (d.sessions.insert sid _).get? sid = _ at hs'
                  rw [AMap.get?_insert_self] at hs'
                  cases hs'
                  rw [Session.setState_config]
                  exact ⟨ha, hl, by simpa using hmand⟩
                · change (d.sessions.insert sid _).get? sid = _ at hs'
                  rw [AMap.get?_insert_self] at hs'
                  cases hs'
                  exact ⟨ha, hl, by simpa using hmand⟩
              · cases h; exact ⟨s', hs', .inl rfl⟩

theorem init_origin {d d' : Device} {tid : Nat} {sid : UInt32} {ty : SessionType} {r : Rsp} {e : List Effect}
    (h : d.exec tid (.sessionInit sid ty) = .ok (d', r, e)) {s' : Session} (hs' : d'.sessions.get? sid = some s') :
    s'.appConfig = AppConfig.default ∨ ∃ s, d.sessions.get? sid = some s ∧ s.appConfig = s'.appConfig := by
  change Except.ok (d.sessionInit sid ty) = _ at h
  unfold Device.sessionInit at h
  split at h
  · cases h; exact .inr ⟨s', hs', rfl⟩
  · split at h <;> cases h <;> change (d.sessions.insert sid _).get? sid = _ at hs' <;>
      rw [AMap.get?_insert_self] at hs' <;> cases hs' <;> left
    · rfl
    · rfl

/-! ### The size of the controlee list -/

namespace AppConfig

theorem chunks_count {n : Nat} (hn : 0 < n) (k : Nat) (v : Bytes) (hv : v.length = k * n) : (chunks n v).length = k := by
  induction k generalizing v with
  | zero =>
    have : v = [] := List.length_eq_zero_iff.mp (by omega)
    subst this
    unfold chunks; simp
  | succ k ih =>
    have hne : v ≠ [] := by
      rintro rfl
      simp only [List.length_nil, Nat.add_mul, Nat.one_mul] at hv
      omega
    unfold chunks
    rw [if_neg (by rw [not_or]; exact ⟨by omega, hne⟩), List.length_cons, ih]
    rw [List.length_drop, hv, Nat.add_mul, Nat.one_mul]
    omega

theorem mapM_count {α β : Type} {f : α → Option β} {l : List α} {l' : List β} (h : l.mapM f = some l') :
    l'.length = l.length := by
  induction l generalizing l' with
  | nil => cases h; rfl
  | cons a l ih =>
    simp only [List.mapM_cons, Option.bind_eq_bind, Option.bind_eq_some_iff, Option.pure_def, Option.some.injEq] at h
    obtain ⟨b, -, bs, hb, rfl⟩ := h
    simp [ih hb]

theorem parseDst_count {m : MacAddressMode} {n : UInt8} {v : Bytes} {l : List MacAddress}
    (h : parseDst m n v = .ok (some l)) : l.length = n.toNat := by
  unfold parseDst at h
  cases m with
  | mode0 =>
    simp only [Except.ok.injEq] at h
    split at h
    · rename_i hl
      rw [mapM_count h, chunks_count (by decide) _ _ hl]
    · cases h
  | mode1 => cases h
  | mode2 =>
    simp only [Except.ok.injEq] at h
    split at h
    · rename_i hl
      rw [mapM_count h, chunks_count (by decide) _ _ hl]
    · cases h

/-- At most eight controlees, present or announced. -/
def Small (c : AppConfig) : Prop := c.dstMacAddress.length ≤ 8 ∧ c.numberOfControlees.toNat ≤ 8

theorem assign_small {α : Type} {c c' : AppConfig} {x : Option α} {f : α → AppConfig} {r : Bool}
    (h : assign c x f = .ok (c', r)) (hc : Small c) (hf : ∀ a, x = some a → Small (f a)) : Small c' := by
  unfold assign at h
  split at h
  · cases h; exact hf _ rfl
  · cases h; exact hc

theorem set_small {c c' : AppConfig} {id : AppConfigTlvType} {v : Bytes} {r : Bool} (h : c.set id v = .ok (c', r))
    (hc : Small c) (hv : id.code = 0x05 → ∀ n, v = [n] → n.toNat ≤ 8) : Small c' := by
  unfold AppConfig.set at h
  cases hp : Param.ofTag? id with
  | none => rw [hp] at h; cases h; exact hc
  | some p =>
    rw [hp] at h
    simp only at h
    cases p
    case deviceMacAddress =>
      unfold setParam at h
      cases hm : parseMac c.macAddressMode v with
      | error e => simp [hm, bind, Except.bind] at h
      | ok x =>
        simp only [hm, bind, Except.bind] at h
        exact assign_small h hc fun a _ => hc
    case dstMacAddress =>
      unfold setParam at h
      cases hm : parseDst c.macAddressMode c.numberOfControlees v with
      | error e => simp [hm, bind, Except.bind] at h
      | ok x =>
        simp only [hm, bind, Except.bind] at h
        refine assign_small h hc fun a ha => ?_
        subst ha
        exact ⟨by rw [parseDst_count hm]; exact hc.2, hc.2⟩
    case numberOfControlees =>
      unfold setParam at h
      refine assign_small h hc fun a ha => ⟨hc.1, hv ?_ a ?_⟩
      · have := Param.ofTag?_eq_some.mp hp
        rw [← this]; rfl
      · unfold parseU8 at ha
        split at ha <;> cases ha
        rfl
    all_goals
      unfold setParam at h
      exact assign_small h hc fun a _ => hc

end AppConfig

theorem loop_small {l : List AppConfigTlv} {c c' : AppConfig} {inv : List AppConfigStatus}
    (h : Device.setAppConfigLoop c l = .ok (c', inv)) (hc : c.Small)
    (hv : ∀ t ∈ l, t.cfgId.code = 0x05 → ∀ n, t.v = [n] → n.toNat ≤ 8) : c'.Small := by
  induction l generalizing c inv with
  | nil => cases h; exact hc
  | cons t l ih =>
    unfold Device.setAppConfigLoop at h
    cases hs : c.set t.cfgId t.v with
    | error e => rw [hs] at h; cases h
    | ok x =>
      obtain ⟨c₁, ok⟩ := x
      rw [hs] at h
      simp only [bind, Except.bind] at h
      cases hl : Device.setAppConfigLoop c₁ l with
      | error e => rw [hl] at h; cases h
      | ok y =>
        obtain ⟨c₂, inv₂⟩ := y
        rw [hl] at h
        cases h
        exact ih hl (AppConfig.set_small hs hc (hv t (by simp))) (fun u hu => hv u (by simp [hu]))

end Pica
