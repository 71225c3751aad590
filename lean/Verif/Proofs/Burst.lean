import Verif.Spec.Burst
import Verif.Proofs.Book
import Verif.Proofs.Dispatch
import Verif.Model.System
import Verif.Spec.System
/-! Proofs for C119. -/

namespace Pica
open Spec SessionState

theorem notices_append (a b : List Effect) : notices (a ++ b) = notices a + notices b := List.countP_append ..

theorem stopsDue_append (a b : List Effect) : stopsDue (a ++ b) = stopsDue a + stopsDue b := by
  simp [stopsDue, List.map_append, List.sum_append]

theorem started_append' (a b : List Effect) : started (a ++ b) = started a ++ started b := List.filterMap_append ..

/-- At most `k` notifications, and nothing but notifications and aborts. -/
def Calm (k : Nat) (e : List Effect) : Prop := notices e ≤ k ∧ started e = [] ∧ stopsDue e = 0

theorem Calm.nil (k : Nat) : Calm k [] := ⟨Nat.zero_le _, rfl, rfl⟩

theorem Calm.append {j k : Nat} {a b : List Effect} (ha : Calm j a) (hb : Calm k b) : Calm (j + k) (a ++ b) := by
  obtain ⟨a1, a2, a3⟩ := ha
  obtain ⟨b1, b2, b3⟩ := hb
  exact ⟨by rw [notices_append]; omega, by rw [started_append', a2, b2]; rfl, by rw [stopsDue_append]; omega⟩

theorem Calm.mono {j k : Nat} {a : List Effect} (ha : Calm j a) (h : j ≤ k) : Calm k a := ⟨ha.1.trans h, ha.2⟩

theorem calm_setState (s : Session) (st : SessionState) (r : ReasonCode) : Calm 1 (s.setState st r).2 := by
  unfold Session.setState
  split
  · exact .nil _
  · exact ⟨Nat.le_refl _, rfl, rfl⟩

theorem calm_devState (d : Device) (st : DeviceState) : Calm 1 (d.setState st).2 := by
  unfold Device.setState
  split
  · exact .nil _
  · exact ⟨Nat.le_refl _, rfl, rfl⟩

theorem calm_stopTask (s : Session) : Calm 0 s.stopRangingTask.2 := by
  unfold Session.stopRangingTask
  split
  · exact ⟨Nat.le_refl _, rfl, rfl⟩
  · exact .nil _

theorem calm_drop (s : Session) : Calm 1 s.drop := by
  unfold Session.drop
  exact ((calm_stopTask s).append (calm_setState _ _ _)).mono (by omega)

theorem calm_dropSessions (d : Device) : Calm d.sessions.length d.dropSessions := by
  unfold Device.dropSessions AMap.values
  generalize d.sessions = l
  induction l with
  | nil => exact .nil _
  | cons e l ih => exact ((calm_drop e.2).append ih).mono (by simp only [List.length_cons]; omega)

theorem sessions_setState (d : Device) (st : DeviceState) : (d.setState st).1.sessions = d.sessions := by
  unfold Device.setState
  split <;> rfl

theorem calm_release {d d' : Device} {e : List Effect} (h : d.releaseActive = .ok (d', e)) :
    Calm 1 e ∧ d'.sessions = d.sessions := by
  unfold Device.releaseActive at h
  split at h
  · cases h
  · dsimp only at h
    split at h
    · have h := Except.ok.inj h
      have := calm_devState { d with nActive := d.nActive - 1 } .deviceStateReady
      have h2 := sessions_setState { d with nActive := d.nActive - 1 } .deviceStateReady
      rw [h] at this h2
      exact ⟨this, h2⟩
    · cases h
      exact ⟨.nil _, rfl⟩

theorem length_put {d : Device} {sid : UInt32} {s : Session} (hs : d.session sid = some s) (s' : Session) :
    (d.putSession sid s').sessions.length = d.sessions.length := by
  show (AMap.insert _ _ _).length = _
  rw [AMap.length_insert, show d.sessions.get? sid = some s from hs]
  rfl

theorem length_pos {d : Device} {sid : UInt32} {s : Session} (hs : d.session sid = some s) : 1 ≤ d.sessions.length := by
  have : d.sessions.get? sid = some s := hs
  cases h : d.sessions with
  | nil => rw [h] at this; cases this
  | cons => simp

theorem calm_inBand (d : Device) (mac : MacAddress) (sid : UInt32) : (d.stopInBand mac sid).1.sessions.length = d.sessions.length ∧
    Calm 2 (d.stopInBand mac sid).2 ∧ Calm (d.sessions.length + 1) (d.stopInBand mac sid).2 := by
  unfold Device.stopInBand
  split
  · exact ⟨rfl, .nil _, .nil _⟩
  · rename_i s hs
    split
    · exact ⟨rfl, .nil _, .nil _⟩
    · split
      · have hl := length_pos hs
        dsimp only
        have key : ∀ (c : Prop) [Decidable c] (x : Device), x.sessions.length = d.sessions.length →
            (if c then x.setState .deviceStateReady else (x, [])).1.sessions.length = d.sessions.length ∧
            Calm 1 (if c then x.setState .deviceStateReady else (x, [])).2 := by
          intro c _ x hx
          split
          · rw [sessions_setState]; exact ⟨hx, calm_devState _ _⟩
          · exact ⟨hx, .nil _⟩
        obtain ⟨k1, k2⟩ := key (d.nActive - 1 = 0) { d.putSession sid (s.stopRangingTask.1.setState .sessionStateIdle
          .sessionStoppedDueToInbandSignal).1 with nActive := d.nActive - 1 } (length_put hs _)
        have := ((calm_stopTask s).append (calm_setState s.stopRangingTask.1 .sessionStateIdle
          .sessionStoppedDueToInbandSignal)).append k2
        exact ⟨k1, this, this.mono (by omega)⟩
      · exact ⟨rfl, .nil _, .nil _⟩

/-- What a command sets off, with `n` sessions before and `n'` after. -/
def Burst (n n' : Nat) (e : List Effect) : Prop :=
  notices e + n' ≤ n + 2 ∧ notices e ≤ n + 1 ∧ (started e).length ≤ 1 ∧ stopsDue e ≤ 255 * 255

theorem Burst.nil (n : Nat) : Burst n n [] := ⟨by show 0 + n ≤ _; omega, Nat.zero_le _, Nat.zero_le _, Nat.zero_le _⟩

theorem Calm.burst {k n n' : Nat} {e : List Effect} (h : Calm k e) (h1 : k + n' ≤ n + 2) (h2 : k ≤ n + 1) : Burst n n' e := by
  obtain ⟨a, b, c⟩ := h
  exact ⟨by omega, by omega, by rw [b]; exact Nat.zero_le _, by omega⟩

theorem addControlee_effects (b : Bool) (l : List (Arr 2)) (acc : Device.MulticastAcc) :
    (l.foldl (Device.addControlee b) acc).effects = acc.effects := by
  induction l generalizing acc with
  | nil => rfl
  | cons a l ih =>
    rw [List.foldl_cons, ih]
    unfold Device.addControlee
    split
    · rfl
    · split
      · rfl
      · split <;> rfl

theorem removeControlee_effects (sid : UInt32) (n : UInt8) (l : List (Arr 2)) (acc : Device.MulticastAcc) :
    notices (l.foldl (Device.removeControlee sid n) acc).effects = notices acc.effects ∧
    started (l.foldl (Device.removeControlee sid n) acc).effects = started acc.effects ∧
    stopsDue (l.foldl (Device.removeControlee sid n) acc).effects ≤ stopsDue acc.effects + 255 * l.length := by
  induction l generalizing acc with
  | nil => exact ⟨rfl, rfl, Nat.le_refl _⟩
  | cons a l ih =>
    rw [List.foldl_cons]
    obtain ⟨i1, i2, i3⟩ := ih (Device.removeControlee sid n acc a)
    have hn := n.toNat_lt
    have key : notices (Device.removeControlee sid n acc a).effects = notices acc.effects ∧
        started (Device.removeControlee sid n acc a).effects = started acc.effects ∧
        stopsDue (Device.removeControlee sid n acc a).effects ≤ stopsDue acc.effects + 255 := by
      unfold Device.removeControlee
      split
      · dsimp only
        split
        · rw [notices_append, started_append', stopsDue_append]
          refine ⟨rfl, List.append_nil _, ?_⟩
          show _ + (n.toNat + 0) ≤ _
          omega
        · rw [List.append_nil]
          exact ⟨rfl, rfl, by omega⟩
      · exact ⟨rfl, rfl, by show stopsDue acc.effects ≤ _; omega⟩
    rw [i1, i2, key.1, key.2.1]
    refine ⟨rfl, rfl, ?_⟩
    rw [List.length_cons]
    omega

theorem update_effects (s : Session) (sid : UInt32) (a : UpdateMulticastListAction) (l : List (Arr 2)) :
    notices (Device.updateControlees s sid a l).effects ≤ 1 ∧ started (Device.updateControlees s sid a l).effects = [] ∧
    stopsDue (Device.updateControlees s sid a l).effects ≤ 255 * l.length := by
  unfold Device.updateControlees
  cases a with
  | addControlee => dsimp only; rw [addControlee_effects]; exact ⟨Nat.zero_le _, rfl, Nat.zero_le _⟩
  | addControleeWithShortSubSessionKey => dsimp only; rw [addControlee_effects]; exact ⟨Nat.zero_le _, rfl, Nat.zero_le _⟩
  | addControleeWithExtendedSubSessionKey => dsimp only; rw [addControlee_effects]; exact ⟨Nat.zero_le _, rfl, Nat.zero_le _⟩
  | removeControlee =>
    obtain ⟨i1, i2, i3⟩ := removeControlee_effects sid s.appConfig.inBandTerminationAttemptCount l
      ⟨s.appConfig.dstMacAddress, .ok, [], [], []⟩
    dsimp only
    split
    · dsimp only
      rw [notices_append, started_append', stopsDue_append, i1, i2]
      exact ⟨Nat.le_refl _, rfl, i3.trans (by show 0 + _ ≤ _; omega)⟩
    · rw [i1, i2]
      exact ⟨Nat.zero_le _, rfl, i3.trans (by show 0 + _ ≤ _; omega)⟩

theorem start_burst {tid : Nat} {sid k : UInt32} {e es : List Effect} {n n' : Nat} (he : e = .startTimer tid sid k :: es)
    (hc : Calm 2 es) (hn : n' = n) (hl : 1 ≤ n) : Burst n n' e := by
  obtain ⟨j1, j2, j3⟩ := hc
  subst he hn
  refine ⟨?_, ?_, ?_, ?_⟩
  · show notices es + n' ≤ _
    omega
  · show notices es ≤ _
    omega
  · show (tid :: started es).length ≤ _
    rw [j2]
    exact Nat.le_refl _
  · show 0 + stopsDue es ≤ _
    omega

theorem burst_exec {d d' : Device} {tid : Nat} {c : Cmd} {r : Rsp} {e : List Effect} (h : d.exec tid c = .ok (d', r, e)) :
    Burst d.sessions.length d'.sessions.length e := by
  cases c with
  | coreDeviceReset rc =>
    cases h
    have := (calm_dropSessions d).append
      (calm_devState { Device.new d.handle d.macAddress with isReset := true } .deviceStateReady)
    refine this.burst ?_ (by omega)
    show _ + 0 ≤ _
    omega
  | coreGetDeviceInfo =>
    change d.coreGetDeviceInfo = _ at h
    unfold Device.coreGetDeviceInfo at h
    split at h <;> cases h
    exact .nil _
  | coreGetCapsInfo => cases h; exact .nil _
  | coreSetConfig ps =>
    change d.coreSetConfig ps = _ at h
    unfold Device.coreSetConfig at h
    split at h <;> cases h
    exact .nil _
  | coreGetConfig ids => cases h; exact .nil _
  | sessionInit sid ty =>
    have h := Except.ok.inj h
    unfold Device.sessionInit at h
    split at h
    · cases h; exact .nil _
    · dsimp only at h
      split at h
      · rename_i old hs
        cases h
        exact (calm_drop old).burst (by rw [length_put hs]; omega) (by omega)
      · rename_i hs
        cases h
        refine (calm_setState _ _ _).burst ?_ (by omega)
        show 1 + (AMap.insert _ _ _).length ≤ _
        rw [AMap.length_insert]
        split <;> omega
  | sessionDeinit sid =>
    change d.sessionDeinit sid = _ at h
    unfold Device.sessionDeinit at h
    split at h
    · rename_i s hs
      have hl := length_pos hs
      have he : ∀ d₁ : Device, d₁.sessions = d.sessions → (AMap.erase d₁.sessions sid).length ≤ d.sessions.length :=
        fun d₁ e => by rw [e]; exact AMap.length_erase_le _ _
      split at h
      · cases hr : d.releaseActive with
        | error z => rw [hr] at h; cases h
        | ok z =>
          obtain ⟨d₁, e₁⟩ := z
          rw [hr] at h
          cases h
          obtain ⟨k1, k2⟩ := calm_release hr
          have := he d₁ k2
          exact (k1.append (calm_drop s)).burst (by dsimp only; omega) (by omega)
      · cases h
        have := he d rfl
        exact (calm_drop s).burst (by dsimp only; omega) (by omega)
    · cases h; exact .nil _
  | sessionGetCount => cases h; exact .nil _
  | sessionSetAppConfig sid tlvs =>
    change d.sessionSetAppConfig sid tlvs = _ at h
    unfold Device.sessionSetAppConfig at h
    split at h
    · cases h; exact .nil _
    · rename_i s hs
      split at h
      · cases h
      · split at h
        · cases h; exact .nil _
        · split at h
          · cases h; exact .nil _
          · cases hl : Device.setAppConfigLoop s.appConfig tlvs with
            | error z => rw [hl] at h; cases h
            | ok z =>
              obtain ⟨c, bad⟩ := z
              rw [hl] at h
              dsimp only [bind, Except.bind] at h
              split at h
              · cases h; exact .nil _
              · split at h
                · split at h
                  · cases h
                    exact (calm_setState _ _ _).burst (by rw [length_put hs]; omega) (by omega)
                  · cases h
                    exact (Calm.nil 0).burst (by rw [length_put hs]; omega) (by omega)
                · cases h; exact .nil _
  | sessionGetAppConfig sid ids =>
    have h := Except.ok.inj h
    unfold Device.sessionGetAppConfig at h
    split at h <;> cases h <;> exact .nil _
  | sessionGetState sid =>
    have h := Except.ok.inj h
    unfold Device.sessionGetState at h
    split at h <;> cases h <;> exact .nil _
  | sessionUpdateMulticast sid a q =>
    have h := Except.ok.inj h
    unfold Device.sessionUpdateMulticast at h
    split at h
    · cases h; exact .nil _
    · rename_i s hs
      have hl := length_pos hs
      split at h
      · cases h; exact .nil _
      · split at h
        · cases h; exact .nil _
        · rename_i addrs ha
          have ha := parseControlees_length ha
          obtain ⟨k1, k2, k3⟩ := update_effects s sid a addrs
          dsimp only at h
          have key : ∀ {e₁ : List Effect} {s₁ : Session}, Calm 1 e₁ → Burst d.sessions.length (d.putSession sid s₁).sessions.length
              ((Device.updateControlees s sid a addrs).effects ++ e₁) := by
            rintro e₁ s₁ ⟨j1, j2, j3⟩
            unfold Burst
            rw [length_put hs, notices_append, started_append', stopsDue_append, k2, j2]
            exact ⟨by omega, by omega, Nat.zero_le _, by omega⟩
          split at h
          · cases h; exact key (calm_setState _ _ _)
          · cases h; exact key (.nil _)
  | sessionStart sid =>
    change d.sessionStart tid sid = _ at h
    unfold Device.sessionStart at h
    split at h
    · cases h; exact .nil _
    · rename_i s hs
      have hl := length_pos hs
      split at h
      · cases h; exact .nil _
      · split at h
        · cases h
        · dsimp only at h
          rw [Except.ok.injEq, Prod.mk.injEq, Prod.mk.injEq] at h
          obtain ⟨h1, -, h2⟩ := h
          have hd := congrArg (fun x => x.sessions.length) h1
          have hc := (calm_setState { s with rangingTask := some tid } .sessionStateActive
            .stateChangeWithSessionManagementCommands).append (calm_devState { d.putSession sid
            ({ s with rangingTask := some tid }.setState .sessionStateActive .stateChangeWithSessionManagementCommands).1 with
            nActive := d.nActive + 1 } .deviceStateActive)
          rw [sessions_setState] at hd
          have hp := length_put hs ({ s with rangingTask := some tid }.setState .sessionStateActive
            .stateChangeWithSessionManagementCommands).1
          exact start_burst h2.symm hc (hd.symm.trans hp) hl
  | sessionStop sid =>
    change d.sessionStop sid = _ at h
    unfold Device.sessionStop at h
    split at h
    · cases h; exact .nil _
    · rename_i s hs
      have hl := length_pos hs
      split at h
      · cases h; exact .nil _
      · dsimp only [bind, Except.bind] at h
        split at h
        · cases h
        · rename_i z hr
          obtain ⟨d₁, e₁⟩ := z
          cases h
          obtain ⟨k1, k2⟩ := calm_release hr
          refine (((calm_stopTask s).append (calm_setState _ _ _)).append k1).burst ?_ (by omega)
          rw [k2, length_put hs]
          omega
  | sessionGetRangingCount sid =>
    have h := Except.ok.inj h
    unfold Device.sessionGetRangingCount at h
    split at h <;> cases h <;> exact .nil _
  | androidGetPowerStats => cases h; exact .nil _
  | androidSetCountryCode cc => cases h; exact .nil _

theorem burst_receive {d d' : Device} {tid : Nat} {pkt : Bytes} {r : Option Packet} {e : List Effect}
    (h : d.receivePacket tid pkt = .ok (d', r, e)) : Burst d.sessions.length d'.sessions.length e := by
  have hsend : ∀ {k : Packet} {x y : Device × Option Packet × List Effect}, Device.sending k x = .ok y → x = y := by
    intro k x y h
    unfold Device.sending at h
    split at h
    · exact Except.ok.inj h
    · cases h
  unfold Device.receivePacket at h
  split at h
  · cases h
  · split at h
    · split at h
      · rename_i q _
        cases hm : d.dataMessageSnd q with
        | error z => rw [hm] at h; cases h
        | ok z =>
          obtain ⟨d₁, n⟩ := z
          rw [hm] at h
          have he := hsend h
          rw [Prod.mk.injEq, Prod.mk.injEq] at he
          obtain ⟨rfl, -, rfl⟩ := he
          have : d₁.sessions.length = d.sessions.length := by
            unfold Device.dataMessageSnd at hm
            split at hm
            · split at hm
              · cases hm
              · rename_i m _
                split at hm
                · rename_i s hs
                  cases hx : s.dataMessageSnd m with
                  | error z => rw [hx] at hm; cases hm
                  | ok z =>
                    rw [hx] at hm
                    cases hm
                    exact length_put hs _
                · cases hm; rfl
            · split at hm
              · cases hm
              · cases hm; rfl
          rw [this]
          exact .nil _
      · cases h; exact .nil _
    · split at h
      · split at h
        · cases h
        · cases h; exact .nil _
      · rename_i q _
        cases hm : d.receiveCommand tid q with
        | error z => rw [hm] at h; cases h
        | ok z =>
          obtain ⟨d₁, k, es⟩ := z
          rw [hm] at h
          cases hsend h
          unfold Device.receiveCommand at hm
          split at hm
          · cases hm; exact .nil _
          · cases hp : Cmd.parse q.gid q.payload with
            | error z => rw [hp] at hm; cases hm
            | ok z =>
              rw [hp] at hm
              cases z with
              | none =>
                dsimp only [bind, Except.bind] at hm
                split at hm
                · cases hm; exact .nil _
                · cases hm
              | some c =>
                cases hx : d.exec tid c with
                | error z => simp only [bind, Except.bind, hx] at hm; cases hm
                | ok z =>
                  simp only [bind, Except.bind, hx] at hm
                  cases hm
                  exact burst_exec hx
    · cases h; exact .nil _

/-- What a command allows for: a packet of the host and an in-band stop two notifications, the connection one. -/
def allowance (counter x : Nat) : Command → Nat
  | .uciPacket y _ => if y = x then 2 else 0
  | .stopRanging _ _ => 2
  | .connect => if x = counter then 1 else 0
  | _ => 0

theorem sessionsOf_some {p : Pica} {h : Nat} {d : Device} (e : p.devices.get? h = some d) : sessionsOf p h = d.sessions.length := by
  unfold sessionsOf; rw [e]; rfl

theorem sessionsOf_none {p : Pica} {h : Nat} (e : p.devices.get? h = none) : sessionsOf p h = 0 := by
  unfold sessionsOf; rw [e]; rfl

/-- What one step sets off for one device. -/
def StepBurst (p p' : Pica) (c : Command) (x : Nat) (e : List Effect) : Prop :=
  notices e + sessionsOf p' x ≤ sessionsOf p x + allowance p.counter x c ∧ notices e ≤ sessionsOf p x + 1 ∧
  (started e).length ≤ 1 ∧ stopsDue e ≤ 255 * 255 ∧ ((∀ b, c ≠ .uciPacket x b) → started e = [] ∧ stopsDue e = 0)

theorem Calm.step {p p' : Pica} {c : Command} {x k : Nat} {e : List Effect} (h : Calm k e)
    (h1 : k + sessionsOf p' x ≤ sessionsOf p x + allowance p.counter x c) (h2 : k ≤ sessionsOf p x + 1) : StepBurst p p' c x e := by
  obtain ⟨a, b, c⟩ := h
  exact ⟨by omega, by omega, by rw [b]; exact Nat.zero_le _, by omega, fun _ => ⟨b, c⟩⟩

theorem StepBurst.same {p p' : Pica} {c : Command} {x : Nat} (h : sessionsOf p' x = sessionsOf p x) : StepBurst p p' c x [] :=
  (Calm.nil 0).step (by omega) (Nat.zero_le _)

theorem step_burst {p p' : Pica} {env : Env} {c : Command} {out : List Out} (hi : Pica.PInv p)
    (h : p.step env c = .ok (p', out)) (x : Nat) : StepBurst p p' c x (effectsOf x out) := by
  cases c with
  | connect =>
    have hfresh : p.devices.get? p.counter = none := by
      cases hg : p.devices.get? p.counter with
      | none => rfl
      | some d => exact absurd (hi.dev _ _ hg).2.1 (Nat.lt_irrefl _)
    cases h
    rw [effectsOf_append, effectsOf_map, effectsOf_event, List.append_nil]
    by_cases hx : p.counter = x
    · subst hx
      rw [if_pos rfl]
      have hc : Calm 1 [Effect.notify 5 (Ntf.coreDeviceStatus DeviceState.deviceStateReady)] := ⟨Nat.le_refl _, rfl, rfl⟩
      refine hc.step ?_ (by omega)
      rw [sessionsOf_none hfresh, show allowance p.counter p.counter .connect = 1 from if_pos rfl,
        sessionsOf_some (AMap.get?_insert_self ..)]
      exact Nat.le_refl _
    · rw [if_neg hx]
      refine .same ?_
      unfold sessionsOf
      show (Option.map _ (AMap.get? (AMap.insert _ _ _) x)).getD 0 = _
      rw [AMap.get?_insert, if_neg hx]
  | disconnect y =>
    change Except.ok (p.disconnect y) = _ at h
    unfold Pica.disconnect at h
    cases hg : p.devices.get? y with
    | none => rw [hg] at h; cases h; exact .same rfl
    | some d =>
      rw [hg] at h
      cases h
      show StepBurst _ _ _ _ (effectsOf x ([Out.event _] ++ List.map _ _))
      rw [effectsOf_append, effectsOf_map, effectsOf_event, List.nil_append]
      by_cases hx : y = x
      · subst hx
        rw [if_pos rfl]
        have h0 : sessionsOf { p with devices := p.devices.erase y } y = 0 := sessionsOf_none (AMap.get?_erase_self ..)
        exact (calm_dropSessions d).step (by rw [h0, sessionsOf_some hg]; omega) (by rw [sessionsOf_some hg]; omega)
      · rw [if_neg hx]
        refine .same ?_
        unfold sessionsOf
        show (Option.map _ (AMap.get? (AMap.erase _ _) x)).getD 0 = _
        rw [AMap.get?_erase, if_neg hx]
  | ranging y sid =>
    obtain ⟨d, s, ms, ms', ts, o₁, hd, hs, -, -, ho, hc⟩ := Pica.ranging_ok h
    have key : ∀ s', StepBurst p { p with devices := AMap.insert p.devices y (d.putSession sid s') } (.ranging y sid) x [] := by
      intro s'
      refine .same ?_
      by_cases hx : y = x
      · subst hx
        rw [sessionsOf_some hd, sessionsOf_some (AMap.get?_insert_self ..)]
        exact length_put hs _
      · unfold sessionsOf
        show (Option.map _ (AMap.get? (AMap.insert _ _ _) x)).getD 0 = _
        rw [AMap.get?_insert, if_neg hx]
    rcases hc with ⟨-, -, rfl, -, rfl⟩ | ⟨-, rfl, rfl⟩
    · rw [effectsOf_append, Pica.plain_dataSends ho]
      exact key _
    · rw [Pica.plain_dataSends ho]
      exact key _
  | stopRanging mac sid =>
    change Except.ok (p.stopControleeRanging mac sid) = _ at h
    unfold Pica.stopControleeRanging at h
    cases h
    rw [Pica.effectsOf_flatMap hi.devNodup (fun d => (d.stopInBand mac sid).2)]
    have hg' : AMap.get? (p.devices.map fun e => (e.1, (e.2.stopInBand mac sid).1)) x = _ :=
      Pica.get?_map_values p.devices (fun d => (d.stopInBand mac sid).1) x
    cases hg : p.devices.get? x with
    | none =>
      rw [hg] at hg'
      refine .same ?_
      rw [sessionsOf_none hg]
      exact sessionsOf_none hg'
    | some d =>
      rw [hg] at hg'
      obtain ⟨k1, k2, k3⟩ := calm_inBand d mac sid
      have e1 : sessionsOf { p with devices := p.devices.map fun e => (e.1, (e.2.stopInBand mac sid).1) } x = d.sessions.length :=
        (sessionsOf_some hg').trans k1
      have e2 := sessionsOf_some hg
      have s1 : StepBurst p { p with devices := p.devices.map fun e => (e.1, (e.2.stopInBand mac sid).1) } (.stopRanging mac sid) x
          (d.stopInBand mac sid).2 :=
        ⟨by rw [e1, e2]; have := k2.1; show _ ≤ _ + 2; omega, by rw [e2]; exact k3.1, by rw [k2.2.1]; exact Nat.zero_le _,
          by rw [k2.2.2]; exact Nat.zero_le _, fun _ => k2.2⟩
      exact s1
  | uciPacket y pkt =>
    change p.uciPacket env y pkt = _ at h
    unfold Pica.uciPacket at h
    cases hg : p.devices.get? y with
    | none => rw [hg] at h; cases h; exact .same rfl
    | some d =>
      rw [hg] at h
      cases hr : d.receivePacket env.tid pkt with
      | error z => simp only [hr] at h; cases h
      | ok z =>
        obtain ⟨d', r, e⟩ := z
        simp only [hr] at h
        cases h
        rw [effectsOf_append, effectsOf_map, show effectsOf x (r.map (Out.send y)).toList = [] by cases r <;> rfl, List.nil_append]
        by_cases hx : y = x
        · subst hx
          rw [if_pos rfl]
          obtain ⟨b1, b2, b3, b4⟩ := burst_receive hr
          have e1 : sessionsOf { p with devices := p.devices.insert y d' } y = d'.sessions.length :=
            sessionsOf_some (AMap.get?_insert_self ..)
          have e2 := sessionsOf_some hg
          dsimp only
          refine ⟨?_, by omega, b3, b4, fun hn => absurd rfl (hn pkt)⟩
          rw [show allowance p.counter y (.uciPacket y pkt) = 2 from if_pos rfl]
          omega
        · rw [if_neg hx]
          refine .same ?_
          unfold sessionsOf
          show (Option.map _ (AMap.get? (AMap.insert _ _ _) x)).getD 0 = _
          rw [AMap.get?_insert, if_neg hx]
  | createAnchor mac =>
    change p.createAnchor mac = _ at h
    unfold Pica.createAnchor at h
    split at h
    · cases h; exact .same rfl
    · split at h
      · cases h
      · cases h; exact .same rfl
  | destroyAnchor mac =>
    change Except.ok (p.destroyAnchor mac) = _ at h
    unfold Pica.destroyAnchor at h
    split at h
    · cases h; exact .same rfl
    · cases h; exact .same rfl

/-- The in-band stops the tasks spawned by a step will send. -/
def stopsOut (out : List Out) : Nat :=
  (out.map fun
    | .effect _ (.stopRanging _ _ n) => n.toNat
    | _ => 0).sum

theorem stopsOut_eq {out : List Out} {y : Nat} (h : ∀ x, x ≠ y → stopsDue (effectsOf x out) = 0) :
    stopsOut out = stopsDue (effectsOf y out) := by
  induction out with
  | nil => rfl
  | cons o out ih =>
    have split : ∀ x, effectsOf x (o :: out) = effectsOf x [o] ++ effectsOf x out := fun x => effectsOf_append x [o] out
    have h' : ∀ x, x ≠ y → stopsDue (effectsOf x [o]) = 0 ∧ stopsDue (effectsOf x out) = 0 := by
      intro x hx
      have := h x hx
      rw [split, stopsDue_append] at this
      omega
    have e : stopsOut (o :: out) = stopsOut [o] + stopsOut out := by simp [stopsOut]
    rw [e, ih fun x hx => (h' x hx).2, split, stopsDue_append]
    congr 1
    cases o with
    | effect k z =>
      by_cases hk : k = y
      · subst hk
        cases z <;> simp [stopsOut, effectsOf, stopsDue]
      · have := (h' k hk).1
        have e2 : effectsOf y [Out.effect k z] = [] := by simp [effectsOf, hk]
        rw [e2]
        cases z <;> simp_all [stopsOut, effectsOf, stopsDue]
    | _ => rfl

theorem step_stops {p p' : Pica} {env : Env} {c : Command} {out : List Out} (hi : Pica.PInv p)
    (h : p.step env c = .ok (p', out)) : stopsOut out ≤ 255 * 255 * packetsOfAll [⟨env, c, out⟩] := by
  have key : (∀ y b, c ≠ .uciPacket y b) → stopsOut out = 0 := fun hn => by
    rw [stopsOut_eq (y := 0) fun x _ => ((step_burst hi h x).2.2.2.2 (hn x)).2]
    exact ((step_burst hi h 0).2.2.2.2 (hn 0)).2
  cases c with
  | uciPacket y b =>
    rw [stopsOut_eq (y := y) fun x hx => ((step_burst hi h x).2.2.2.2 fun b' e => hx (by cases e; rfl)).2]
    exact (step_burst hi h y).2.2.2.1
  | _ => rw [key nofun]; exact Nat.zero_le _

/-- The in-band stops that are in the queue or still to be sent. -/
def stopsAhead (s : System) : Nat :=
  s.queue.countP (fun | .stopRanging _ _ => true | _ => false) + (s.stops.map fun x => x.2.2).sum

theorem applyAll_ahead (out : List Out) (s : System) : stopsAhead (out.foldl System.apply s) = stopsAhead s + stopsOut out := by
  induction out generalizing s with
  | nil => rfl
  | cons o out ih =>
    rw [List.foldl_cons, ih]
    have e : stopsOut (o :: out) = stopsOut [o] + stopsOut out := by simp [stopsOut]
    have : stopsAhead (System.apply s o) = stopsAhead s + stopsOut [o] := by
      unfold System.apply
      split
      case h_4 => simp [stopsAhead, stopsOut]; omega
      all_goals first | rfl | skip
      rename_i h1 h2 h3 h4 h5
      have : stopsOut [o] = 0 := by
        cases o with
        | effect k z => cases z <;> first | rfl | exact absurd rfl (h4 _ _ _ _)
        | _ => rfl
      rw [this]
      rfl
    omega

end Pica
