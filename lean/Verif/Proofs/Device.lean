import Verif.Model.Pica
import Verif.Proofs.Map
/-! The moves of a device: every packet, ranging round or in-band stop is one of the moves below. -/

namespace Pica
open SessionState

/-- Effect of a session move on the count of active sessions. -/
inductive Kind where
  | quiet
  | start
  | release
  /-- the session leaves ACTIVE but stays counted -/
  | leak
  deriving DecidableEq

/-- FiRa session types. -/
def FiraType (ty : SessionType) : Prop := ty = .firaRangingSession ∨ ty = .firaRangingAndInBandDataSession

/-- Effects of a multicast list update that concern neither states nor timers. -/
def Benign (sid : UInt32) (es : List Effect) : Prop :=
  ∀ x ∈ es, (∃ mac n, x = .stopRanging mac sid n) ∨ ∃ l, x = .notify 5 (.sessionUpdateMulticast sid l)

/-- What can happen to the session with identifier `sid` of a device with handle `dh`. -/
inductive SessMove (tid : Nat) (sid : UInt32) (dh : Nat) :
    Kind → Option Session → List Effect → Option Session → Prop
  | keep (o : Option Session) : SessMove tid sid dh .quiet o [] o
  | create (ty : SessionType) : SessMove tid sid dh .quiet none
      [.notify 1 (.sessionStatus sid sessionStateInit ReasonCode.stateChangeWithSessionManagementCommands.code)]
      (some { Session.new sid ty dh with state := sessionStateInit })
  | replace (s : Session) (ty : SessionType) : s.state ≠ sessionStateActive →
      SessMove tid sid dh .quiet (some s) s.drop (some (Session.new sid ty dh))
  | replaceActive (s : Session) (ty : SessionType) : s.state = sessionStateActive →
      SessMove tid sid dh .leak (some s) s.drop (some (Session.new sid ty dh))
  | remove (s : Session) : s.state ≠ sessionStateActive → SessMove tid sid dh .quiet (some s) s.drop none
  | removeActive (s : Session) : s.state = sessionStateActive → SessMove tid sid dh .release (some s) s.drop none
  | configure (s : Session) (c : AppConfig) : FiraType s.sessionType → s.state = sessionStateInit →
      Device.hasMandatory c = true →
      SessMove tid sid dh .quiet (some s)
        [.notify 1 (.sessionStatus s.id sessionStateIdle ReasonCode.stateChangeWithSessionManagementCommands.code)]
        (some { s with appConfig := c, state := sessionStateIdle })
  | reconfigure (s : Session) (c : AppConfig) : FiraType s.sessionType → s.state = sessionStateActive →
      Device.hasMandatory c = true →
      SessMove tid sid dh .quiet (some s) [] (some { s with appConfig := c })
  | multicast (s : Session) (es : List Effect) (dst : List MacAddress) :
      (s.state = sessionStateActive ∨ s.state = sessionStateIdle) → Benign sid es → dst ≠ [] →
      SessMove tid sid dh .quiet (some s) es
        (some { s with appConfig := s.appConfig.withControlees dst })
  | emptiedIdle (s : Session) (es : List Effect) : s.state = sessionStateIdle → Benign sid es →
      SessMove tid sid dh .quiet (some s) es
        (some { s with appConfig := s.appConfig.withControlees [] })
  | emptiedActive (s : Session) (es : List Effect) : s.state = sessionStateActive → Benign sid es →
      SessMove tid sid dh .leak (some s)
        (es ++ [.notify 1 (.sessionStatus s.id sessionStateIdle ReasonCode.errorInvalidNumOfControlees.code)])
        (some { s with appConfig := s.appConfig.withControlees [], state := sessionStateIdle })
  | start (s : Session) : s.state = sessionStateIdle → s.rangingTask = none →
      SessMove tid sid dh .start (some s)
        [.startTimer tid sid s.appConfig.rangingDuration,
          .notify 1 (.sessionStatus s.id sessionStateActive ReasonCode.stateChangeWithSessionManagementCommands.code)]
        (some { s with rangingTask := some tid, state := sessionStateActive })
  | stop (s : Session) (reason : ReasonCode) : s.state = sessionStateActive →
      (reason = .stateChangeWithSessionManagementCommands ∨ reason = .sessionStoppedDueToInbandSignal) →
      SessMove tid sid dh .release (some s)
        (s.rangingTask.toList.map .abortTimer ++ [.notify 1 (.sessionStatus s.id sessionStateIdle reason.code)])
        (some { s with rangingTask := none, state := sessionStateIdle })
  | data (s : Session) (bytes : Bytes) : SessMove tid sid dh .quiet (some s) [] (some { s with data := s.data ++ bytes })
  | round (s : Session) (n : UInt32) : SessMove tid sid dh .quiet (some s) []
      (some { s with sequenceNumber := n, data := [] })

/-- The notification of a change of the device state. -/
def stateNtf (old new : DeviceState) : List Effect :=
  if new = old then [] else [.notify 5 (.coreDeviceStatus new)]

/-- What happens to the count of active sessions and to the state of the device. -/
def CountMove (d : Device) (ed : List Effect) (n : Nat) (st : DeviceState) : Kind → Prop
  | .quiet => n = d.nActive ∧ st = d.state ∧ ed = []
  | .start => n = d.nActive + 1 ∧ st = .deviceStateActive ∧ ed = stateNtf d.state .deviceStateActive
  | .release => n = d.nActive - 1 ∧
    (if d.nActive - 1 = 0 then st = .deviceStateReady ∧ ed = stateNtf d.state .deviceStateReady
      else st = d.state ∧ ed = [])
  | .leak => n = d.nActive ∧ st = d.state ∧ ed = []

/-- What a move may do: the sessions it may change, and whether a session may leave ACTIVE and stay counted. -/
structure Scope where
  sess : UInt32 → Prop
  leak : Prop

/-- The scope of a command. -/
def Cmd.scope : Cmd → Scope
  | .coreDeviceReset _ => ⟨fun _ => True, False⟩
  | .sessionInit sid _ => ⟨fun x => x = sid, True⟩
  | .sessionUpdateMulticast sid _ _ => ⟨fun x => x = sid, True⟩
  | .sessionDeinit sid => ⟨fun x => x = sid, False⟩
  | .sessionSetAppConfig sid _ => ⟨fun x => x = sid, False⟩
  | .sessionStart sid => ⟨fun x => x = sid, False⟩
  | .sessionStop sid => ⟨fun x => x = sid, False⟩
  | _ => ⟨fun _ => False, False⟩

/-- Every session, and anything. -/
def Scope.any : Scope := ⟨fun _ => True, True⟩
/-- One session. -/
def Scope.one (sid : UInt32) : Scope := ⟨fun x => x = sid, False⟩

/-- The moves of a device. -/
inductive DevMove (tid : Nat) (sc : Scope) : Device → List Effect → Device → Prop
  | reset (d : Device) : (∀ x, sc.sess x) → DevMove tid sc d d.coreDeviceReset.2.2 d.coreDeviceReset.1
  | session (d : Device) (sid : UInt32) (k : Kind) (es ed e : List Effect) (o : Option Session) (n : Nat)
      (st : DeviceState) :
      SessMove tid sid d.handle k (d.session sid) es o → CountMove d ed n st k →
      (e = es ++ ed ∨ e = ed ++ es) →
      (d.session sid = none → o ≠ none → d.sessions.length < maxSession ∧ d.isReset = true) →
      sc.sess sid → (k = .leak → sc.leak) →
      DevMove tid sc d e { d with sessions := d.sessions.put sid o, nActive := n, state := st }
  | config (d : Device) (c : DeviceConfig) (cc : Arr 2) :
      (d.isReset = false → c = d.config ∧ cc = d.countryCode) → DevMove tid sc d [] { d with config := c, countryCode := cc }
  | reorder (d : Device) (l : AMap UInt32 Session) : l.Perm d.sessions → DevMove tid sc d [] { d with sessions := l }

namespace DevMove

theorem refl (tid : Nat) {sc : Scope} (d : Device) : DevMove tid sc d [] d :=
  config d d.config d.countryCode fun _ => ⟨rfl, rfl⟩

theorem quiet {tid : Nat} {sc : Scope} {d : Device} {sid : UInt32} {es : List Effect} {o : Option Session}
    (h : SessMove tid sid d.handle .quiet (d.session sid) es o)
    (hl : d.session sid = none → o ≠ none → d.sessions.length < maxSession ∧ d.isReset = true) (hsc : sc.sess sid) :
    DevMove tid sc d es { d with sessions := d.sessions.put sid o } :=
  session d sid .quiet es [] es o d.nActive d.state h ⟨rfl, rfl, rfl⟩ (.inl (by simp)) hl hsc (by intro h; cases h)

theorem leak {tid : Nat} {sc : Scope} {d : Device} {sid : UInt32} {es : List Effect} {o : Option Session}
    (h : SessMove tid sid d.handle .leak (d.session sid) es o)
    (hl : d.session sid = none → o ≠ none → d.sessions.length < maxSession ∧ d.isReset = true) (hsc : sc.sess sid)
    (hlk : sc.leak) :
    DevMove tid sc d es { d with sessions := d.sessions.put sid o } :=
  session d sid .leak es [] es o d.nActive d.state h ⟨rfl, rfl, rfl⟩ (.inl (by simp)) hl hsc fun _ => hlk

theorem mono {tid : Nat} {sc sc' : Scope} {d d' : Device} {e : List Effect} (h : DevMove tid sc d e d')
    (h1 : ∀ x, sc.sess x → sc'.sess x) (h2 : sc.leak → sc'.leak) : DevMove tid sc' d e d' := by
  cases h with
  | reset hx => exact .reset _ fun x => h1 x (hx x)
  | session sid k es ed _ o n st hs hc he hl hsc hlk =>
    exact .session _ sid k es ed _ o n st hs hc he hl (h1 _ hsc) fun hk => h2 (hlk hk)
  | config c cc hc => exact .config _ c cc hc
  | reorder l hp => exact .reorder _ l hp

theorem any {tid : Nat} {sc : Scope} {d d' : Device} {e : List Effect} (h : DevMove tid sc d e d') :
    DevMove tid .any d e d' := h.mono (fun _ _ => trivial) (fun _ => trivial)

end DevMove

theorem Session.drop_eq (s : Session) : s.drop = s.rangingTask.toList.map .abortTimer ++
    (if s.state = sessionStateDeinit then [] else
      [.notify 1 (.sessionStatus s.id sessionStateDeinit ReasonCode.stateChangeWithSessionManagementCommands.code)]) := by
  unfold Session.drop Session.stopRangingTask Session.setState
  cases h : s.rangingTask <;> simp only [Option.toList, List.map_nil, List.map_cons, eq_comm (a := sessionStateDeinit)] <;>
    split <;> simp_all

theorem benign_add (sid : UInt32) (b : Bool) (l : List (Arr 2)) (acc : Device.MulticastAcc) (h : Benign sid acc.effects) :
    Benign sid (l.foldl (Device.addControlee b) acc).effects := by
  induction l generalizing acc with
  | nil => exact h
  | cons a l ih =>
    apply ih
    unfold Device.addControlee
    split
    · exact h
    · split
      · exact h
      · split <;> exact h

theorem benign_remove (sid : UInt32) (n : UInt8) (l : List (Arr 2)) (acc : Device.MulticastAcc)
    (h : Benign sid acc.effects) : Benign sid (l.foldl (Device.removeControlee sid n) acc).effects := by
  induction l generalizing acc with
  | nil => exact h
  | cons a l ih =>
    apply ih
    unfold Device.removeControlee
    split
    · intro x hx
      rcases List.mem_append.mp hx with hx | hx
      · exact h x hx
      · split at hx
        · rw [List.mem_singleton] at hx; exact .inl ⟨_, _, hx⟩
        · cases hx
    · exact h

theorem benign_update (s : Session) (sid : UInt32) (a : UpdateMulticastListAction) (l : List (Arr 2)) :
    Benign sid (Device.updateControlees s sid a l).effects := by
  have h0 : Benign sid [] := fun x hx => by cases hx
  unfold Device.updateControlees
  cases a
  · exact benign_add sid _ l _ h0
  · have h := benign_remove sid s.appConfig.inBandTerminationAttemptCount l ⟨s.appConfig.dstMacAddress, .ok, [], [], []⟩ h0
    dsimp only
    split
    · intro x hx
      rcases List.mem_append.mp hx with hx | hx
      · exact h x hx
      · rw [List.mem_singleton] at hx; exact .inr ⟨_, hx⟩
    · exact h
  · exact benign_add sid _ l _ h0
  · exact benign_add sid _ l _ h0

namespace Device

theorem setState_eq (d : Device) (st : DeviceState) : (d.setState st).1 = { d with state := st } := by
  unfold setState
  split
  · rename_i h; rw [h]
  · rfl

theorem setState_snd (d : Device) (st : DeviceState) : (d.setState st).2 = stateNtf d.state st := by
  unfold setState stateNtf
  split <;> rfl

theorem sessionSetAppConfig_move {d : Device} {sid : UInt32} {tlvs : List AppConfigTlv} {tid : Nat}
    {d' : Device} {r : Rsp} {e : List Effect} (h : d.sessionSetAppConfig sid tlvs = .ok (d', r, e)) :
    DevMove tid (.one sid) d e d' := by
  unfold sessionSetAppConfig at h
  cases hs : d.session sid with
  | none => simp only [hs, Except.ok.injEq, Prod.mk.injEq] at h; obtain ⟨rfl, -, rfl⟩ := h; exact .refl _ _
  | some s =>
    simp only [hs] at h
    split at h
    · cases h
    · rename_i hty
      split at h
      · simp only [Except.ok.injEq, Prod.mk.injEq] at h; obtain ⟨rfl, -, rfl⟩ := h; exact .refl _ _
      · split at h
        · simp only [Except.ok.injEq, Prod.mk.injEq] at h; obtain ⟨rfl, -, rfl⟩ := h; exact .refl _ _
        · rename_i hst
          cases hl : setAppConfigLoop s.appConfig tlvs with
          | error p => simp only [hl, bind, Except.bind] at h; cases h
          | ok ci =>
            obtain ⟨c, inv⟩ := ci
            simp only [hl, bind, Except.bind] at h
            split at h
            · simp only [Except.ok.injEq, Prod.mk.injEq] at h; obtain ⟨rfl, -, rfl⟩ := h; exact .refl _ _
            · rename_i hm
              have hm : hasMandatory c = true := by simpa using hm
              have hty' : FiraType s.sessionType := by
                unfold FiraType
                by_cases h1 : s.sessionType = .firaRangingSession
                · exact .inl h1
                · by_cases h2 : s.sessionType = .firaRangingAndInBandDataSession
                  · exact .inr h2
                  · exact absurd ⟨h1, h2⟩ hty
              split at h
              · simp only [Except.ok.injEq, Prod.mk.injEq] at h
                obtain ⟨rfl, -, rfl⟩ := h
                by_cases h1 : s.state = sessionStateInit
                · have := DevMove.quiet (tid := tid) (sc := .one sid) (d := d) (sid := sid) (by rw [hs]; exact .configure s c hty' h1 hm)
                    (fun hn => by rw [hs] at hn; cases hn) rfl
                  simp only [h1, if_true, Session.setState, reduceCtorEq, if_false]
                  exact this
                · have h2 : s.state = sessionStateActive := by
                    by_cases h2 : s.state = sessionStateActive
                    · exact h2
                    · exact absurd ⟨h1, h2⟩ hst
                  have := DevMove.quiet (tid := tid) (sc := .one sid) (d := d) (sid := sid) (by rw [hs]; exact .reconfigure s c hty' h2 hm)
                    (fun hn => by rw [hs] at hn; cases hn) rfl
                  simp only [h1, if_false]
                  exact this
              · simp only [Except.ok.injEq, Prod.mk.injEq] at h; obtain ⟨rfl, -, rfl⟩ := h; exact .refl _ _

theorem sessionUpdateMulticast_move {d : Device} {sid : UInt32} {a : UpdateMulticastListAction} {p : Bytes} {tid : Nat} :
    DevMove tid ⟨fun x => x = sid, True⟩ d (d.sessionUpdateMulticast sid a p).2.2 (d.sessionUpdateMulticast sid a p).1 := by
  unfold sessionUpdateMulticast
  cases hs : d.session sid with
  | none => exact .refl _ _
  | some s =>
    dsimp only
    split
    · exact .refl _ _
    · rename_i hc
      have hst : s.state = sessionStateActive ∨ s.state = sessionStateIdle := by
        by_cases h1 : s.state = sessionStateActive
        · exact .inl h1
        · by_cases h2 : s.state = sessionStateIdle
          · exact .inr h2
          · exact absurd (.inl ⟨h1, h2⟩) hc
      split
      · exact .refl _ _
      · rename_i addrs _
        have hb := benign_update s sid a addrs
        generalize updateControlees s sid a addrs = acc at hb ⊢
        have hnone : d.session sid = none → ∀ o : Option Session, o ≠ none → d.sessions.length < maxSession ∧ d.isReset = true :=
          fun hn => by rw [hs] at hn; cases hn
        by_cases he : acc.dst = []
        · simp only [he, List.isEmpty_nil, if_true, Session.setState]
          rcases hst with h1 | h1
          · have := DevMove.leak (tid := tid) (sc := ⟨fun x => x = sid, True⟩) (d := d) (sid := sid)
              (by rw [hs]; exact .emptiedActive s acc.effects h1 hb) (fun hn => hnone hn _) rfl trivial
            simp only [h1, reduceCtorEq, if_false]
            exact this
          · have := DevMove.quiet (tid := tid) (sc := ⟨fun x => x = sid, True⟩) (d := d) (sid := sid)
              (by rw [hs]; exact .emptiedIdle s acc.effects h1 hb) (fun hn => hnone hn _) rfl
            rw [if_pos h1.symm, List.append_nil]
            exact this
        · have h2 : acc.dst.isEmpty = false := by cases h : acc.dst <;> simp_all
          simp only [h2, Bool.false_eq_true, if_false, List.append_nil]
          exact DevMove.quiet (tid := tid) (sc := ⟨fun x => x = sid, True⟩) (d := d) (sid := sid)
            (by rw [hs]; exact .multicast s acc.effects acc.dst hst hb he) (fun hn => hnone hn _) rfl

theorem sessionStart_move {d : Device} {sid : UInt32} {tid : Nat} {d' : Device} {r : Rsp} {e : List Effect}
    (h : d.sessionStart tid sid = .ok (d', r, e)) : DevMove tid (.one sid) d e d' := by
  unfold sessionStart at h
  cases hs : d.session sid with
  | none => simp only [hs, Except.ok.injEq, Prod.mk.injEq] at h; obtain ⟨rfl, -, rfl⟩ := h; exact .refl _ _
  | some s =>
    simp only [hs] at h
    split at h
    · simp only [Except.ok.injEq, Prod.mk.injEq] at h; obtain ⟨rfl, -, rfl⟩ := h; exact .refl _ _
    · rename_i h1
      have h1 : s.state = sessionStateIdle := by simpa using h1
      split at h
      · cases h
      · rename_i ht
        have ht : s.rangingTask = none := by simpa using ht
        simp only [Except.ok.injEq, Prod.mk.injEq, Session.setState, h1, reduceCtorEq, if_false] at h
        obtain ⟨rfl, -, rfl⟩ := h
        rw [setState_eq, setState_snd]
        exact DevMove.session (tid := tid) (sc := .one sid) d sid .start _ _ _ _ (d.nActive + 1)
          .deviceStateActive (by rw [hs]; exact .start s h1 ht) ⟨rfl, rfl, rfl⟩ (.inl rfl)
          (fun hn => by rw [hs] at hn; cases hn) rfl (by intro h; cases h)

theorem releaseActive_eq {d d' : Device} {e : List Effect} (h : d.releaseActive = .ok (d', e)) :
    0 < d.nActive ∧ ∃ st, d' = { d with nActive := d.nActive - 1, state := st } ∧
      CountMove d e (d.nActive - 1) st .release := by
  unfold releaseActive at h
  split at h
  · cases h
  · rename_i hn
    refine ⟨by omega, ?_⟩
    simp only [Except.ok.injEq] at h
    split at h
    · rename_i h0
      have h0 : d.nActive - 1 = 0 := h0
      have h1 := congrArg Prod.fst h
      have h2 := congrArg Prod.snd h
      rw [setState_eq] at h1
      rw [setState_snd] at h2
      refine ⟨.deviceStateReady, h1.symm, rfl, ?_⟩
      rw [if_pos h0]
      exact ⟨rfl, h2.symm⟩
    · rename_i h0
      have h0 : ¬ d.nActive - 1 = 0 := h0
      cases h
      exact ⟨d.state, rfl, rfl, by rw [if_neg h0]; exact ⟨rfl, rfl⟩⟩

theorem sessionStop_move {d : Device} {sid : UInt32} {tid : Nat} {d' : Device} {r : Rsp} {e : List Effect}
    (h : d.sessionStop sid = .ok (d', r, e)) : DevMove tid (.one sid) d e d' := by
  unfold sessionStop at h
  cases hs : d.session sid with
  | none => simp only [hs, Except.ok.injEq, Prod.mk.injEq] at h; obtain ⟨rfl, -, rfl⟩ := h; exact .refl _ _
  | some s =>
    simp only [hs] at h
    split at h
    · simp only [Except.ok.injEq, Prod.mk.injEq] at h; obtain ⟨rfl, -, rfl⟩ := h; exact .refl _ _
    · rename_i h1
      have h1 : s.state = sessionStateActive := by simpa using h1
      have hst : s.stopRangingTask = ({ s with rangingTask := none }, s.rangingTask.toList.map .abortTimer) := by
        unfold Session.stopRangingTask
        cases ht : s.rangingTask
        · simp only [Option.toList, List.map_nil, Prod.mk.injEq, and_true]; rw [← ht]
        · rfl
      simp only [hst, Session.setState, h1, reduceCtorEq, if_false] at h
      cases hr : (d.putSession sid { s with rangingTask := none, state := sessionStateIdle }).releaseActive with
      | error p => rw [hr] at h; cases h
      | ok de =>
        obtain ⟨d₁, e₁⟩ := de
        rw [hr] at h
        simp only [bind, Except.bind, Except.ok.injEq, Prod.mk.injEq] at h
        obtain ⟨rfl, -, rfl⟩ := h
        obtain ⟨-, st, rfl, hc⟩ := releaseActive_eq hr
        exact DevMove.session (tid := tid) (sc := .one sid) d sid .release _ e₁ _ _ (d.nActive - 1) st
          (by rw [hs]; exact .stop s _ h1 (.inl rfl)) hc (.inl rfl)
          (fun hn => by rw [hs] at hn; cases hn) rfl (by intro h; cases h)

theorem sessionDeinit_move {d : Device} {sid : UInt32} {tid : Nat} {d' : Device} {r : Rsp} {e : List Effect}
    (h : d.sessionDeinit sid = .ok (d', r, e)) : DevMove tid (.one sid) d e d' := by
  unfold sessionDeinit at h
  cases hs : d.session sid with
  | none => simp only [hs, Except.ok.injEq, Prod.mk.injEq] at h; obtain ⟨rfl, -, rfl⟩ := h; exact .refl _ _
  | some s =>
    simp only [hs] at h
    by_cases h1 : s.state = sessionStateActive
    · simp only [h1, if_true] at h
      cases hr : d.releaseActive with
      | error p => rw [hr] at h; cases h
      | ok de =>
        obtain ⟨d₁, e₁⟩ := de
        rw [hr] at h
        simp only [bind, Except.bind, Except.ok.injEq, Prod.mk.injEq] at h
        obtain ⟨rfl, -, rfl⟩ := h
        obtain ⟨-, st, rfl, hc⟩ := releaseActive_eq hr
        exact DevMove.session (tid := tid) (sc := .one sid) d sid .release _ e₁ _ none (d.nActive - 1) st
          (by rw [hs]; exact .removeActive s h1) hc (.inr rfl) (fun hn => by rw [hs] at hn; cases hn) rfl (by intro h; cases h)
    · simp only [h1, if_false, bind, Except.bind, Except.ok.injEq, Prod.mk.injEq] at h
      obtain ⟨rfl, -, rfl⟩ := h
      exact DevMove.quiet (sc := .one sid) (o := none) (by rw [hs]; exact .remove s h1) (fun hn => by rw [hs] at hn; cases hn) rfl

theorem sessionInit_move {d : Device} {sid : UInt32} {ty : SessionType} {tid : Nat} (hr : d.isReset = true) :
    DevMove tid ⟨fun x => x = sid, True⟩ d (d.sessionInit sid ty).2.2 (d.sessionInit sid ty).1 := by
  unfold sessionInit
  split
  · exact .refl _ _
  · rename_i hl
    cases hs : d.session sid with
    | none =>
      dsimp only
      refine DevMove.quiet (sc := ⟨fun x => x = sid, True⟩) (o := some _) (by rw [hs]; exact .create ty) (fun _ _ => ⟨by omega, hr⟩) rfl
    | some s =>
      dsimp only
      by_cases hst : s.state = sessionStateActive
      · exact DevMove.leak (sc := ⟨fun x => x = sid, True⟩) (o := some _) (by rw [hs]; exact .replaceActive s ty hst) (fun _ _ => ⟨by omega, hr⟩) rfl trivial
      · exact DevMove.quiet (sc := ⟨fun x => x = sid, True⟩) (o := some _) (by rw [hs]; exact .replace s ty hst) (fun _ _ => ⟨by omega, hr⟩) rfl

theorem exec_move {d : Device} {tid : Nat} {c : Cmd} {d' : Device} {r : Rsp} {e : List Effect}
    (hr : d.isReset = true ∨ ∃ rc, c = .coreDeviceReset rc) (h : d.exec tid c = .ok (d', r, e)) : DevMove tid c.scope d e d' := by
  by_cases hc : ∃ rc, c = .coreDeviceReset rc
  · obtain ⟨rc, rfl⟩ := hc
    simp only [exec, Except.ok.injEq] at h; cases h; exact .reset d fun _ => trivial
  replace hr : d.isReset = true := hr.resolve_right hc
  clear hc
  cases c
  case coreDeviceReset => simp only [exec, Except.ok.injEq] at h; cases h; exact .reset d fun _ => trivial
  case coreGetDeviceInfo =>
    simp only [exec, coreGetDeviceInfo] at h
    split at h <;> cases h
    exact .refl _ _
  case coreGetCapsInfo => simp only [exec, Except.ok.injEq] at h; cases h; exact .refl _ _
  case coreSetConfig ps =>
    simp only [exec, coreSetConfig] at h
    split at h <;> cases h
    exact .config d _ _ fun hn => by rw [hr] at hn; cases hn
  case coreGetConfig => simp only [exec, Except.ok.injEq, coreGetConfig] at h; cases h; exact .refl _ _
  case sessionInit sid ty =>
    simp only [exec, Except.ok.injEq] at h
    have := sessionInit_move (d := d) (sid := sid) (ty := ty) (tid := tid) hr
    rw [h] at this; exact this
  case sessionDeinit sid => exact sessionDeinit_move h
  case sessionGetCount => simp only [exec, Except.ok.injEq] at h; cases h; exact .refl _ _
  case sessionSetAppConfig sid tlvs => exact sessionSetAppConfig_move h
  case sessionGetAppConfig sid ids =>
    simp only [exec, Except.ok.injEq, sessionGetAppConfig] at h
    split at h <;> cases h <;> exact .refl _ _
  case sessionGetState sid =>
    simp only [exec, Except.ok.injEq, sessionGetState] at h
    split at h <;> cases h <;> exact .refl _ _
  case sessionUpdateMulticast sid a p =>
    simp only [exec, Except.ok.injEq] at h
    have := sessionUpdateMulticast_move (d := d) (sid := sid) (a := a) (p := p) (tid := tid)
    rw [h] at this; exact this
  case sessionStart sid => exact sessionStart_move h
  case sessionStop sid => exact sessionStop_move h
  case sessionGetRangingCount sid =>
    simp only [exec, Except.ok.injEq, sessionGetRangingCount] at h
    split at h <;> cases h <;> exact .refl _ _
  case androidGetPowerStats => simp only [exec, Except.ok.injEq] at h; cases h; exact .refl _ _
  case androidSetCountryCode cc => simp only [exec, Except.ok.injEq] at h; cases h; exact .config d _ _ fun hn => by rw [hr] at hn; cases hn

theorem stopInBand_move {d : Device} {mac : MacAddress} {sid : UInt32} {tid : Nat} :
    DevMove tid (.one sid) d (d.stopInBand mac sid).2 (d.stopInBand mac sid).1 := by
  unfold stopInBand
  cases hs : d.session sid with
  | none => exact .refl _ _
  | some s =>
    dsimp only
    split
    · exact .refl _ _
    · split
      · rename_i h1
        have hst : s.stopRangingTask = ({ s with rangingTask := none }, s.rangingTask.toList.map .abortTimer) := by
          unfold Session.stopRangingTask
          cases ht : s.rangingTask
          · simp only [Option.toList, List.map_nil, Prod.mk.injEq, and_true]; rw [← ht]
          · rfl
        simp only [hst, Session.setState, h1, reduceCtorEq, if_false]
        have key : ∀ ed st, CountMove d ed (d.nActive - 1) st .release → DevMove tid (.one sid) d
            (s.rangingTask.toList.map .abortTimer ++ [.notify 1 (.sessionStatus s.id sessionStateIdle
              ReasonCode.sessionStoppedDueToInbandSignal.code)] ++ ed)
            { d with sessions := d.sessions.put sid (some { s with rangingTask := none, state := sessionStateIdle }),
                     nActive := d.nActive - 1, state := st } := fun ed st hc =>
          DevMove.session (tid := tid) (sc := .one sid) d sid .release _ ed _ _ (d.nActive - 1) st
            (by rw [hs]; exact .stop s _ h1 (.inr rfl)) hc (.inl rfl) (fun hn => by rw [hs] at hn; cases hn) rfl (by intro h; cases h)
        by_cases h0 : d.nActive - 1 = 0
        · rw [if_pos h0]
          rw [setState_eq, setState_snd]
          exact key _ .deviceStateReady ⟨rfl, by rw [if_pos h0]; exact ⟨rfl, rfl⟩⟩
        · rw [if_neg h0]
          exact key [] d.state ⟨rfl, by rw [if_neg h0]; exact ⟨rfl, rfl⟩⟩
      · exact .refl _ _

theorem round_move {d : Device} {sid : UInt32} {s : Session} {n : UInt32} {tid : Nat} (hs : d.session sid = some s) :
    DevMove tid (.one sid) d [] (d.putSession sid { s with sequenceNumber := n, data := [] }) :=
  DevMove.quiet (sc := .one sid) (o := some _) (by rw [hs]; exact .round s n) (fun hn => by rw [hs] at hn; cases hn) rfl

theorem dataMessageSnd_move {d d' : Device} {p : DataPacket} {n : Ntf} {tid : Nat} (h : d.dataMessageSnd p = .ok (d', n)) :
    DevMove tid ⟨fun _ => True, False⟩ d [] d' := by
  unfold dataMessageSnd at h
  split at h
  · split at h
    · cases h
    · rename_i m hm
      cases hs : d.session m.sessionHandle with
      | none => simp only [hs, Except.ok.injEq, Prod.mk.injEq] at h; obtain ⟨rfl, -⟩ := h; exact .refl _ _
      | some s =>
        simp only [hs] at h
        cases hd : s.dataMessageSnd m with
        | error p => rw [hd] at h; cases h
        | ok sn =>
          obtain ⟨s', n'⟩ := sn
          rw [hd] at h
          simp only [bind, Except.bind, Except.ok.injEq, Prod.mk.injEq] at h
          obtain ⟨rfl, -⟩ := h
          unfold Session.dataMessageSnd at hd
          have hnone : d.session m.sessionHandle = none → ∀ o : Option Session, o ≠ none → d.sessions.length < maxSession ∧ d.isReset = true :=
            fun hn => by rw [hs] at hn; cases hn
          split at hd
          · cases hd
            have := DevMove.quiet (tid := tid) (sc := ⟨fun _ => True, False⟩) (d := d) (sid := m.sessionHandle) (es := []) (o := some s) (by rw [hs]; exact .keep _) (fun hn => hnone hn _) trivial
            exact this
          · split at hd
            · cases hd
            · cases hd
              exact DevMove.quiet (sc := ⟨fun _ => True, False⟩) (o := some _) (by rw [hs]; exact .data s _) (fun hn => hnone hn _) trivial
  · split at h
    · cases h
    · cases h; exact .refl _ _

theorem parse_reset {p : ControlPacket} {c : Cmd} (h : isCoreDeviceResetCmd p = true)
    (hp : Cmd.parse p.gid p.payload = .ok (some c)) : ∃ rc, c = .coreDeviceReset rc := by
  unfold isCoreDeviceResetCmd at h
  split at h
  · rename_i hg hd
    rw [hg] at hp
    simp only [Cmd.parse, Cmd.parseGroup] at hp
    rw [hd] at hp
    simp only [Cmd.parseCore, Cmd.child] at hp
    cases hx : Pdl.coreDeviceResetCmd.decFull _ with
    | none => rw [hx] at hp; cases hp
    | some x => rw [hx] at hp; cases hp; exact ⟨x, rfl⟩
  · cases h

theorem receiveCommand_move {d d' : Device} {tid : Nat} {p : ControlPacket} {r : Packet} {e : List Effect}
    (h : d.receiveCommand tid p = .ok (d', r, e)) : DevMove tid .any d e d' := by
  unfold receiveCommand at h
  split at h
  · cases h; exact .refl _ _
  · rename_i hr
    cases hp : Cmd.parse p.gid p.payload with
    | error x => rw [hp] at h; cases h
    | ok o =>
      rw [hp] at h
      cases o with
      | none =>
        simp only [bind, Except.bind] at h
        split at h
        · cases h; exact .refl _ _
        · cases h
      | some c =>
        simp only [bind, Except.bind] at h
        cases hx : d.exec tid c with
        | error x => rw [hx] at h; cases h
        | ok y =>
          obtain ⟨d₁, r₁, e₁⟩ := y
          rw [hx] at h
          cases h
          refine (exec_move ?_ hx).any
          by_cases hi : d.isReset = true
          · exact .inl hi
          · refine .inr (parse_reset (p := p) ?_ hp)
            simpa [hi] using hr

theorem receivePacket_move {d d' : Device} {tid : Nat} {pkt : Bytes} {r : Option Packet} {e : List Effect}
    (h : d.receivePacket tid pkt = .ok (d', r, e)) : DevMove tid .any d e d' := by
  unfold receivePacket at h
  split at h
  · cases h
  · split at h
    · split at h
      · rename_i p _
        cases hm : d.dataMessageSnd p with
        | error x => rw [hm] at h; cases h
        | ok y =>
          obtain ⟨d₁, n⟩ := y
          rw [hm] at h
          simp only [bind, Except.bind, sending] at h
          split at h <;> cases h
          exact (dataMessageSnd_move hm).any
      · cases h; exact .refl _ _
    · split at h
      · split at h
        · cases h
        · cases h; exact .refl _ _
      · rename_i p _
        cases hm : d.receiveCommand tid p with
        | error x => rw [hm] at h; cases h
        | ok y =>
          obtain ⟨d₁, r₁, e₁⟩ := y
          rw [hm] at h
          simp only [bind, Except.bind, sending] at h
          split at h <;> cases h
          exact receiveCommand_move hm
    · cases h; exact .refl _ _

end Device
end Pica
