import Verif.Spec.Influence
import Verif.Proofs.Pica
/-! Devices that are alike do alike. -/

namespace Pica.Influence
open Spec

theorem unnamed_iff {s s' : Session} : unnamed s = unnamed s' ↔ s.state = s'.state ∧ s.id = s'.id ∧ s.data = s'.data ∧
    s.sessionType = s'.sessionType ∧ s.sequenceNumber = s'.sequenceNumber ∧ s.appConfig = s'.appConfig ∧
    s.rangingTask.isSome = s'.rangingTask.isSome := by
  cases s with | mk a b c d e f g t => cases s' with | mk a' b' c' d' e' f' g' t' =>
  simp only [unnamed, Session.mk.injEq]
  cases t <;> cases t' <;> simp

theorem setState_un {s s' : Session} (h : unnamed s = unnamed s') (st : SessionState) (r : ReasonCode) :
    unnamed (s.setState st r).1 = unnamed (s'.setState st r).1 ∧ (s.setState st r).2 = (s'.setState st r).2 := by
  have h' := h
  rw [unnamed_iff] at h'
  obtain ⟨h1, h2, h3, h4, h5, h6, h7⟩ := h'
  unfold Session.setState
  rw [h1, h2]
  split
  · exact ⟨h, rfl⟩
  · exact ⟨unnamed_iff.2 ⟨rfl, rfl, h3, h4, h5, h6, h7⟩, rfl⟩

theorem stopTask_un {s s' : Session} (h : unnamed s = unnamed s') : unnamed s.stopRangingTask.1 = unnamed s'.stopRangingTask.1 ∧
    s.stopRangingTask.2.map nameless = s'.stopRangingTask.2.map nameless := by
  rw [unnamed_iff] at h
  obtain ⟨h1, h2, h3, h4, h5, h6, h7⟩ := h
  unfold Session.stopRangingTask
  cases ht : s.rangingTask <;> cases ht' : s'.rangingTask <;> rw [ht, ht'] at h7
  · exact ⟨unnamed_iff.2 ⟨h1, h2, h3, h4, h5, h6, by rw [ht, ht']⟩, rfl⟩
  · cases h7
  · cases h7
  · exact ⟨unnamed_iff.2 ⟨h1, h2, h3, h4, h5, h6, rfl⟩, rfl⟩

theorem drop_un {s s' : Session} (h : unnamed s = unnamed s') : s.drop.map nameless = s'.drop.map nameless := by
  obtain ⟨h1, h2⟩ := stopTask_un h
  unfold Session.drop
  dsimp only
  rw [List.map_append, List.map_append, h2, (setState_un h1 _ _).2]

theorem Alike.refl (d : Device) : Alike d d := ⟨rfl, rfl, rfl, rfl, rfl, fun _ => rfl⟩

theorem Alike.symm {d d' : Device} (h : Alike d d') : Alike d' d := by
  obtain ⟨h1, h2, h3, h4, h5, h6⟩ := h
  exact ⟨h1.symm, h2.symm, h3.symm, h4.symm, h5.symm, fun x => (h6 x).symm⟩

theorem Alike.trans {a b c : Device} (h : Alike a b) (g : Alike b c) : Alike a c := by
  obtain ⟨h1, h2, h3, h4, h5, h6⟩ := h
  obtain ⟨g1, g2, g3, g4, g5, g6⟩ := g
  exact ⟨h1.trans g1, h2.trans g2, h3.trans g3, h4.trans g4, h5.trans g5, fun x => (h6 x).trans (g6 x)⟩

theorem Alike.session {d d' : Device} (h : Alike d d') (sid : UInt32) : (d.session sid = none ∧ d'.session sid = none) ∨
    ∃ s s', d.session sid = some s ∧ d'.session sid = some s' ∧ unnamed s = unnamed s' := by
  have := h.2.2.2.2.2 sid
  unfold Device.session
  cases h1 : d.sessions.get? sid <;> cases h2 : d'.sessions.get? sid <;> rw [h1, h2] at this
  · exact .inl ⟨rfl, rfl⟩
  · cases this
  · cases this
  · exact .inr ⟨_, _, rfl, rfl, Option.some.inj this⟩

theorem Alike.put {d d' : Device} (h : Alike d d') {s s' : Session} (hs : unnamed s = unnamed s') (sid : UInt32) :
    Alike (d.putSession sid s) (d'.putSession sid s') := by
  obtain ⟨h1, h2, h3, h4, h5, h6⟩ := h
  refine ⟨h1, h2, h3, h4, h5, fun x => ?_⟩
  unfold Device.putSession
  dsimp only
  rw [AMap.get?_insert, AMap.get?_insert]
  split
  · simp only [Option.map_some, hs]
  · exact h6 x

theorem Alike.erase {d d' : Device} (h : Alike d d') (sid : UInt32) :
    Alike { d with sessions := d.sessions.erase sid } { d' with sessions := d'.sessions.erase sid } := by
  obtain ⟨h1, h2, h3, h4, h5, h6⟩ := h
  refine ⟨h1, h2, h3, h4, h5, fun x => ?_⟩
  dsimp only
  rw [AMap.get?_erase, AMap.get?_erase]
  split
  · rfl
  · exact h6 x

theorem Alike.setState {d d' : Device} (h : Alike d d') (st : DeviceState) :
    Alike (d.setState st).1 (d'.setState st).1 ∧ (d.setState st).2 = (d'.setState st).2 := by
  have h' := h
  obtain ⟨h1, h2, h3, h4, h5, h6⟩ := h'
  unfold Device.setState
  rw [h3]
  split
  · exact ⟨h, rfl⟩
  · exact ⟨⟨h1, h2, rfl, h4, h5, h6⟩, rfl⟩

theorem Alike.active {d d' : Device} (h : Alike d d') {n : Nat} : Alike { d with nActive := n } { d' with nActive := n } := by
  obtain ⟨h1, h2, h3, h4, h5, h6⟩ := h
  exact ⟨h1, h2, h3, h4, rfl, h6⟩

/-- The sessions are the same up to their order. -/
theorem Alike.perm {d d' : Device} (h : Alike d d') (hn : (AMap.keys d.sessions).Nodup) (hn' : (AMap.keys d'.sessions).Nodup) :
    (d.sessions.map fun e => (e.1, unnamed e.2)).Perm (d'.sessions.map fun e => (e.1, unnamed e.2)) := by
  have nd : ∀ {l : AMap UInt32 Session}, (AMap.keys l).Nodup → (l.map fun e => (e.1, unnamed e.2)).Nodup := by
    intro l hl
    refine List.Nodup.of_map Prod.fst ?_
    rw [List.map_map]
    exact hl
  refine (List.perm_ext_iff_of_nodup (nd hn) (nd hn')).2 ?_
  have key : ∀ {l : AMap UInt32 Session}, (AMap.keys l).Nodup → ∀ x, x ∈ (l.map fun e => (e.1, unnamed e.2)) ↔
      (l.get? x.1).map unnamed = some x.2 := by
    intro l hl x
    rw [List.mem_map, Option.map_eq_some_iff]
    constructor
    · rintro ⟨e, he, rfl⟩
      exact ⟨e.2, AMap.get?_of_mem hl he, rfl⟩
    · rintro ⟨s, hs, he⟩
      exact ⟨(x.1, s), AMap.mem_of_get? hs, by rw [he]⟩
  intro x
  rw [key hn, key hn', h.2.2.2.2.2 x.1]

theorem Alike.length {d d' : Device} (h : Alike d d') (hn : (AMap.keys d.sessions).Nodup) (hn' : (AMap.keys d'.sessions).Nodup) :
    d.sessions.length = d'.sessions.length := by
  simpa using (h.perm hn hn').length_eq

theorem Alike.dropped {d d' : Device} (h : Alike d d') (hn : (AMap.keys d.sessions).Nodup) (hn' : (AMap.keys d'.sessions).Nodup) :
    (d.dropSessions.map nameless).Perm (d'.dropSessions.map nameless) := by
  have key : ∀ d : Device, d.dropSessions.map nameless =
      (d.sessions.map fun e => (e.1, unnamed e.2)).flatMap fun e => e.2.drop.map nameless := by
    intro d
    unfold Device.dropSessions AMap.values
    rw [List.map_flatMap, List.flatMap_map, List.flatMap_map, List.flatMap_def, List.flatMap_def]
    congr 1
    refine List.map_congr_left fun e _ => drop_un ?_
    unfold unnamed
    cases e.2.rangingTask <;> rfl
  rw [key, key]
  exact (h.perm hn hn').flatMap_right _

/-- The results of two handlers agree. -/
inductive Both {α : Type} : Except Panic (Device × α × List Effect) → Except Panic (Device × α × List Effect) → Prop
  | error (e : Panic) : Both (.error e) (.error e)
  | ok {d d' : Device} {r : α} {e e' : List Effect} : Alike d d' → (e.map nameless).Perm (e'.map nameless) →
      Both (.ok (d, r, e)) (.ok (d', r, e'))

theorem Both.of {α : Type} {d d' : Device} {r : α} {e e' : List Effect} (h : Alike d d') (he : e.map nameless = e'.map nameless) :
    Both (.ok (d, r, e)) (.ok (d', r, e')) := .ok h (by rw [he])

theorem release_alike {d d' : Device} (h : Alike d d') :
    (∃ x, d.releaseActive = .error x ∧ d'.releaseActive = .error x) ∨
    ∃ a a' e, d.releaseActive = .ok (a, e) ∧ d'.releaseActive = .ok (a', e) ∧ Alike a a' := by
  unfold Device.releaseActive
  rw [h.2.2.2.2.1]
  split
  · exact .inl ⟨_, rfl, rfl⟩
  · right
    dsimp only
    by_cases h0 : d'.nActive - 1 = 0
    · simp only [h0, if_true]
      obtain ⟨h1, h2⟩ := (h.active (n := 0)).setState .deviceStateReady
      exact ⟨_, _, _, rfl, congrArg Except.ok (Prod.ext rfl h2.symm), h1⟩
    · simp only [h0, if_false]
      exact ⟨_, _, _, rfl, rfl, h.active⟩

theorem exec_alike {d d' : Device} (h : Alike d d') (hn : (AMap.keys d.sessions).Nodup) (hn' : (AMap.keys d'.sessions).Nodup)
    (tid tid' : Nat) (c : Cmd) : Both (d.exec tid c) (d'.exec tid' c) := by
  have hh := h
  obtain ⟨h1, h2, h3, h4, h5, h6⟩ := hh
  cases c with
  | coreDeviceReset rc =>
    simp only [Device.exec, Device.coreDeviceReset]
    have a : Alike { Device.new d.handle d.macAddress with isReset := true } { Device.new d'.handle d'.macAddress with isReset := true } :=
      ⟨rfl, rfl, rfl, rfl, rfl, fun _ => rfl⟩
    obtain ⟨a1, a2⟩ := a.setState .deviceStateReady
    refine .ok a1 ?_
    rw [List.map_append, List.map_append]
    unfold Device.init
    rw [a2]
    exact (h.dropped hn hn').append_right _
  | coreGetDeviceInfo =>
    simp only [Device.exec, Device.coreGetDeviceInfo, h3]
    split
    · exact .of h rfl
    · exact .error _
  | coreGetCapsInfo => exact .of h rfl
  | coreSetConfig ps =>
    simp only [Device.exec, Device.coreSetConfig, h3, h2]
    split
    · exact .of ⟨h1, rfl, rfl, h4, h5, h6⟩ rfl
    · exact .error _
  | coreGetConfig ids =>
    simp only [Device.exec, Device.coreGetConfig, h2]
    exact .of h rfl
  | sessionInit sid ty =>
    simp only [Device.exec, Device.sessionInit, h.length hn hn']
    split
    · exact .of h rfl
    · have u : unnamed (Session.new sid ty d.handle) = unnamed (Session.new sid ty d'.handle) := rfl
      rcases h.session sid with ⟨e1, e2⟩ | ⟨s, s', e1, e2, e3⟩
      · rw [e1, e2]
        obtain ⟨u1, u2⟩ := setState_un u .sessionStateInit .stateChangeWithSessionManagementCommands
        refine .of (h.put u1 sid) ?_
        unfold Session.init
        rw [u2]
      · rw [e1, e2]
        exact .of (h.put u sid) (drop_un e3)
  | sessionDeinit sid =>
    simp only [Device.exec, Device.sessionDeinit]
    rcases h.session sid with ⟨e1, e2⟩ | ⟨s, s', e1, e2, e3⟩
    · rw [e1, e2]
      exact .of h rfl
    · rw [e1, e2]
      dsimp only
      rw [(unnamed_iff.1 e3).1]
      split
      · rcases release_alike h with ⟨x, g1, g2⟩ | ⟨a, a', e, g1, g2, g3⟩
        · rw [g1, g2]
          exact .error _
        · rw [g1, g2]
          refine .of (g3.erase sid) ?_
          rw [List.map_append, List.map_append, drop_un e3]
      · refine .of (h.erase sid) ?_
        rw [List.map_append, List.map_append, drop_un e3]
  | sessionGetCount =>
    simp only [Device.exec, Device.sessionGetCount, h.length hn hn']
    exact .of h rfl
  | sessionSetAppConfig sid tlvs =>
    simp only [Device.exec, Device.sessionSetAppConfig]
    rcases h.session sid with ⟨e1, e2⟩ | ⟨s, s', e1, e2, e3⟩
    · rw [e1, e2]
      exact .of h rfl
    · rw [e1, e2]
      have g := unnamed_iff.1 e3
      clear e1 e2 e3
      cases s with | mk x1 x2 x3 x4 x5 x6 x7 x8 => cases s' with | mk y1 y2 y3 y4 y5 y6 y7 y8 =>
      obtain ⟨rfl, rfl, rfl, rfl, rfl, rfl, g7⟩ := g
      dsimp only
      split
      · exact .error _
      · split
        · exact .of h rfl
        · split
          · exact .of h rfl
          · cases hl : Device.setAppConfigLoop x7 tlvs with
            | error x => exact .error _
            | ok y =>
              obtain ⟨c, invalid⟩ := y
              simp only [Bind.bind, Except.bind]
              split
              · exact .of h rfl
              · split
                · have u : unnamed ⟨x1, x2, x3, x4, x5, x6, c, x8⟩ = unnamed ⟨x1, x2, y3, x4, x5, x6, c, y8⟩ :=
                    unnamed_iff.2 ⟨rfl, rfl, rfl, rfl, rfl, rfl, g7⟩
                  split
                  · obtain ⟨u1, u2⟩ := setState_un u .sessionStateIdle .stateChangeWithSessionManagementCommands
                    exact .of (h.put u1 sid) (by rw [u2])
                  · exact .of (h.put u sid) rfl
                · exact .of h rfl
  | sessionGetAppConfig sid ids =>
    simp only [Device.exec, Device.sessionGetAppConfig]
    rcases h.session sid with ⟨e1, e2⟩ | ⟨s, s', e1, e2, e3⟩
    · rw [e1, e2]
      exact .of h rfl
    · rw [e1, e2]
      dsimp only
      rw [(unnamed_iff.1 e3).2.2.2.2.2.1]
      exact .of h rfl
  | sessionGetState sid =>
    simp only [Device.exec, Device.sessionGetState]
    rcases h.session sid with ⟨e1, e2⟩ | ⟨s, s', e1, e2, e3⟩
    · rw [e1, e2]
      exact .of h rfl
    · rw [e1, e2]
      dsimp only
      rw [(unnamed_iff.1 e3).1]
      exact .of h rfl
  | sessionUpdateMulticast sid a p =>
    simp only [Device.exec, Device.sessionUpdateMulticast]
    rcases h.session sid with ⟨e1, e2⟩ | ⟨s, s', e1, e2, e3⟩
    · rw [e1, e2]
      exact .of h rfl
    · rw [e1, e2]
      have g := unnamed_iff.1 e3
      clear e1 e2 e3
      cases s with | mk x1 x2 x3 x4 x5 x6 x7 x8 => cases s' with | mk y1 y2 y3 y4 y5 y6 y7 y8 =>
      obtain ⟨rfl, rfl, rfl, rfl, rfl, rfl, g7⟩ := g
      dsimp only
      split
      · exact .of h rfl
      · cases Device.parseControlees a p with
        | none => exact .of h rfl
        | some addrs =>
          dsimp only
          have eacc : Device.updateControlees ⟨x1, x2, x3, x4, x5, x6, x7, x8⟩ sid a addrs =
            Device.updateControlees ⟨x1, x2, y3, x4, x5, x6, x7, y8⟩ sid a addrs := rfl
          rw [eacc]
          generalize Device.updateControlees ⟨x1, x2, y3, x4, x5, x6, x7, y8⟩ sid a addrs = acc
          have u : unnamed ⟨x1, x2, x3, x4, x5, x6, x7.withControlees acc.dst, x8⟩ =
              unnamed ⟨x1, x2, y3, x4, x5, x6, x7.withControlees acc.dst, y8⟩ := unnamed_iff.2 ⟨rfl, rfl, rfl, rfl, rfl, rfl, g7⟩
          split
          · obtain ⟨u1, u2⟩ := setState_un u .sessionStateIdle .errorInvalidNumOfControlees
            exact .of (h.put u1 sid) (by rw [u2])
          · exact .of (h.put u sid) rfl
  | sessionStart sid =>
    simp only [Device.exec, Device.sessionStart]
    rcases h.session sid with ⟨e1, e2⟩ | ⟨s, s', e1, e2, e3⟩
    · rw [e1, e2]
      exact .of h rfl
    · rw [e1, e2]
      have g := unnamed_iff.1 e3
      clear e1 e2 e3
      cases s with | mk x1 x2 x3 x4 x5 x6 x7 x8 => cases s' with | mk y1 y2 y3 y4 y5 y6 y7 y8 =>
      obtain ⟨rfl, rfl, rfl, rfl, rfl, rfl, g7⟩ := g
      dsimp only at g7 ⊢
      rw [g7, h5]
      split
      · exact .of h rfl
      · split
        · exact .error _
        · have u : unnamed ⟨x1, x2, x3, x4, x5, x6, x7, some tid⟩ = unnamed ⟨x1, x2, y3, x4, x5, x6, x7, some tid'⟩ := rfl
          obtain ⟨u1, u2⟩ := setState_un u .sessionStateActive .stateChangeWithSessionManagementCommands
          obtain ⟨v1, v2⟩ := ((h.put u1 sid).active (n := d'.nActive + 1)).setState .deviceStateActive
          refine .of v1 ?_
          rw [List.map_cons, List.map_cons, u2, v2, (unnamed_iff.1 u1).2.2.2.2.2.1]
          rfl
  | sessionStop sid =>
    simp only [Device.exec, Device.sessionStop]
    rcases h.session sid with ⟨e1, e2⟩ | ⟨s, s', e1, e2, e3⟩
    · rw [e1, e2]
      exact .of h rfl
    · rw [e1, e2]
      dsimp only
      rw [(unnamed_iff.1 e3).1]
      split
      · exact .of h rfl
      · obtain ⟨u1, u2⟩ := stopTask_un e3
        obtain ⟨v1, v2⟩ := setState_un u1 .sessionStateIdle .stateChangeWithSessionManagementCommands
        rcases release_alike (h.put v1 sid) with ⟨x, g1, g2⟩ | ⟨a, a', e, g1, g2, g3⟩
        · rw [g1, g2]
          exact .error _
        · rw [g1, g2]
          refine .of g3 ?_
          simp only [List.map_append, u2, v2]
  | sessionGetRangingCount sid =>
    simp only [Device.exec, Device.sessionGetRangingCount]
    rcases h.session sid with ⟨e1, e2⟩ | ⟨s, s', e1, e2, e3⟩
    · rw [e1, e2]
      exact .of h rfl
    · rw [e1, e2]
      dsimp only
      rw [(unnamed_iff.1 e3).2.2.2.2.1]
      exact .of h rfl
  | androidGetPowerStats => exact .of h rfl
  | androidSetCountryCode cc => exact .of ⟨h1, h2, h3, rfl, h5, h6⟩ rfl

theorem data_alike {d d' : Device} (h : Alike d d') (p : DataPacket) :
    (∃ x, d.dataMessageSnd p = .error x ∧ d'.dataMessageSnd p = .error x) ∨
    ∃ a a' n, d.dataMessageSnd p = .ok (a, n) ∧ d'.dataMessageSnd p = .ok (a', n) ∧ Alike a a' := by
  unfold Device.dataMessageSnd
  cases p.dpf with
  | dataSnd =>
    dsimp only
    cases Pdl.dataMessageSnd.decFull p.payload with
    | none => exact .inl ⟨_, rfl, rfl⟩
    | some m =>
      dsimp only
      rcases h.session m.sessionHandle with ⟨e1, e2⟩ | ⟨s, s', e1, e2, e3⟩
      · rw [e1, e2]
        exact .inr ⟨_, _, _, rfl, rfl, h⟩
      · rw [e1, e2]
        have g := unnamed_iff.1 e3
        clear e1 e2 e3
        cases s with | mk x1 x2 x3 x4 x5 x6 x7 x8 => cases s' with | mk y1 y2 y3 y4 y5 y6 y7 y8 =>
        obtain ⟨rfl, rfl, rfl, rfl, rfl, rfl, g7⟩ := g
        unfold Session.dataMessageSnd
        dsimp only
        split
        · refine .inr ⟨_, _, _, rfl, rfl, ?_⟩
          apply h.put
          exact unnamed_iff.2 ⟨rfl, rfl, rfl, rfl, rfl, rfl, g7⟩
        · split
          · exact .inl ⟨_, rfl, rfl⟩
          · refine .inr ⟨_, _, _, rfl, rfl, ?_⟩
            apply h.put
            exact unnamed_iff.2 ⟨rfl, rfl, rfl, rfl, rfl, rfl, g7⟩
  | dataRcv =>
    dsimp only
    cases Pdl.dataMessageRcv.decFull p.payload with
    | none => exact .inl ⟨_, rfl, rfl⟩
    | some m => exact .inr ⟨_, _, _, rfl, rfl, h⟩

theorem command_alike {d d' : Device} (h : Alike d d') (hn : (AMap.keys d.sessions).Nodup) (hn' : (AMap.keys d'.sessions).Nodup)
    (tid tid' : Nat) (p : ControlPacket) : Both (d.receiveCommand tid p) (d'.receiveCommand tid' p) := by
  unfold Device.receiveCommand
  rw [h.1]
  split
  · exact .of h rfl
  · cases Cmd.parse p.gid p.payload with
    | error x => exact .error _
    | ok c =>
      simp only [Bind.bind, Except.bind]
      cases c with
      | some c =>
        dsimp only
        have := exec_alike h hn hn' tid tid' c
        revert this
        generalize d.exec tid c = x
        generalize d'.exec tid' c = y
        rintro (e | ⟨h1, h2⟩)
        · exact .error _
        · exact .ok h1 h2
      | none =>
        dsimp only
        split
        · exact .of h rfl
        · exact .error _

theorem receive_alike {d d' : Device} (h : Alike d d') (hn : (AMap.keys d.sessions).Nodup) (hn' : (AMap.keys d'.sessions).Nodup)
    (tid tid' : Nat) (b : Bytes) : Both (d.receivePacket tid b) (d'.receivePacket tid' b) := by
  unfold Device.receivePacket
  cases b with
  | nil => exact .error _
  | cons b₀ rest =>
    dsimp only
    cases parseMessageType b₀ with
    | data =>
      dsimp only
      cases DataPacket.decode (b₀ :: rest) with
      | none => exact .of h rfl
      | some p =>
        dsimp only
        rcases data_alike h p with ⟨x, e1, e2⟩ | ⟨a, a', n, e1, e2, e3⟩
        · rw [e1, e2]
          exact .error _
        · rw [e1, e2]
          simp only [Bind.bind, Except.bind, Device.sending]
          split
          · exact .of e3 rfl
          · exact .error _
    | command =>
      dsimp only
      cases ControlPacket.decode (b₀ :: rest) with
      | none =>
        dsimp only
        cases rest with
        | nil => exact .error _
        | cons b₁ rest => exact .of h rfl
      | some p =>
        dsimp only
        have := command_alike h hn hn' tid tid' p
        revert this
        generalize d.receiveCommand tid p = x
        generalize d'.receiveCommand tid' p = y
        rintro (e | ⟨h1, h2⟩)
        · exact .error _
        · simp only [Bind.bind, Except.bind, Device.sending]
          split
          · exact .ok h1 h2
          · exact .error _
    | response => exact .of h rfl
    | notification => exact .of h rfl

theorem stop_alike {d d' : Device} (h : Alike d d') (mac : MacAddress) (sid : UInt32) :
    Alike (d.stopInBand mac sid).1 (d'.stopInBand mac sid).1 ∧
      (d.stopInBand mac sid).2.map nameless = (d'.stopInBand mac sid).2.map nameless := by
  unfold Device.stopInBand
  rcases h.session sid with ⟨e1, e2⟩ | ⟨s, s', e1, e2, e3⟩
  · rw [e1, e2]
    exact ⟨h, rfl⟩
  · rw [e1, e2]
    dsimp only
    rw [(unnamed_iff.1 e3).1, (unnamed_iff.1 e3).2.2.2.2.2.1, h.2.2.2.2.1]
    split
    · exact ⟨h, rfl⟩
    · split
      · obtain ⟨u1, u2⟩ := stopTask_un e3
        obtain ⟨v1, v2⟩ := setState_un u1 .sessionStateIdle .sessionStoppedDueToInbandSignal
        have w := (h.put v1 sid).active (n := d'.nActive - 1)
        split
        · obtain ⟨w1, w2⟩ := w.setState .deviceStateReady
          refine ⟨w1, ?_⟩
          simp only [List.map_append, u2, v2]
          rw [w2]
        · refine ⟨w, ?_⟩
          simp only [List.map_append, u2, v2]
      · exact ⟨h, rfl⟩

end Pica.Influence
