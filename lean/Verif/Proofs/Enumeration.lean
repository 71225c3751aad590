import Verif.Spec.Enumeration
import Verif.Proofs.Ranging
import Verif.Proofs.Book
import Verif.Proofs.Influence
/-! The order in which maps are enumerated is of no effect. -/

namespace Pica.Enumeration
open Spec

/-! ### Devices -/

/-- The sessions of a device in another order. -/
structure Again (d : Device) (l : AMap UInt32 Session) : Prop where
  get : ∀ sid, l.get? sid = d.sessions.get? sid
  perm : l.Perm d.sessions

theorem SameDevice.of {d d' : Device} {l : AMap UInt32 Session} (h : d' = { d with sessions := l })
    (hl : ∀ sid, l.get? sid = d.sessions.get? sid) : SameDevice d d' := by
  subst h
  exact ⟨rfl, hl⟩

theorem SameDevice.again {d d' : Device} (h : SameDevice d d') (hn : (AMap.keys d.sessions).Nodup)
    (hn' : (AMap.keys d'.sessions).Nodup) : Again d d'.sessions := by
  refine ⟨h.2, (List.perm_ext_iff_of_nodup (.of_map Prod.fst hn') (.of_map Prod.fst hn)).2 ?_⟩
  rintro ⟨k, v⟩
  rw [← AMap.get?_iff_mem hn', ← AMap.get?_iff_mem hn, h.2]

theorem SameDevice.refl (d : Device) : SameDevice d d := ⟨rfl, fun _ => rfl⟩

theorem SameDevice.symm {d d' : Device} (h : SameDevice d d') : SameDevice d' d := by
  obtain ⟨h1, h2⟩ := h
  refine ⟨?_, fun sid => (h2 sid).symm⟩
  rw [h1]

theorem SameDevice.trans {a b c : Device} (h : SameDevice a b) (g : SameDevice b c) : SameDevice a c := by
  refine ⟨?_, fun sid => (g.2 sid).trans (h.2 sid)⟩
  rw [g.1, h.1]

theorem insert_get {l m : AMap UInt32 Session} (h : ∀ sid, l.get? sid = m.get? sid) (k : UInt32) (s : Session) (sid : UInt32) :
    (l.insert k s).get? sid = (m.insert k s).get? sid := by
  rw [AMap.get?_insert, AMap.get?_insert, h]

theorem erase_get {l m : AMap UInt32 Session} (h : ∀ sid, l.get? sid = m.get? sid) (k : UInt32) (sid : UInt32) :
    (l.erase k).get? sid = (m.erase k).get? sid := by
  rw [AMap.get?_erase, AMap.get?_erase, h]

/-- The results of a handler are the same. -/
inductive BothSame {α : Type} : Except Panic (Device × α × List Effect) → Except Panic (Device × α × List Effect) → Prop
  | error (e : Panic) : BothSame (.error e) (.error e)
  | ok {d d' : Device} {r : α} {e e' : List Effect} : SameDevice d d' → e.Perm e' → BothSame (.ok (d, r, e)) (.ok (d', r, e'))

theorem BothSame.plain {α : Type} {d : Device} {l : AMap UInt32 Session} {r : α} {e : List Effect}
    (h : ∀ sid, l.get? sid = d.sessions.get? sid) : BothSame (.ok (d, r, e)) (.ok ({ d with sessions := l }, r, e)) :=
  .ok ⟨rfl, h⟩ (.refl _)

theorem same_setState {d d' : Device} (h : SameDevice d d') (st : DeviceState) :
    SameDevice (d.setState st).1 (d'.setState st).1 ∧ (d.setState st).2 = (d'.setState st).2 := by
  obtain ⟨h1, h2⟩ := h
  have e : d'.state = d.state := by rw [h1]
  unfold Device.setState
  rw [e]
  split
  · exact ⟨⟨h1, h2⟩, rfl⟩
  · refine ⟨⟨?_, h2⟩, rfl⟩
    dsimp only
    rw [h1]

theorem same_active {d d' : Device} (h : SameDevice d d') (n : Nat) :
    SameDevice { d with nActive := n } { d' with nActive := n } := by
  obtain ⟨h1, h2⟩ := h
  refine ⟨?_, h2⟩
  dsimp only
  rw [h1]

theorem same_put {d d' : Device} (h : SameDevice d d') (sid : UInt32) (s : Session) :
    SameDevice (d.putSession sid s) (d'.putSession sid s) := by
  obtain ⟨h1, h2⟩ := h
  refine ⟨?_, insert_get h2 sid s⟩
  unfold Device.putSession
  dsimp only
  rw [h1]

theorem same_erase {d d' : Device} (h : SameDevice d d') (sid : UInt32) :
    SameDevice { d with sessions := d.sessions.erase sid } { d' with sessions := d'.sessions.erase sid } := by
  obtain ⟨h1, h2⟩ := h
  refine ⟨?_, erase_get h2 sid⟩
  dsimp only
  rw [h1]

theorem same_session {d d' : Device} (h : SameDevice d d') (sid : UInt32) : d'.session sid = d.session sid := h.2 sid

theorem same_release {d d' : Device} (h : SameDevice d d') :
    (∃ e, d.releaseActive = .error e ∧ d'.releaseActive = .error e) ∨
    ∃ a a' e, d.releaseActive = .ok (a, e) ∧ d'.releaseActive = .ok (a', e) ∧ SameDevice a a' := by
  have e : d'.nActive = d.nActive := by rw [h.1]
  unfold Device.releaseActive
  rw [e]
  split
  · exact .inl ⟨_, rfl, rfl⟩
  · dsimp only
    split
    · obtain ⟨g1, g2⟩ := same_setState (same_active h (d.nActive - 1)) .deviceStateReady
      exact .inr ⟨_, _, _, rfl, congrArg Except.ok (Prod.ext rfl g2.symm), g1⟩
    · exact .inr ⟨_, _, _, rfl, rfl, same_active h _⟩

theorem exec_same {d d' : Device} (h : SameDevice d d') (ha : Again d d'.sessions) (tid : Nat) (c : Cmd) :
    BothSame (d.exec tid c) (d'.exec tid c) := by
  have hh : d'.handle = d.handle := by rw [h.1]
  have hc : d'.config = d.config := by rw [h.1]
  have hs : d'.state = d.state := by rw [h.1]
  have hn : d'.nActive = d.nActive := by rw [h.1]
  have hm : d'.macAddress = d.macAddress := by rw [h.1]
  cases c with
  | coreDeviceReset =>
    simp only [Device.exec, Device.coreDeviceReset]
    rw [hh, hm]
    refine .ok (.refl _) (List.Perm.append_right _ ?_)
    unfold Device.dropSessions AMap.values
    exact ((ha.perm.map Prod.snd).flatMap_right _).symm
  | coreGetDeviceInfo =>
    simp only [Device.exec, Device.coreGetDeviceInfo]
    rw [hs]
    split
    · exact .ok h (.refl _)
    · exact .error _
  | coreGetCapsInfo => exact .ok h (.refl _)
  | coreSetConfig ps =>
    simp only [Device.exec, Device.coreSetConfig]
    rw [hs, hc]
    split
    · refine .ok ⟨?_, h.2⟩ (.refl _)
      dsimp only
      rw [h.1]
    · exact .error _
  | coreGetConfig ids =>
    simp only [Device.exec, Device.coreGetConfig]
    rw [hc]
    exact .ok h (.refl _)
  | sessionInit sid ty =>
    simp only [Device.exec, Device.sessionInit]
    rw [ha.perm.length_eq, hh, same_session h]
    split
    · exact .ok h (.refl _)
    · cases d.session sid with
      | none => exact .ok (same_put h _ _) (.refl _)
      | some old => exact .ok (same_put h _ _) (.refl _)
  | sessionDeinit sid =>
    simp only [Device.exec, Device.sessionDeinit]
    rw [same_session h]
    cases d.session sid with
    | none => exact .ok h (.refl _)
    | some s =>
      simp only [Bind.bind, Except.bind]
      by_cases hst : s.state = .sessionStateActive
      · rw [if_pos hst, if_pos hst]
        rcases same_release h with ⟨e, e1, e2⟩ | ⟨a, a', e, e1, e2, e3⟩
        · rw [e1, e2]
          exact .error _
        · rw [e1, e2]
          exact .ok (same_erase e3 _) (.refl _)
      · rw [if_neg hst, if_neg hst]
        exact .ok (same_erase h _) (.refl _)
  | sessionGetCount =>
    simp only [Device.exec, Device.sessionGetCount]
    rw [ha.perm.length_eq]
    exact .ok h (.refl _)
  | sessionSetAppConfig sid tlvs =>
    simp only [Device.exec, Device.sessionSetAppConfig]
    rw [same_session h]
    cases d.session sid with
    | none => exact .ok h (.refl _)
    | some s =>
      dsimp only
      split
      · exact .error _
      · split
        · exact .ok h (.refl _)
        · split
          · exact .ok h (.refl _)
          · simp only [Bind.bind, Except.bind]
            cases Device.setAppConfigLoop s.appConfig tlvs with
            | error => exact .error _
            | ok x =>
              dsimp only
              split
              · exact .ok h (.refl _)
              · split
                · exact .ok (same_put h _ _) (.refl _)
                · exact .ok h (.refl _)
  | sessionGetAppConfig sid ids =>
    simp only [Device.exec, Device.sessionGetAppConfig]
    rw [same_session h]
    cases d.session sid with
    | none => exact .ok h (.refl _)
    | some s => exact .ok h (.refl _)
  | sessionGetState sid =>
    simp only [Device.exec, Device.sessionGetState]
    rw [same_session h]
    cases d.session sid with
    | none => exact .ok h (.refl _)
    | some s => exact .ok h (.refl _)
  | sessionUpdateMulticast sid a q =>
    simp only [Device.exec, Device.sessionUpdateMulticast]
    rw [same_session h]
    cases d.session sid with
    | none => exact .ok h (.refl _)
    | some s =>
      dsimp only
      split
      · exact .ok h (.refl _)
      · cases Device.parseControlees a q with
        | none => exact .ok h (.refl _)
        | some addrs => exact .ok (same_put h _ _) (.refl _)
  | sessionStart sid =>
    simp only [Device.exec, Device.sessionStart]
    rw [same_session h]
    cases d.session sid with
    | none => exact .ok h (.refl _)
    | some s =>
      dsimp only
      split
      · exact .ok h (.refl _)
      · split
        · exact .error _
        · obtain ⟨g1, g2⟩ := same_setState (same_active (same_put h sid
            (Session.setState { s with rangingTask := some tid } .sessionStateActive .stateChangeWithSessionManagementCommands).1)
            (d.nActive + 1)) .deviceStateActive
          rw [hn, g2]
          exact .ok g1 (.refl _)
  | sessionStop sid =>
    simp only [Device.exec, Device.sessionStop]
    rw [same_session h]
    cases d.session sid with
    | none => exact .ok h (.refl _)
    | some s =>
      dsimp only
      split
      · exact .ok h (.refl _)
      · simp only [Bind.bind, Except.bind]
        rcases same_release (same_put h sid
          (s.stopRangingTask.1.setState .sessionStateIdle .stateChangeWithSessionManagementCommands).1) with
          ⟨e, e1, e2⟩ | ⟨a, a', e, e1, e2, e3⟩
        · rw [e1, e2]
          exact .error _
        · rw [e1, e2]
          exact .ok e3 (.refl _)
  | sessionGetRangingCount sid =>
    simp only [Device.exec, Device.sessionGetRangingCount]
    rw [same_session h]
    cases d.session sid with
    | none => exact .ok h (.refl _)
    | some s => exact .ok h (.refl _)
  | androidGetPowerStats => exact .ok h (.refl _)
  | androidSetCountryCode cc =>
    refine .ok ⟨?_, h.2⟩ (.refl _)
    dsimp only
    rw [h.1]

theorem command_same {d d' : Device} (h : SameDevice d d') (ha : Again d d'.sessions) (tid : Nat) (c : ControlPacket) :
    BothSame (d.receiveCommand tid c) (d'.receiveCommand tid c) := by
  have hr : d'.isReset = d.isReset := by rw [h.1]
  unfold Device.receiveCommand
  rw [hr]
  split
  · exact .ok h (.refl _)
  · simp only [Bind.bind, Except.bind]
    cases Cmd.parse c.gid c.payload with
    | error => exact .error _
    | ok x =>
      cases x with
      | none =>
        dsimp only
        cases c.payload with
        | nil => exact .error _
        | cons b₀ rest =>
          cases rest with
          | nil => exact .error _
          | cons b₁ rest => exact .ok h (.refl _)
      | some x =>
        dsimp only
        have g := exec_same h ha tid x
        generalize d.exec tid x = A, d'.exec tid x = B at g
        cases g with
        | error => exact .error _
        | ok h e => exact .ok h e

theorem receive_same {d d' : Device} (h : SameDevice d d') (ha : Again d d'.sessions) (tid : Nat) (pkt : Bytes) :
    BothSame (d.receivePacket tid pkt) (d'.receivePacket tid pkt) := by
  unfold Device.receivePacket
  cases pkt with
  | nil => exact .error _
  | cons b₀ rest =>
    dsimp only
    cases parseMessageType b₀ with
    | data =>
      dsimp only
      cases DataPacket.decode (b₀ :: rest) with
      | none => exact .ok h (.refl _)
      | some x =>
        simp only [Bind.bind, Except.bind, Device.dataMessageSnd]
        cases x.dpf with
        | dataSnd =>
          dsimp only
          cases Pdl.dataMessageSnd.decFull x.payload with
          | none => exact .error _
          | some m =>
            dsimp only
            rw [same_session h]
            cases d.session m.sessionHandle with
            | none =>
              dsimp only
              unfold Device.sending
              split
              · exact .ok h (.refl _)
              · exact .error _
            | some s =>
              dsimp only
              cases s.dataMessageSnd m with
              | error => exact .error _
              | ok y =>
                dsimp only
                unfold Device.sending
                split
                · exact .ok (same_put h _ _) (.refl _)
                · exact .error _
        | dataRcv =>
          dsimp only
          cases Pdl.dataMessageRcv.decFull x.payload with
          | none => exact .error _
          | some m =>
            dsimp only
            unfold Device.sending
            split
            · exact .ok h (.refl _)
            · exact .error _
    | command =>
      dsimp only
      cases ControlPacket.decode (b₀ :: rest) with
      | none =>
        dsimp only
        cases rest with
        | nil => exact .error _
        | cons b₁ rest => exact .ok h (.refl _)
      | some x =>
        simp only [Bind.bind, Except.bind]
        have g := command_same h ha tid x
        generalize d.receiveCommand tid x = A, d'.receiveCommand tid x = B at g
        cases g with
        | error => exact .error _
        | ok h he =>
          dsimp only
          unfold Device.sending
          split
          · exact .ok h he
          · exact .error _
    | response => exact .ok h (.refl _)
    | notification => exact .ok h (.refl _)

theorem stop_same {d d' : Device} (h : SameDevice d d') (mac : MacAddress) (sid : UInt32) :
    SameDevice (d.stopInBand mac sid).1 (d'.stopInBand mac sid).1 ∧ (d.stopInBand mac sid).2 = (d'.stopInBand mac sid).2 := by
  have hn : d'.nActive = d.nActive := by rw [h.1]
  unfold Device.stopInBand
  rw [same_session h]
  cases d.session sid with
  | none => exact ⟨h, rfl⟩
  | some s =>
    dsimp only
    split
    · exact ⟨h, rfl⟩
    · split
      · have g := same_active (same_put h sid
          (s.stopRangingTask.1.setState .sessionStateIdle .sessionStoppedDueToInbandSignal).1) (d.nActive - 1)
        have g' := same_setState g .deviceStateReady
        rw [hn]
        by_cases hz : d.nActive - 1 = 0
        · rw [if_pos hz, if_pos hz]
          exact ⟨g'.1, congrArg (_ ++ ·) g'.2⟩
        · rw [if_neg hz, if_neg hz]
          exact ⟨g, rfl⟩
      · exact ⟨h, rfl⟩

/-! ### Rounds -/

section
variable (est : Nat → Nat → Option RangingMeasurement) (dh h : Nat) (sid : UInt32) (s : Session) (b : Bool)

/-- The loop over the devices, keeping the handles of the receivers. -/
def walk (l : List Device) : Option (List Measurement × List Nat) :=
  match Pica.peerLoop est dh h sid s b l with
  | .ok (xs, ds) => some (xs, ds.map (·.handle))
  | .error _ => none

/-- Joining what two parts of the loop yield. -/
def join : Option (List Measurement × List Nat) → Option (List Measurement × List Nat) → Option (List Measurement × List Nat)
  | some a, some b => some (a.1 ++ b.1, a.2 ++ b.2)
  | _, _ => none

theorem walk_cons (q : Device) (qs : List Device) :
    walk est dh h sid s b (q :: qs) = join (walk est dh h sid s b [q]) (walk est dh h sid s b qs) := by
  unfold walk
  simp only [Pica.peerLoop]
  generalize Pica.peerLoop est dh h sid s b qs = R
  by_cases hq : q.handle = dh
  · simp only [if_pos hq]
    cases R <;> rfl
  · simp only [if_neg hq, Bind.bind, Except.bind]
    cases q.canStartRanging s sid with
    | error => cases R <;> rfl
    | ok c =>
      cases c with
      | false =>
        dsimp only
        cases R with
        | error => rfl
        | ok x => cases b && q.canReceiveDataTransfer sid <;> rfl
      | true =>
        dsimp only
        cases (q.session sid).bind fun t => t.appConfig.deviceMacAddress with
        | none => cases R <;> rfl
        | some mac =>
          dsimp only
          cases est h q.handle with
          | none => cases R <;> rfl
          | some l =>
            cases est q.handle h with
            | none => cases R <;> rfl
            | some r =>
              dsimp only
              cases Pica.makeMeasurement mac l r with
              | error => cases R <;> rfl
              | ok x =>
                cases R with
                | error => rfl
                | ok y => cases b && q.canReceiveDataTransfer sid <;> rfl

theorem walk_one {q q' : Device} (hq : SameDevice q q') : walk est dh h sid s b [q'] = walk est dh h sid s b [q] := by
  have hh : q'.handle = q.handle := by rw [hq.1]
  have hA : q'.canStartRanging s sid = q.canStartRanging s sid := by
    unfold Device.canStartRanging
    rw [same_session hq]
  have hB : q'.canReceiveDataTransfer sid = q.canReceiveDataTransfer sid := by
    unfold Device.canReceiveDataTransfer
    rw [same_session hq]
  unfold walk
  simp only [Pica.peerLoop]
  rw [hA, hB, hh, same_session hq]
  by_cases he : q.handle = dh
  · simp only [if_pos he]
  · simp only [if_neg he, Bind.bind, Except.bind]
    generalize q.canStartRanging s sid = A
    generalize (b && q.canReceiveDataTransfer sid) = B
    cases A with
    | error => rfl
    | ok c =>
      cases c with
      | false =>
        dsimp only
        cases B
        · rfl
        · simp [hh]
      | true =>
        dsimp only
        cases (q.session sid).bind fun t => t.appConfig.deviceMacAddress with
        | none => rfl
        | some mac =>
          dsimp only
          cases est h q.handle with
          | none => rfl
          | some l =>
            cases est q.handle h with
            | none => rfl
            | some r =>
              dsimp only
              cases Pica.makeMeasurement mac l r with
              | error => rfl
              | ok x =>
                cases B
                · rfl
                · simp [hh]

theorem walk_same {l l' : List Device} (hl : List.Forall₂ SameDevice l l') :
    walk est dh h sid s b l' = walk est dh h sid s b l := by
  induction hl with
  | nil => rfl
  | @cons q q' l l' hq _ ih =>
    rw [walk_cons est dh h sid s b q' l', walk_cons est dh h sid s b q l, walk_one est dh h sid s b hq, ih]

theorem walk_perm {l l' : List Device} (hp : l.Perm l') {xs : List Measurement} {hs : List Nat}
    (hw : walk est dh h sid s b l = some (xs, hs)) :
    ∃ xs' hs', walk est dh h sid s b l' = some (xs', hs') ∧ xs.Perm xs' ∧ hs.Perm hs' := by
  induction hp generalizing xs hs with
  | nil => exact ⟨xs, hs, hw, .refl _, .refl _⟩
  | cons q _ ih =>
    rw [walk_cons] at hw ⊢
    cases h1 : walk est dh h sid s b [q] with
    | none => rw [h1] at hw; cases hw
    | some x =>
      rename_i l₁ l₂ _
      cases h2 : walk est dh h sid s b l₁ with
      | none => rw [h1, h2] at hw; cases hw
      | some y =>
        rw [h1, h2] at hw
        cases hw
        obtain ⟨xs', hs', e, g1, g2⟩ := ih h2
        rw [e]
        exact ⟨_, _, rfl, g1.append_left _, g2.append_left _⟩
  | swap q r l =>
    rw [walk_cons, walk_cons est dh h sid s b q l] at hw
    rw [walk_cons, walk_cons est dh h sid s b r l]
    cases h1 : walk est dh h sid s b [q] with
    | none =>
      rw [h1] at hw
      cases h2 : walk est dh h sid s b [r] <;> rw [h2] at hw <;> cases hw
    | some x =>
      cases h2 : walk est dh h sid s b [r] with
      | none => rw [h2] at hw; cases hw
      | some y =>
        cases h3 : walk est dh h sid s b l with
        | none => rw [h1, h2, h3] at hw; cases hw
        | some z =>
          rw [h1, h2, h3] at hw
          cases hw
          refine ⟨_, _, rfl, ?_, ?_⟩
          · rw [← List.append_assoc, ← List.append_assoc]
            exact List.perm_append_comm.append_right _
          · rw [← List.append_assoc, ← List.append_assoc]
            exact List.perm_append_comm.append_right _
  | trans _ _ ih1 ih2 =>
    obtain ⟨xs', hs', e, g1, g2⟩ := ih1 hw
    obtain ⟨xs'', hs'', e', g1', g2'⟩ := ih2 e
    exact ⟨_, _, e', g1.trans g1', g2.trans g2'⟩

end

/-- The data packet of a session. -/
def dataOf (sid : UInt32) (s : Session) : Packet :=
  .data {
    sessionHandle := sid
    status := .ok
    sourceAddress := (s.appConfig.deviceMacAddress.map (·.toU64)).getD 0
    dataSequenceNumber := 1
    applicationData := s.data }

theorem data_iff {alive : Nat → Bool} {sid : UInt32} {s : Session} {ts : List Device} {o : List Out} :
    Pica.dataSends alive sid s ts = .ok o ↔
      (∀ k ∈ ts.map (·.handle), s.appConfig.deviceMacAddress ≠ none ∧ (dataOf sid s).encode.isSome = true ∧ alive k = true) ∧
      o = (ts.map (·.handle)).map fun k => .send k (dataOf sid s) := by
  induction ts generalizing o with
  | nil =>
    constructor
    · intro e; cases e; exact ⟨by simp, rfl⟩
    · rintro ⟨-, rfl⟩; rfl
  | cons q ts ih =>
    unfold Pica.dataSends
    cases hm : s.appConfig.deviceMacAddress with
    | none =>
      constructor
      · intro e; cases e
      · rintro ⟨e, -⟩
        exact absurd rfl (e q.handle (by simp)).1
    | some mac =>
      rw [hm] at ih
      have hX : dataOf sid s = .data {
          sessionHandle := sid
          status := .ok
          sourceAddress := mac.toU64
          dataSequenceNumber := 1
          applicationData := s.data } := by
        unfold dataOf; rw [hm]; rfl
      dsimp only
      rw [← hX]
      unfold Pica.sendUnwrap
      cases he : (dataOf sid s).encode with
      | none =>
        constructor
        · intro e; cases e
        · rintro ⟨e, -⟩
          have := (e q.handle (by simp)).2.1
          simp at this
      | some bs =>
        rw [he] at ih
        cases ha : alive q.handle with
        | false =>
          constructor
          · intro e; cases e
          · rintro ⟨e, -⟩
            have := (e q.handle (by simp)).2.2
            rw [ha] at this
            cases this
        | true =>
          simp only [Bind.bind, Except.bind, Option.isNone_some, Bool.not_true, Bool.false_eq_true, if_false]
          cases hd : Pica.dataSends alive sid s ts with
          | error x =>
            constructor
            · intro e; cases e
            · rintro ⟨e, -⟩
              have := ih.2 ⟨fun k hk => e k (by simp at hk ⊢; exact .inr hk), rfl⟩
              rw [hd] at this
              cases this
          | ok os =>
            obtain ⟨g1, g2⟩ := ih.1 hd
            dsimp only
            constructor
            · intro e
              cases e
              refine ⟨?_, by rw [g2]; rfl⟩
              intro k hk
              rcases List.mem_cons.1 hk with rfl | hk
              · exact ⟨by simp, rfl, ha⟩
              · exact g1 k hk
            · rintro ⟨-, e⟩
              rw [e, g2]
              rfl

theorem sentTo_sends (k : Nat) (X : Packet) (l : List Nat) :
    sentTo k (l.map fun h => .send h X) = List.replicate (l.count k) X := by
  induction l with
  | nil => rfl
  | cons a l ih =>
    rw [List.map_cons, show ∀ (x : Out) m, x :: m = [x] ++ m from fun _ _ => rfl, sentTo_append, ih, sentTo_send, List.count_cons]
    by_cases e : a = k
    · subst e
      simp [List.replicate_succ]
    · simp [e]

theorem effectsOf_sends (k : Nat) (X : Packet) (l : List Nat) : effectsOf k (l.map fun h => .send h X) = [] := by
  induction l with
  | nil => rfl
  | cons a l ih =>
    rw [List.map_cons, show ∀ (x : Out) m, x :: m = [x] ++ m from fun _ _ => rfl, effectsOf_append, ih]
    rfl

/-! ### States -/

theorem SameEntry.refl (o : Option Device) : SameEntry o o := by
  cases o with
  | none => trivial
  | some d => exact SameDevice.refl d

theorem SameEntry.symm {a b : Option Device} (h : SameEntry a b) : SameEntry b a := by
  cases a <;> cases b
  · trivial
  · exact h
  · exact h
  · exact SameDevice.symm h

theorem SameEntry.trans {a b c : Option Device} (h : SameEntry a b) (g : SameEntry b c) : SameEntry a c := by
  cases a <;> cases b
  · exact g
  · exact h.elim
  · exact h.elim
  · cases c
    · exact g
    · exact SameDevice.trans h g

theorem SameState.refl (p : Pica) : SameState p p := ⟨rfl, fun _ => .refl _, fun _ => rfl⟩

theorem SameState.symm {p q : Pica} (h : SameState p q) : SameState q p :=
  ⟨h.1.symm, fun x => (h.2.1 x).symm, fun m => (h.2.2 m).symm⟩

theorem SameState.trans {p q r : Pica} (h : SameState p q) (g : SameState q r) : SameState p r :=
  ⟨g.1.trans h.1, fun x => (h.2.1 x).trans (g.2.1 x), fun m => (g.2.2 m).trans (h.2.2 m)⟩

theorem entry_some {o o' : Option Device} (h : SameEntry o o') {d : Device} (e : o = some d) : ∃ d', o' = some d' ∧ SameDevice d d' := by
  subst e
  cases o' with
  | none => exact h.elim
  | some d' => exact ⟨d', rfl, h⟩

theorem entry_none {o o' : Option Device} (h : SameEntry o o') (e : o = none) : o' = none := by
  subst e
  cases o' with
  | none => rfl
  | some d' => exact h.elim

theorem entry_insert {p q : AMap Nat Device} (h : ∀ x, SameEntry (p.get? x) (q.get? x)) (k : Nat) {d d' : Device} (hd : SameDevice d d')
    (x : Nat) : SameEntry ((p.insert k d).get? x) ((q.insert k d').get? x) := by
  rw [AMap.get?_insert, AMap.get?_insert]
  split
  · exact hd
  · exact h x

theorem entry_erase {p q : AMap Nat Device} (h : ∀ x, SameEntry (p.get? x) (q.get? x)) (k : Nat) (x : Nat) :
    SameEntry ((p.erase k).get? x) ((q.erase k).get? x) := by
  rw [AMap.get?_erase, AMap.get?_erase]
  split
  · trivial
  · exact h x

/-- The devices of the one state, in the order of the other. -/
theorem same_values {p q : Pica} (hp : p.PInv) (hq : q.PInv) (h : SameState p q) :
    ∃ m, p.devices.values.Perm m ∧ List.Forall₂ SameDevice m q.devices.values := by
  let f : Nat → Device := fun k => (p.devices.get? k).getD (Device.new 0 (Pica.deviceMac 0))
  have hkeys : (AMap.keys p.devices).Perm (AMap.keys q.devices) := by
    refine (List.perm_ext_iff_of_nodup hp.devNodup hq.devNodup).2 fun k => ?_
    have h1 : k ∉ AMap.keys p.devices ↔ k ∉ AMap.keys q.devices := by
      rw [← AMap.get?_eq_none, ← AMap.get?_eq_none]
      exact ⟨entry_none (h.2.1 k), entry_none (h.2.1 k).symm⟩
    exact not_iff_not.1 h1
  have hv : p.devices.values = (AMap.keys p.devices).map f := by
    unfold AMap.values AMap.keys
    rw [List.map_map]
    refine List.map_congr_left fun e he => ?_
    show e.2 = (p.devices.get? e.1).getD _
    rw [AMap.get?_of_mem hp.devNodup (v := e.2) he]
    rfl
  refine ⟨(AMap.keys q.devices).map f, ?_, ?_⟩
  · rw [hv]
    exact hkeys.map f
  · unfold AMap.values AMap.keys
    rw [List.map_map, List.forall₂_map_left_iff, List.forall₂_map_right_iff, List.forall₂_same]
    intro e he
    have g := h.2.1 e.1
    rw [AMap.get?_of_mem hq.devNodup (v := e.2) he] at g
    obtain ⟨d, e1, e2⟩ := entry_some g.symm rfl
    show SameDevice ((p.devices.get? e.1).getD _) e.2
    rw [e1]
    exact e2.symm

theorem known_same {p q : Pica} (hp : p.PInv) (hq : q.PInv) (h : SameState p q) (mac : MacAddress) : q.macKnown mac = p.macKnown mac := by
  have key : ∀ {p q : Pica}, p.PInv → q.PInv → SameState p q → p.macKnown mac = true → q.macKnown mac = true := by
    intro p q hp hq h e
    unfold Pica.macKnown at e ⊢
    rw [h.2.2]
    rw [Bool.or_eq_true] at e ⊢
    refine e.imp id fun e => ?_
    rw [List.any_eq_true] at e ⊢
    obtain ⟨⟨k, d⟩, e1, e2⟩ := e
    obtain ⟨d', g1, g2⟩ := entry_some (h.2.1 k) (AMap.get?_of_mem hp.devNodup e1)
    refine ⟨(k, d'), AMap.mem_of_get? g1, ?_⟩
    have : d'.macAddress = d.macAddress := by rw [g2.1]
    dsimp only
    rw [this]
    exact e2
  rw [Bool.eq_iff_iff]
  exact ⟨key hq hp h.symm, key hp hq h⟩

theorem anchor_same {p q : Pica} (h : SameState p q) (est : Nat → Nat → Option RangingMeasurement) (k : Nat) (l : List MacAddress) :
    Pica.anchorMeasurements est q.anchors k l = Pica.anchorMeasurements est p.anchors k l := by
  induction l with
  | nil => rfl
  | cons m l ih =>
    unfold Pica.anchorMeasurements
    rw [h.2.2, ih]

theorem packets_refl (l : List Packet) : List.Forall₂ SamePacket l l := List.forall₂_same.2 fun _ _ => .refl _

theorem SameOut.refl (out : List Out) : SameOut out out := ⟨fun _ => ⟨packets_refl _, .refl _⟩, rfl⟩

theorem announced_append (a b : List Out) : announced (a ++ b) = announced a ++ announced b := List.filter_append ..

theorem announced_effects (k : Nat) (es : List Effect) : announced (es.map (.effect k)) = [] := by
  unfold announced
  rw [List.filter_eq_nil_iff]
  intro x hx
  obtain ⟨e, -, rfl⟩ := List.mem_map.1 hx
  simp

theorem announced_sends (X : Packet) (l : List Nat) : announced (l.map fun h => .send h X) = [] := by
  unfold announced
  rw [List.filter_eq_nil_iff]
  intro x hx
  obtain ⟨e, -, rfl⟩ := List.mem_map.1 hx
  simp

theorem SameOut.append {a b a' b' : List Out} (h : SameOut a a') (g : SameOut b b') : SameOut (a ++ b) (a' ++ b') := by
  refine ⟨fun k => ?_, ?_⟩
  · rw [sentTo_append, sentTo_append, effectsOf_append, effectsOf_append]
    exact ⟨List.rel_append (h.1 k).1 (g.1 k).1, (h.1 k).2.append (g.1 k).2⟩
  · rw [announced_append, announced_append, h.2, g.2]

theorem out_effects {k : Nat} {es es' : List Effect} (h : es.Perm es') : SameOut (es.map (.effect k)) (es'.map (.effect k)) := by
  refine ⟨fun x => ?_, by rw [announced_effects, announced_effects]⟩
  rw [sentTo_map, sentTo_map, effectsOf_map, effectsOf_map]
  refine ⟨.nil, ?_⟩
  split
  · exact h
  · exact .refl _

theorem out_sends {X : Packet} {l l' : List Nat} (h : l.Perm l') :
    SameOut (l.map fun h => .send h X) (l'.map fun h => .send h X) := by
  refine ⟨fun x => ?_, by rw [announced_sends, announced_sends]⟩
  rw [sentTo_sends, sentTo_sends, effectsOf_sends, effectsOf_sends, h.count_eq]
  exact ⟨packets_refl _, .refl _⟩

theorem out_round {k : Nat} {X Y : Packet} (h : SamePacket X Y) : SameOut [.send k X] [.send k Y] := by
  refine ⟨fun x => ?_, rfl⟩
  rw [sentTo_send, sentTo_send]
  refine ⟨?_, .refl _⟩
  split
  · exact .cons h .nil
  · exact .nil

theorem unwrap_ok {alive : Nat → Bool} {k : Nat} {X : Packet} (h : Pica.sendUnwrap alive k X = .ok [.send k X]) :
    X.encode.isSome = true ∧ alive k = true := by
  unfold Pica.sendUnwrap at h
  cases he : X.encode with
  | none => rw [he] at h; cases h
  | some b =>
    rw [he] at h
    cases ha : alive k with
    | false => rw [ha] at h; cases h
    | true => exact ⟨rfl, rfl⟩

theorem unwrap_of {alive : Nat → Bool} {k : Nat} {X : Packet} (h : X.encode.isSome = true) (ha : alive k = true) :
    Pica.sendUnwrap alive k X = .ok [.send k X] := by
  unfold Pica.sendUnwrap
  obtain ⟨b, hb⟩ := Option.isSome_iff_exists.1 h
  rw [hb, ha]
  rfl

theorem ranging_same {p q p' : Pica} {env : Env} {k : Nat} {sid : UInt32} {out : List Out} (hp : p.PInv) (hq : q.PInv) (h : SameState p q)
    (hs : p.ranging env k sid = .ok (p', out)) :
    ∃ q' out', q.ranging env k sid = .ok (q', out') ∧ SameState p' q' ∧ SameOut out out' := by
  obtain ⟨d, s, ms, ms', ts, o₁, e1, e2, e3, e4, e5, e6⟩ := Pica.ranging_ok hs
  obtain ⟨d', f1, f2⟩ := entry_some (h.2.1 k) e1
  have hh : d'.handle = d.handle := by rw [f2.1]
  have hc : d'.canStartDataTransfer sid = d.canStartDataTransfer sid := by
    unfold Device.canStartDataTransfer
    rw [same_session f2]
  obtain ⟨m, m1, m2⟩ := same_values hp hq h
  have w : walk env.estimate k d.handle sid s (d.canStartDataTransfer sid) p.devices.values = some (ms', ts.map (·.handle)) := by
    unfold walk
    rw [e4]
  obtain ⟨xs, hs', w1, w2, w3⟩ := walk_perm _ _ _ _ _ _ m1 w
  rw [← walk_same _ _ _ _ _ _ m2] at w1
  unfold walk at w1
  cases g4 : Pica.peerLoop env.estimate k d.handle sid s (d.canStartDataTransfer sid) q.devices.values with
  | error => rw [g4] at w1; cases w1
  | ok y =>
    obtain ⟨ys, us⟩ := y
    rw [g4] at w1
    cases w1
    obtain ⟨i1, i2⟩ := data_iff.1 e5
    have g5 := (data_iff (ts := us)).2 ⟨fun x hx => i1 x (w3.mem_iff.2 hx), rfl⟩
    have g3 := anchor_same h env.estimate d.handle s.appConfig.dstMacAddress
    rw [e3] at g3
    have hm : (ms ++ ms').Perm (ms ++ xs) := w2.append_left _
    have ho : SameOut o₁ ((us.map (·.handle)).map fun x => .send x (dataOf sid s)) := by
      rw [i2]
      exact out_sends w3
    unfold Pica.ranging
    rw [f1]
    dsimp only
    rw [same_session f2, e2]
    simp only [Bind.bind, Except.bind, hh, hc, g3, g4, g5]
    rcases e6 with ⟨j1, j2, j3, j4, j5⟩ | ⟨j1, j3, j5⟩
    · rw [if_pos j1]
      obtain ⟨u1, u2⟩ := unwrap_ok j2
      have u3 : (Packet.ntf (.sessionInfo s.sequenceNumber sid 0 0 (ms ++ xs) [])).encode.isSome = true := by
        refine ntf_isSome.mpr ?_
        have := ntf_isSome.mp u1
        show (ms ++ xs).length ≤ 255
        rw [← hm.length_eq]
        exact this
      rw [unwrap_of u3 u2]
      dsimp only
      rw [if_pos j4]
      refine ⟨_, _, rfl, ?_, ?_⟩
      · subst j5
        exact ⟨h.1, entry_insert h.2.1 k (same_put f2 _ _), h.2.2⟩
      · rw [j3]
        exact ho.append (out_round (.round _ _ _ _ _ _ _ hm))
    · rw [if_neg (by simp [j1])]
      refine ⟨_, _, rfl, ?_, ?_⟩
      · subst j5
        exact ⟨h.1, entry_insert h.2.1 k (same_put f2 _ _), h.2.2⟩
      · rw [j3]
        exact ho

theorem connect_same {p q : Pica} (h : SameState p q) :
    SameState p.addDevice.1 q.addDevice.1 ∧ SameOut p.addDevice.2 q.addDevice.2 := by
  obtain ⟨n, l, m⟩ := q
  obtain ⟨h1, h2, h3⟩ := h
  dsimp only at h1 h2 h3
  subst h1
  exact ⟨⟨rfl, entry_insert h2 _ (.refl _), h3⟩, .refl _⟩

theorem disconnect_same {p q : Pica} (hp : p.PInv) (hq : q.PInv) (h : SameState p q) (k : Nat) :
    SameState (p.disconnect k).1 (q.disconnect k).1 ∧ SameOut (p.disconnect k).2 (q.disconnect k).2 := by
  unfold Pica.disconnect
  cases e : p.devices.get? k with
  | none =>
    rw [entry_none (h.2.1 k) e]
    exact ⟨h, .refl _⟩
  | some d =>
    obtain ⟨d', f1, f2⟩ := entry_some (h.2.1 k) e
    have hm : d'.macAddress = d.macAddress := by rw [f2.1]
    rw [f1]
    dsimp only
    rw [hm]
    refine ⟨⟨h.1, entry_erase h.2.1 k, h.2.2⟩, ?_⟩
    have ha := f2.again (hp.dev k d e).2.2.2.nodup (hq.dev k d' f1).2.2.2.nodup
    exact (SameOut.refl [_]).append (out_effects ((ha.perm.map Prod.snd).flatMap_right _).symm)

theorem stops_plain (l : AMap Nat Device) (f : Device → List Effect) (x : Nat) :
    sentTo x (l.flatMap fun e => (f e.2).map (.effect e.1)) = [] ∧ announced (l.flatMap fun e => (f e.2).map (.effect e.1)) = [] := by
  induction l with
  | nil => exact ⟨rfl, rfl⟩
  | cons e l ih =>
    rw [List.flatMap_cons, sentTo_append, announced_append, ih.1, ih.2, sentTo_map, announced_effects]
    exact ⟨rfl, rfl⟩

theorem stopping_same {p q : Pica} (hp : p.PInv) (hq : q.PInv) (h : SameState p q) (mac : MacAddress) (sid : UInt32) :
    SameState (p.stopControleeRanging mac sid).1 (q.stopControleeRanging mac sid).1 ∧
    SameOut (p.stopControleeRanging mac sid).2 (q.stopControleeRanging mac sid).2 := by
  unfold Pica.stopControleeRanging
  dsimp only
  refine ⟨⟨h.1, fun x => ?_, h.2.2⟩, fun x => ⟨?_, ?_⟩, ?_⟩
  · dsimp only
    rw [Pica.get?_map_values p.devices (fun d => (d.stopInBand mac sid).1), Pica.get?_map_values q.devices (fun d => (d.stopInBand mac sid).1)]
    cases e : p.devices.get? x with
    | none =>
      rw [entry_none (h.2.1 x) e]
      trivial
    | some d =>
      obtain ⟨d', f1, f2⟩ := entry_some (h.2.1 x) e
      rw [f1]
      exact (stop_same f2 mac sid).1
  · rw [(stops_plain p.devices (fun d => (d.stopInBand mac sid).2) x).1, (stops_plain q.devices (fun d => (d.stopInBand mac sid).2) x).1]
    exact .nil
  · rw [Pica.effectsOf_flatMap hp.devNodup (fun d => (d.stopInBand mac sid).2),
      Pica.effectsOf_flatMap hq.devNodup (fun d => (d.stopInBand mac sid).2)]
    cases e : p.devices.get? x with
    | none => rw [entry_none (h.2.1 x) e]
    | some d =>
      obtain ⟨d', f1, f2⟩ := entry_some (h.2.1 x) e
      rw [f1]
      show (d.stopInBand mac sid).2.Perm (d'.stopInBand mac sid).2
      rw [(stop_same f2 mac sid).2]
  · rw [(stops_plain p.devices (fun d => (d.stopInBand mac sid).2) 0).2, (stops_plain q.devices (fun d => (d.stopInBand mac sid).2) 0).2]

theorem destroy_same {p q : Pica} (h : SameState p q) (mac : MacAddress) :
    SameState (p.destroyAnchor mac).1 (q.destroyAnchor mac).1 ∧ SameOut (p.destroyAnchor mac).2 (q.destroyAnchor mac).2 := by
  unfold Pica.destroyAnchor
  rw [h.2.2]
  cases p.anchors.get? mac with
  | none => exact ⟨h, .refl _⟩
  | some a =>
    refine ⟨⟨h.1, h.2.1, fun m => ?_⟩, .refl _⟩
    dsimp only
    rw [AMap.get?_erase, AMap.get?_erase, h.2.2]

theorem step_same {p q p' : Pica} {env : Env} {c : Command} {out : List Out} (hp : p.PInv) (hq : q.PInv) (h : SameState p q)
    (hs : p.step env c = .ok (p', out)) :
    ∃ q' out', q.step env c = .ok (q', out') ∧ SameState p' q' ∧ SameOut out out' := by
  have pure : ∀ {x y : Pica × List Out}, .ok x = Except.ok (ε := Panic) (p', out) → SameState x.1 y.1 ∧ SameOut x.2 y.2 →
      ∃ q' out', Except.ok (ε := Panic) y = .ok (q', out') ∧ SameState p' q' ∧ SameOut out out' := by
    intro x y e g
    cases e
    exact ⟨_, _, rfl, g⟩
  cases c with
  | connect => exact pure hs (connect_same h)
  | disconnect k => exact pure hs (disconnect_same hp hq h k)
  | ranging k sid => exact ranging_same hp hq h hs
  | stopRanging mac sid => exact pure hs (stopping_same hp hq h mac sid)
  | uciPacket k pkt =>
    replace hs : p.uciPacket env k pkt = .ok (p', out) := hs
    show ∃ q' out', q.uciPacket env k pkt = .ok (q', out') ∧ _
    unfold Pica.uciPacket at hs ⊢
    cases e : p.devices.get? k with
    | none =>
      rw [e] at hs
      cases hs
      rw [entry_none (h.2.1 k) e]
      exact ⟨_, _, rfl, h, .refl _⟩
    | some d =>
      obtain ⟨d', f1, f2⟩ := entry_some (h.2.1 k) e
      rw [e] at hs
      rw [f1]
      simp only [Bind.bind, Except.bind] at hs ⊢
      have ha := f2.again (hp.dev k d e).2.2.2.nodup (hq.dev k d' f1).2.2.2.nodup
      have g := receive_same f2 ha env.tid pkt
      generalize d.receivePacket env.tid pkt = A, d'.receivePacket env.tid pkt = B at g hs
      cases g with
      | error => cases hs
      | ok g1 g2 =>
        cases hs
        exact ⟨_, _, rfl, ⟨h.1, entry_insert h.2.1 k g1, h.2.2⟩, (SameOut.refl _).append (out_effects g2)⟩
  | createAnchor mac =>
    replace hs : p.createAnchor mac = .ok (p', out) := hs
    show ∃ q' out', q.createAnchor mac = .ok (q', out') ∧ _
    unfold Pica.createAnchor at hs ⊢
    rw [known_same hp hq h, h.2.2, h.1]
    by_cases e1 : p.macKnown mac = true
    · rw [if_pos e1] at hs ⊢
      cases hs
      exact ⟨_, _, rfl, h, .refl _⟩
    · rw [if_neg e1] at hs ⊢
      by_cases e2 : (p.anchors.get? mac).isSome = true
      · rw [if_pos e2] at hs
        cases hs
      · rw [if_neg e2] at hs ⊢
        cases hs
        refine ⟨_, _, rfl, ⟨rfl, h.2.1, fun m => ?_⟩, .refl _⟩
        dsimp only
        rw [AMap.get?_insert, AMap.get?_insert, h.2.2]
  | destroyAnchor mac => exact pure hs (destroy_same h mac)

/-! ### Histories -/

theorem reorder_same {p q : Pica} (hp : p.PInv) (h : Pica.Reorder p q) : SameState p q := by
  obtain ⟨h1, -, h3, h4⟩ := Pica.reorder_dev hp h
  refine ⟨h1, fun x => ?_, fun m => AMap.get?_perm hp.ancNodup h3 m⟩
  rcases h4 x with e | ⟨d, l, e1, e2, e3⟩
  · rw [e]
    exact .refl _
  · rw [e1, e3]
    exact ⟨rfl, fun sid => AMap.get?_perm (hp.dev x d e1).2.2.2.nodup e2 sid⟩

theorem run_cases {p q : Pica} {tr : List Pica.Event} (hp : p.PInv) (h : Pica.Run p tr q) :
    (tr = [] ∧ SameState p q) ∨ ∃ tr₀ env c out r r', tr = tr₀ ++ [⟨env, c, out⟩] ∧ Pica.Run p tr₀ r ∧
      r.step env c = .ok (r', out) ∧ SameState r' q := by
  induction h with
  | nil => exact .inl ⟨rfl, .refl _⟩
  | cmd hr hs _ => exact .inr ⟨_, _, _, _, _, _, rfl, hr, hs, .refl _⟩
  | reorder hr ho ih =>
    have hs := reorder_same (Pica.run_inv hr hp) ho
    rcases ih with ⟨e, g⟩ | ⟨tr₀, env, c, out, r, r', e, h1, h2, h3⟩
    · exact .inl ⟨e, g.trans hs⟩
    · exact .inr ⟨tr₀, env, c, out, r, r', e, h1, h2, h3.trans hs⟩

theorem run_same {p q p' q' : Pica} {tr ur : List Pica.Event} (hp : p.PInv) (hq : q.PInv) (h : SameState p q)
    (hr : Pica.Run p tr p') (hu : Pica.Run q ur q') (he : tr.map (fun ev => (ev.env, ev.command)) = ur.map fun ev => (ev.env, ev.command)) :
    List.Forall₂ (fun a b => SameOut a.out b.out) tr ur ∧ SameState p' q' := by
  induction tr using List.reverseRecOn generalizing ur p' q' with
  | nil =>
    cases ur with
    | cons => cases he
    | nil =>
      rcases run_cases hp hr with ⟨-, a⟩ | ⟨_, _, _, _, _, _, e, -⟩
      · rcases run_cases hq hu with ⟨-, b⟩ | ⟨_, _, _, _, _, _, e, -⟩
        · exact ⟨.nil, (a.symm.trans h).trans b⟩
        · exact absurd e.symm (List.append_ne_nil_of_right_ne_nil _ (List.cons_ne_nil _ _))
      · exact absurd e.symm (List.append_ne_nil_of_right_ne_nil _ (List.cons_ne_nil _ _))
  | append_singleton l t ih =>
    rcases run_cases hp hr with ⟨e, -⟩ | ⟨tr₀, env, c, out, r, r', e, h1, h2, h3⟩
    · exact absurd e (List.append_ne_nil_of_right_ne_nil _ (List.cons_ne_nil _ _))
    · obtain ⟨el, et⟩ := List.append_inj' e rfl
      clear e
      subst el
      cases et
      rcases run_cases hq hu with ⟨e, -⟩ | ⟨ur₀, env', c', out', u, u', e, g1, g2, g3⟩
      · subst e
        rw [List.map_append] at he
        exact absurd he (List.append_ne_nil_of_right_ne_nil _ (List.cons_ne_nil _ _))
      · subst e
        rw [List.map_append, List.map_append] at he
        obtain ⟨hy, hx⟩ := List.append_inj' he rfl
        cases hx
        obtain ⟨i1, i2⟩ := ih h1 g1 hy
        obtain ⟨v, o, j1, j2, j3⟩ := step_same (Pica.run_inv h1 hp) (Pica.run_inv g1 hq) i2 h2
        rw [g2] at j1
        cases j1
        exact ⟨List.rel_append i1 (.cons j3 .nil), (h3.symm.trans j2).trans g3⟩

end Pica.Enumeration
