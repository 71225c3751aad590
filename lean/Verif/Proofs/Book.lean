import Verif.Proofs.Ranging
/-! What happens to the ranging count, the queued data and the type of a session. -/

set_option linter.dupNamespace false

namespace Pica
open Spec SessionState

/-- What only rounds, data packets and SESSION_INIT change. -/
def book (s : Session) : UInt32 × Bytes × SessionType := (s.sequenceNumber, s.data, s.sessionType)

/-- The same for a session that may be absent. -/
def bookOf (d : Option Device) (sid : UInt32) : Option (UInt32 × Bytes × SessionType) :=
  d.bind fun d => (d.sessions.get? sid).map book

theorem book_sessions {d d' : Device} {sid : UInt32} (h : d'.sessions = d.sessions) :
    bookOf (some d') sid = bookOf (some d) sid := by
  unfold bookOf; rw [Option.bind_some, Option.bind_some, h]

theorem book_put {d d' : Device} {sid x : UInt32} {s s' : Session} (hs : d.sessions.get? x = some s)
    (hb : book s' = book s) (hd : d'.sessions = d.sessions.insert x s') : bookOf (some d') sid = bookOf (some d) sid := by
  unfold bookOf
  rw [Option.bind_some, Option.bind_some, hd, AMap.get?_insert]
  split
  · rename_i e; subst e; rw [hs, Option.map_some, Option.map_some, hb]
  · rfl

theorem book_out {d d' : Device} {sid x : UInt32} {s' : Session} (hx : x ≠ sid)
    (hd : d'.sessions = d.sessions.insert x s') : bookOf (some d') sid = bookOf (some d) sid := by
  unfold bookOf
  rw [Option.bind_some, Option.bind_some, hd, AMap.get?_insert, if_neg hx]

theorem book_setState (s : Session) (st : SessionState) (r : ReasonCode) : book (s.setState st r).1 = book s := by
  unfold Session.setState; split <;> rfl

theorem book_stopTask (s : Session) : book s.stopRangingTask.1 = book s := by
  unfold Session.stopRangingTask; split <;> rfl

/-- What a command does to the book of a session. -/
theorem exec_book {d d' : Device} {tid : Nat} {c : Cmd} {r : Rsp} {e : List Effect} (sid : UInt32)
    (h : d.exec tid c = .ok (d', r, e)) :
    (bookOf (some d') sid = bookOf (some d) sid ∧
      (∀ ty, c = .sessionInit sid ty → r ≠ .sessionInit .ok ∧ r ≠ .sessionInit .errorSessionDuplicate) ∧
      (c = .sessionDeinit sid → r ≠ .sessionDeinit .ok) ∧ ∀ rc, c ≠ .coreDeviceReset rc) ∨
    (∃ ty, c = .sessionInit sid ty ∧ (r = .sessionInit .ok ∨ r = .sessionInit .errorSessionDuplicate) ∧
      bookOf (some d') sid = some (0, [], ty)) ∨
    ((c = .sessionDeinit sid ∧ r = .sessionDeinit .ok ∨ ∃ rc, c = .coreDeviceReset rc) ∧ bookOf (some d') sid = none) := by
  cases c with
  | coreDeviceReset rc =>
    cases h
    refine .inr (.inr ⟨.inr ⟨rc, rfl⟩, ?_⟩)
    rfl
  | coreGetDeviceInfo =>
    change d.coreGetDeviceInfo = _ at h
    unfold Device.coreGetDeviceInfo at h
    split at h <;> cases h; exact .inl ⟨rfl, by simp, by simp, by simp⟩
  | coreGetCapsInfo => cases h; exact .inl ⟨rfl, by simp, by simp, by simp⟩
  | coreSetConfig ps =>
    change d.coreSetConfig ps = _ at h
    unfold Device.coreSetConfig at h
    split at h <;> cases h; exact .inl ⟨book_sessions rfl, by simp, by simp, by simp⟩
  | coreGetConfig ids => cases h; exact .inl ⟨rfl, by simp, by simp, by simp⟩
  | sessionInit x ty =>
    change Except.ok (d.sessionInit x ty) = _ at h
    unfold Device.sessionInit at h
    split at h
    · cases h; exact .inl ⟨rfl, fun _ _ => ⟨by decide, by decide⟩, by simp, by simp⟩
    · by_cases hx : x = sid
      · subst hx
        refine .inr (.inl ⟨ty, rfl, ?_⟩)
        split at h <;> cases h
        · refine ⟨.inr rfl, ?_⟩
          show Option.map book (AMap.get? (AMap.insert _ _ _) _) = _
          rw [AMap.get?_insert_self]; rfl
        · refine ⟨.inl rfl, ?_⟩
          show Option.map book (AMap.get? (AMap.insert _ _ _) _) = _
          rw [AMap.get?_insert_self]; rfl
      · left
        refine ⟨?_, ?_, by simp, by simp⟩
        · split at h <;> cases h <;> exact book_out hx rfl
        · intro ty' he; cases he; exact absurd rfl hx
  | sessionDeinit x =>
    change d.sessionDeinit x = _ at h
    unfold Device.sessionDeinit at h
    split at h
    · rename_i s hs
      have key : ∀ d₁ : Device, d₁.sessions = d.sessions → ∀ e₁, (d', r, e) =
          (({ d₁ with sessions := d₁.sessions.erase x } : Device), Rsp.sessionDeinit .ok, e₁) →
          (bookOf (some d') sid = bookOf (some d) sid ∧ (∀ ty, Cmd.sessionDeinit x = .sessionInit sid ty →
            r ≠ .sessionInit .ok ∧ r ≠ .sessionInit .errorSessionDuplicate) ∧
            (Cmd.sessionDeinit x = .sessionDeinit sid → r ≠ .sessionDeinit .ok) ∧ ∀ rc, Cmd.sessionDeinit x ≠ .coreDeviceReset rc) ∨
          (∃ ty, Cmd.sessionDeinit x = .sessionInit sid ty ∧ (r = .sessionInit .ok ∨ r = .sessionInit .errorSessionDuplicate) ∧
            bookOf (some d') sid = some (0, [], ty)) ∨
          ((Cmd.sessionDeinit x = .sessionDeinit sid ∧ r = .sessionDeinit .ok ∨ ∃ rc, Cmd.sessionDeinit x = .coreDeviceReset rc) ∧
            bookOf (some d') sid = none) := by
        intro d₁ hd e₁ he
        cases he
        by_cases hx : x = sid
        · subst hx
          refine .inr (.inr ⟨.inl ⟨rfl, rfl⟩, ?_⟩)
          show Option.map book (AMap.get? (AMap.erase _ _) _) = _
          rw [AMap.get?_erase_self]; rfl
        · refine .inl ⟨?_, by simp, ?_, by simp⟩
          · unfold bookOf
            show Option.map book (AMap.get? (AMap.erase _ _) _) = Option.map book _
            rw [hd, AMap.get?_erase_of_ne (Ne.symm hx)]
          · intro hc; cases hc; exact absurd rfl hx
      split at h
      · cases hr : d.releaseActive with
        | error z => rw [hr] at h; cases h
        | ok z =>
          rw [hr] at h
          simp only [bind, Except.bind, Except.ok.injEq] at h
          exact key _ (releaseActive_sessions hr) _ h.symm
      · simp only [bind, Except.bind, Except.ok.injEq] at h
        exact key _ rfl _ h.symm
    · cases h; exact .inl ⟨rfl, by simp, fun _ => by decide, by simp⟩
  | sessionGetCount => cases h; exact .inl ⟨rfl, by simp, by simp, by simp⟩
  | sessionSetAppConfig x l =>
    refine .inl ⟨?_, by simp, by simp, by simp⟩
    change d.sessionSetAppConfig x l = _ at h
    unfold Device.sessionSetAppConfig at h
    split at h
    · cases h; rfl
    · rename_i s hs
      split at h
      · cases h
      · split at h
        · cases h; rfl
        · split at h
          · cases h; rfl
          · cases hl : Device.setAppConfigLoop s.appConfig l with
            | error z => rw [hl] at h; cases h
            | ok z =>
              rw [hl] at h
              simp only [bind, Except.bind] at h
              split at h
              · cases h; rfl
              · split at h
                · cases h
                  refine book_put hs ?_ rfl
                  split
                  · rw [book_setState]; rfl
                  · rfl
                · cases h; rfl
  | sessionGetAppConfig x ids =>
    refine .inl ⟨?_, by simp, by simp, by simp⟩
    change Except.ok (d.sessionGetAppConfig x ids) = _ at h
    unfold Device.sessionGetAppConfig at h
    split at h <;> cases h <;> rfl
  | sessionGetState x =>
    refine .inl ⟨?_, by simp, by simp, by simp⟩
    change Except.ok (d.sessionGetState x) = _ at h
    unfold Device.sessionGetState at h
    split at h <;> cases h <;> rfl
  | sessionUpdateMulticast x a q =>
    refine .inl ⟨?_, by simp, by simp, by simp⟩
    change Except.ok (d.sessionUpdateMulticast x a q) = _ at h
    unfold Device.sessionUpdateMulticast at h
    split at h
    · cases h; rfl
    · rename_i s hs
      split at h
      · cases h; rfl
      · split at h
        · cases h; rfl
        · rename_i addrs _
          dsimp only at h
          by_cases hem : (Device.updateControlees s x a addrs).dst.isEmpty = true
          · rw [if_pos hem] at h; cases h
            exact book_put hs (by rw [book_setState]; rfl) rfl
          · rw [if_neg hem] at h; cases h
            exact book_put hs (by rfl) rfl
  | sessionStart x =>
    refine .inl ⟨?_, by simp, by simp, by simp⟩
    change d.sessionStart tid x = _ at h
    unfold Device.sessionStart at h
    split at h
    · cases h; rfl
    · split at h
      · cases h; rfl
      · split at h
        · cases h
        · rename_i s hs _ _
          cases h
          exact book_put hs (s' := (Session.setState { s with rangingTask := some tid } .sessionStateActive
            .stateChangeWithSessionManagementCommands).1) (by rw [book_setState]; rfl) (Device.setState_sessions _ _)
  | sessionStop x =>
    refine .inl ⟨?_, by simp, by simp, by simp⟩
    change d.sessionStop x = _ at h
    unfold Device.sessionStop at h
    split at h
    · cases h; rfl
    · split at h
      · cases h; rfl
      · rename_i s hs _
        simp only [bind, Except.bind] at h
        split at h
        · cases h
        · rename_i z hr
          cases h
          exact book_put hs (by rw [book_setState, book_stopTask]) (releaseActive_sessions hr)
  | sessionGetRangingCount x =>
    refine .inl ⟨?_, by simp, by simp, by simp⟩
    change Except.ok (d.sessionGetRangingCount x) = _ at h
    unfold Device.sessionGetRangingCount at h
    split at h <;> cases h <;> rfl
  | androidGetPowerStats => cases h; exact .inl ⟨rfl, by simp, by simp, by simp⟩
  | androidSetCountryCode cc => cases h; exact .inl ⟨book_sessions rfl, by simp, by simp, by simp⟩

theorem stopInBand_book (d : Device) (mac : MacAddress) (x sid : UInt32) :
    bookOf (some (d.stopInBand mac x).1) sid = bookOf (some d) sid := by
  unfold Device.stopInBand
  split
  · rfl
  · rename_i s hs
    split
    · rfl
    · split
      · refine book_put hs (s' := (s.stopRangingTask.1.setState .sessionStateIdle .sessionStoppedDueToInbandSignal).1)
          (by rw [book_setState, book_stopTask]) ?_
        dsimp only
        split
        · exact Device.setState_sessions _ _
        · rfl
      · rfl

theorem book_def (p : Pica) (h : Nat) (sid : UInt32) {n : UInt32} {b : Bytes} {ty : SessionType} :
    bookOf (p.devices.get? h) sid = some (n, b, ty) ↔
      ∃ d s, p.devices.get? h = some d ∧ d.sessions.get? sid = some s ∧ s.sequenceNumber = n ∧ s.data = b ∧ s.sessionType = ty := by
  unfold bookOf book
  simp [Option.bind_eq_some_iff, Option.map_eq_some_iff]

/-- What a step does to the book of the session `sid` of device `h`. -/
inductive BookStep (h : Nat) (sid : UInt32) (ev : Pica.Event) :
    Option (UInt32 × Bytes × SessionType) → Option (UInt32 × Bytes × SessionType) → Prop
  | creates (o : Option (UInt32 × Bytes × SessionType)) (ty : SessionType) : Creates h sid ev → infoNumbers h sid [ev] = [] →
      (∃ bytes, ev.command = .uciPacket h bytes ∧ IsCmd bytes (.sessionInit sid ty)) → BookStep h sid ev o (some (0, [], ty))
  | ends (o : Option (UInt32 × Bytes × SessionType)) : Ends h sid ev → infoNumbers h sid [ev] = [] → BookStep h sid ev o none
  | silent (n : UInt32) (b : Bytes) (ty : SessionType) : ¬Creates h sid ev → ¬Ends h sid ev → ev.command = .ranging h sid →
      infoNumbers h sid [ev] = [] → BookStep h sid ev (some (n, b, ty)) (some (n, [], ty))
  | info (n : UInt32) (b : Bytes) (ty : SessionType) : ¬Creates h sid ev → ¬Ends h sid ev → ev.command = .ranging h sid →
      infoNumbers h sid [ev] = [n.toNat] → n.toNat + 1 < 2 ^ 32 → BookStep h sid ev (some (n, b, ty)) (some (n + 1, [], ty))
  | queue (n : UInt32) (b c : Bytes) (ty : SessionType) : ¬Creates h sid ev → ¬Ends h sid ev → ev.command ≠ .ranging h sid →
      infoNumbers h sid [ev] = [] → Queues h sid ev c → BookStep h sid ev (some (n, b, ty)) (some (n, b ++ c, ty))
  | same (o : Option (UInt32 × Bytes × SessionType)) : ¬Creates h sid ev → ¬Ends h sid ev → ev.command ≠ .ranging h sid →
      infoNumbers h sid [ev] = [] → (∀ c, ¬Queues h sid ev c) → BookStep h sid ev o o

theorem isCmd_not_snd {bytes : Bytes} {c : Cmd} {m : DataMessageSnd} (h : IsCmd bytes c) (h' : IsDataSnd bytes m) : False := by
  obtain ⟨-, b₀, b₁, r₂, r₃, rfl, hb, -⟩ := h
  obtain ⟨-, c₀, c₁, s₂, s₃, he, hc, -⟩ := h'
  injection he with he _
  subst he
  omega

/-- The commands that are no packets of host `h` and no round of its session. -/
theorem bookStep_quiet {h : Nat} {sid : UInt32} {ev : Pica.Event} {o o' : Option (UInt32 × Bytes × SessionType)}
    (h1 : ∀ bytes, ev.command ≠ .uciPacket h bytes) (h2 : ev.command ≠ .disconnect h) (h3 : ev.command ≠ .ranging h sid)
    (hi : infoNumbers h sid [ev] = []) (he : o' = o) : BookStep h sid ev o o' := by
  subst he
  refine .same _ ?_ ?_ h3 hi ?_
  · rintro ⟨b, -, hc, -⟩; exact h1 b hc
  · rintro (hc | ⟨b, hc, -⟩)
    · exact h2 hc
    · exact h1 b hc
  · rintro c ⟨b, -, hc, -⟩; exact h1 b hc

theorem info_of {h : Nat} {sid : UInt32} {env : Env} {c : Command} {out : List Out}
    (hs : ∀ n a b m v, Packet.ntf (.sessionInfo n sid a b m v) ∉ sentTo h out) : infoNumbers h sid [⟨env, c, out⟩] = [] := by
  unfold infoNumbers
  rw [List.flatMap_cons, List.flatMap_nil, List.append_nil, List.filterMap_eq_nil_iff]
  intro x hx
  split
  · rename_i n id a b m v
    split
    · rename_i e; subst e; exact absurd hx (hs n a b m v)
    · rfl
  · rfl

theorem info_nil {h : Nat} {sid : UInt32} {env : Env} {c : Command} {out : List Out} (hs : sentTo h out = []) :
    infoNumbers h sid [⟨env, c, out⟩] = [] := info_of (by rw [hs]; simp)

/-! ### One round -/

theorem mem_handle {p : Pica} (hi : Pica.PInv p) : ∀ e ∈ p.devices, e.2.handle = e.1 := fun e he =>
  (hi.dev e.1 e.2 (AMap.get?_of_mem hi.devNodup he)).1

open Classical in
/-- The packets to one host among packets to the devices of a list. -/
theorem sentTo_filter {P : Nat × Device → Prop} (X : Packet) (k : Nat) {l : AMap Nat Device}
    (hh : ∀ e ∈ l, e.2.handle = e.1) (hn : (AMap.keys l).Nodup) :
    sentTo k (((l.filter fun e => decide (P e)).map Prod.snd).map fun q => .send q.handle X) =
      if ∃ q, l.get? k = some q ∧ P (k, q) then [X] else [] := by
  induction l with
  | nil => rw [if_neg (by rintro ⟨q, hq, -⟩; cases hq)]; rfl
  | cons e l ih =>
    obtain ⟨x, q⟩ := e
    have hq : q.handle = x := hh _ (List.mem_cons_self ..)
    have hn' : x ∉ AMap.keys l ∧ (AMap.keys l).Nodup := List.nodup_cons.mp hn
    have ih := ih (fun e he => hh e (List.mem_cons_of_mem _ he)) hn'.2
    rw [List.filter_cons, AMap.get?_cons]
    dsimp only
    by_cases hx : x = k
    · subst hx
      have hno : ¬∃ q, AMap.get? l x = some q ∧ P (x, q) := by
        rintro ⟨q', hq', -⟩
        rw [AMap.get?_eq_none.mpr hn'.1] at hq'; cases hq'
      rw [if_neg hno] at ih
      rw [if_pos (show x = x from rfl)]
      by_cases hp : P (x, q)
      · rw [if_pos (decide_eq_true hp), if_pos ⟨q, rfl, hp⟩, List.map_cons, List.map_cons]
        show sentTo x ([Out.send q.handle X] ++ _) = _
        rw [sentTo_append, ih, hq]
        show List.filterMap _ _ ++ _ = _
        simp
      · rw [if_neg (by simpa using hp), if_neg (by rintro ⟨q', hq', hp'⟩; cases hq'; exact hp hp')]
        exact ih
    · rw [if_neg hx]
      by_cases hp : P (x, q)
      · rw [if_pos (decide_eq_true hp), List.map_cons, List.map_cons]
        show sentTo k ([Out.send q.handle X] ++ _) = _
        rw [sentTo_append, ih, hq]
        show List.filterMap _ _ ++ _ = _
        simp [hx]
      · rw [if_neg (by simpa using hp)]
        exact ih

/-- Host `k` gets the data of the round. -/
def Served (p : Pica) (est : Estimator) (h : Nat) (sid : UInt32) (s : Session) (k : Nat) : Prop :=
  ∃ q, p.devices.get? k = some q ∧ Gets h sid s k q ∧ ¬Unseen est h sid s k q

open Classical in
/-- Everything about a round that does not panic. -/
theorem round_ok {p p' : Pica} {env : Env} {h : Nat} {sid : UInt32} {out : List Out} (hi : Pica.PInv p)
    (hr : p.ranging env h sid = .ok (p', out)) :
    ∃ d s ms o, p.devices.get? h = some d ∧ d.sessions.get? sid = some s ∧
      List.Forall₂ Carries (peers p env.estimate h sid s) ms ∧
      (∀ k, if Served p env.estimate h sid s k then
          ∃ mac, s.appConfig.deviceMacAddress = some mac ∧ sentTo k o = [.data ⟨sid, .ok, mac.toU64, 1, s.data⟩]
        else sentTo k o = []) ∧
      (∀ x ∈ o, ∃ k pkt, x = .send k pkt) ∧ sentTo h o = [] ∧
      ((s.appConfig.sessionInfoNtfConfig ≠ .disable ∧
          out = o ++ [.send h (.ntf (.sessionInfo s.sequenceNumber sid 0 0 ms []))] ∧
          s.sequenceNumber.toNat + 1 < 2 ^ 32 ∧
          p' = { p with devices := AMap.insert p.devices h (d.putSession sid
                { s with sequenceNumber := s.sequenceNumber + 1, data := [] }) }) ∨
       (s.appConfig.sessionInfoNtfConfig = .disable ∧ out = o ∧
          p' = { p with devices := p.devices.insert h (d.putSession sid { s with data := [] }) })) := by
  obtain ⟨d, s, ms, ms', ts, o, hd, hs, h1, h2, h3, h4⟩ := Pica.ranging_ok hr
  have hh := (hi.dev h d hd).1
  rw [hh] at h1 h2
  obtain ⟨c1, hts⟩ := peer_ok (mem_handle hi) h2
  have hsv : ∀ k q, Delivered env.estimate h sid s (d.canStartDataTransfer sid) k q ↔
      Gets h sid s k q ∧ ¬Unseen env.estimate h sid s k q := by
    intro k q
    have hsend : d.canStartDataTransfer sid = true ↔ Exchanges s .initiator := by
      rw [sends_iff]
      have hs' : d.sessions.get? sid = some s := hs
      rw [hs']; simp
    unfold Delivered Gets
    rw [hsend]
    tauto
  have hall : ∀ k, if Served p env.estimate h sid s k then
          ∃ mac, s.appConfig.deviceMacAddress = some mac ∧ sentTo k o = [.data ⟨sid, .ok, mac.toU64, 1, s.data⟩]
        else sentTo k o = [] := by
    intro k
    by_cases he : ts = []
    · subst he
      cases h3
      rw [if_neg]
      · rfl
      · rintro ⟨q, hq, hg⟩
        have hm : (k, q) ∈ p.devices.filter fun e => decide (Delivered env.estimate h sid s (d.canStartDataTransfer sid) e.1 e.2) :=
          List.mem_filter.mpr ⟨AMap.mem_of_get? hq, decide_eq_true ((hsv k q).mpr hg)⟩
        rw [List.map_eq_nil_iff.mp hts.symm] at hm
        cases hm
    · obtain ⟨mac, hm, rfl⟩ := data_ok h3 he
      rw [hts, sentTo_filter _ k (mem_handle hi) hi.devNodup]
      by_cases hsd : Served p env.estimate h sid s k
      · rw [if_pos hsd, if_pos]
        · exact ⟨mac, hm, rfl⟩
        · obtain ⟨q, hq, hg⟩ := hsd
          exact ⟨q, hq, (hsv k q).mpr hg⟩
      · rw [if_neg hsd, if_neg]
        rintro ⟨q, hq, hg⟩
        exact hsd ⟨q, hq, (hsv k q).mp hg⟩
  refine ⟨d, s, ms ++ ms', o, hd, hs, List.rel_append (anchor_ok h1) c1, hall, ?_, ?_, ?_⟩
  · intro x hx
    by_cases he : ts = []
    · subst he; cases h3; cases hx
    · obtain ⟨mac, hm, rfl⟩ := data_ok h3 he
      obtain ⟨q, -, rfl⟩ := List.mem_map.mp hx
      exact ⟨_, _, rfl⟩
  · have := hall h
    rw [if_neg] at this
    · exact this
    · rintro ⟨q, hq, hg, -⟩; exact hg.1 rfl
  · unfold Session.isSessionInfoNtfEnabled at h4
    rcases h4 with ⟨a, -, b, c, e⟩ | ⟨a, b, c⟩
    · exact .inl ⟨by simpa using a, b, c, e⟩
    · exact .inr ⟨by simpa using a, b, c⟩

/-! ### One step -/

theorem sentTo_send (h k : Nat) (x : Packet) : sentTo h [.send k x] = if k = h then [x] else [] := by
  unfold sentTo
  by_cases e : k = h <;> simp [e]

theorem sentTo_eq_nil {h : Nat} {out : List Out} (hs : ∀ x ∈ out, ∀ p, x ≠ .send h p) : sentTo h out = [] := by
  unfold sentTo
  rw [List.filterMap_eq_nil_iff]
  intro x hx
  split
  · rename_i h' p
    rw [if_neg]
    rintro rfl
    exact hs _ hx p rfl
  · rfl

theorem book_step {p p' : Pica} {env : Env} {c : Command} {out : List Out} (h : Nat) (sid : UInt32) (hi : Pica.PInv p)
    (hs : p.step env c = .ok (p', out)) :
    BookStep h sid ⟨env, c, out⟩ (bookOf (p.devices.get? h) sid) (bookOf (p'.devices.get? h) sid) := by
  cases c with
  | connect =>
    cases hs
    refine bookStep_quiet (by simp) (by simp) (by simp) (info_nil ?_) ?_
    · apply sentTo_eq_nil
      intro x hx q
      rcases List.mem_append.mp hx with hx | hx
      · obtain ⟨y, -, rfl⟩ := List.mem_map.mp hx; simp
      · rw [List.mem_singleton.mp hx]; simp
    · show bookOf (AMap.get? (AMap.insert p.devices p.counter _) h) sid = _
      rw [AMap.get?_insert]
      split
      · rename_i e
        cases hd : p.devices.get? h with
        | none => rfl
        | some d => have := (hi.dev h d hd).2.1; omega
      · rfl
  | disconnect x =>
    change Except.ok (p.disconnect x) = _ at hs
    unfold Pica.disconnect at hs
    by_cases hx : x = h
    · subst hx
      have : bookOf (p'.devices.get? x) sid = none := by
        split at hs <;> cases hs
        · show bookOf (AMap.get? (AMap.erase _ _) _) _ = _
          rw [AMap.get?_erase_self]; rfl
        · rename_i hn; rw [hn]; rfl
      rw [this]
      refine .ends _ (.inl rfl) (info_nil ?_)
      split at hs <;> cases hs
      · apply sentTo_eq_nil
        intro y hy q
        rcases List.mem_cons.mp hy with rfl | hy
        · simp
        · obtain ⟨y, -, rfl⟩ := List.mem_map.mp hy; simp
      · rfl
    · refine bookStep_quiet (by simp) (by simpa using hx) (by simp) (info_nil ?_) ?_
      · split at hs <;> cases hs
        · apply sentTo_eq_nil
          intro y hy q
          rcases List.mem_cons.mp hy with rfl | hy
          · simp
          · obtain ⟨y, -, rfl⟩ := List.mem_map.mp hy; simp
        · rfl
      · split at hs <;> cases hs
        · show bookOf (AMap.get? (AMap.erase _ _) _) _ = _
          rw [AMap.get?_erase_of_ne (Ne.symm hx)]
        · rfl
  | ranging x y =>
    obtain ⟨d, s, ms, o, hd, hsx, -, hsent, hsend, hself, hout⟩ := round_ok hi hs
    have hnc : ¬Creates h sid ⟨env, .ranging x y, out⟩ := by rintro ⟨b, ty, hc, -⟩; cases hc
    have hne : ¬Ends h sid ⟨env, .ranging x y, out⟩ := by rintro (hc | ⟨b, hc, -⟩) <;> cases hc
    have hnq : ∀ c, ¬Queues h sid ⟨env, .ranging x y, out⟩ c := by rintro c ⟨b, ty, hc, -⟩; cases hc
    have hdata : ∀ z ∈ sentTo h o, ∃ m, z = .data m := by
      intro z hz
      have := hsent h
      split at this
      · obtain ⟨mac, -, e⟩ := this
        rw [e] at hz
        exact ⟨_, List.mem_singleton.mp hz⟩
      · rw [this] at hz; cases hz
    by_cases hx : x = h
    · subst hx
      by_cases hy : y = sid
      · subst hy
        have hb : bookOf (p.devices.get? x) y = some (book s) := by rw [hd]; unfold bookOf; simp [hsx]
        rw [hb]
        rcases hout with ⟨-, rfl, hlt, rfl⟩ | ⟨-, rfl, rfl⟩
        · have hb' : bookOf (AMap.get? (AMap.insert p.devices x (d.putSession y
                { s with sequenceNumber := s.sequenceNumber + 1, data := [] })) x) y =
              some (s.sequenceNumber + 1, [], s.sessionType) := by
            rw [AMap.get?_insert_self]
            show Option.map book (AMap.get? (AMap.insert _ _ _) _) = _
            rw [AMap.get?_insert_self]; rfl
          rw [hb']
          refine .info _ _ _ hnc hne rfl ?_ hlt
          unfold infoNumbers
          rw [List.flatMap_cons, List.flatMap_nil, List.append_nil, sentTo_append, hself, sentTo_send]
          simp
        · have hb' : bookOf (AMap.get? (AMap.insert p.devices x (d.putSession y { s with data := [] })) x) y =
              some (s.sequenceNumber, [], s.sessionType) := by
            rw [AMap.get?_insert_self]
            show Option.map book (AMap.get? (AMap.insert _ _ _) _) = _
            rw [AMap.get?_insert_self]; rfl
          rw [hb']
          exact .silent _ _ _ hnc hne rfl (info_nil hself)
      · have hb : bookOf (p'.devices.get? x) sid = bookOf (p.devices.get? x) sid := by
          rw [hd]
          rcases hout with ⟨-, rfl, hlt, rfl⟩ | ⟨-, rfl, rfl⟩
          · show bookOf (AMap.get? (AMap.insert p.devices x _) x) sid = _
            rw [AMap.get?_insert_self]
            exact book_out hy (by rfl)
          · show bookOf (AMap.get? (AMap.insert p.devices x _) x) sid = _
            rw [AMap.get?_insert_self]
            exact book_out hy (by rfl)
        rw [hb]
        refine .same _ hnc hne (by simpa using hy) (info_of ?_) hnq
        intro n a b m v hm
        rcases hout with ⟨-, rfl, -⟩ | ⟨-, rfl, -⟩
        · rw [sentTo_append, hself, sentTo_send, if_pos rfl] at hm
          cases List.mem_singleton.mp hm
          exact hy rfl
        · rw [hself] at hm; cases hm
    · have hb : p'.devices.get? h = p.devices.get? h := by
        rcases hout with ⟨-, rfl, hlt, rfl⟩ | ⟨-, rfl, rfl⟩ <;>
        · show AMap.get? (AMap.insert p.devices x _) h = _
          rw [AMap.get?_insert_of_ne (Ne.symm hx)]
      rw [hb]
      refine .same _ hnc hne (by simp [hx]) (info_of ?_) hnq
      intro n a b m v hm
      have : Packet.ntf (.sessionInfo n sid a b m v) ∈ sentTo h o := by
        rcases hout with ⟨-, rfl, -⟩ | ⟨-, rfl, -⟩
        · rw [sentTo_append, sentTo_send, if_neg hx, List.append_nil] at hm; exact hm
        · exact hm
      obtain ⟨m, hm⟩ := hdata _ this
      cases hm
  | stopRanging mac y =>
    cases hs
    refine bookStep_quiet (by simp) (by simp) (by simp) (info_nil ?_) ?_
    · apply sentTo_eq_nil
      intro x hx q
      obtain ⟨e, -, he⟩ := List.mem_flatMap.mp hx
      obtain ⟨z, -, rfl⟩ := List.mem_map.mp he
      simp
    · show bookOf (AMap.get? (p.devices.map fun e => (e.1, (e.2.stopInBand mac y).1)) h) sid = _
      rw [Pica.get?_map_values p.devices (fun d => (Device.stopInBand d mac y).1)]
      cases p.devices.get? h with
      | none => rfl
      | some d => exact stopInBand_book d mac y sid
  | createAnchor mac =>
    have hdev : p'.devices = p.devices ∧ ∀ x ∈ out, ∀ q, x ≠ .send h q := by
      change p.createAnchor mac = _ at hs
      unfold Pica.createAnchor at hs
      split at hs
      · cases hs; exact ⟨rfl, by simp⟩
      · split at hs <;> cases hs
        exact ⟨rfl, by simp⟩
    exact bookStep_quiet (by simp) (by simp) (by simp) (info_nil (sentTo_eq_nil hdev.2)) (by rw [hdev.1])
  | destroyAnchor mac =>
    have hdev : p'.devices = p.devices ∧ ∀ x ∈ out, ∀ q, x ≠ .send h q := by
      change Except.ok (p.destroyAnchor mac) = _ at hs
      unfold Pica.destroyAnchor at hs
      split at hs <;> cases hs <;> exact ⟨rfl, by simp⟩
    exact bookStep_quiet (by simp) (by simp) (by simp) (info_nil (sentTo_eq_nil hdev.2)) (by rw [hdev.1])
  | uciPacket x bytes =>
    cases hd : p.devices.get? x with
    | none =>
      change p.uciPacket env x bytes = _ at hs
      unfold Pica.uciPacket at hs
      rw [hd] at hs
      cases hs
      by_cases hx : x = h
      · subst hx
        have hb : bookOf (p.devices.get? x) sid = none := by rw [hd]; rfl
        rw [hb]
        by_cases hends : Ends x sid ⟨env, .uciPacket x bytes, []⟩
        · exact .ends _ hends (info_nil rfl)
        · refine .same _ ?_ hends (by simp) (info_nil rfl) ?_
          · rintro ⟨-, -, -, -, hm | hm⟩ <;> cases hm
          · rintro c ⟨-, -, -, -, -, -, hm⟩; cases hm
      · exact bookStep_quiet (by simp [hx]) (by simp) (by simp) (info_nil rfl) rfl
    | some d =>
      change p.uciPacket env x bytes = _ at hs
      unfold Pica.uciPacket at hs
      simp only [hd, bind, Except.bind] at hs
      split at hs
      · cases hs
      · rename_i y hy
        obtain ⟨d', o, es⟩ := y
        cases hs
        by_cases hx : x = h
        · subst hx
          have hsent : sentTo x ((o.map (.send x)).toList ++ es.map (.effect x)) = o.toList := by
            rw [sentTo_append, sentTo_map, List.append_nil]
            cases o with
            | none => rfl
            | some q => simp [sentTo_send]
          show BookStep x sid _ _ (bookOf (AMap.get? (AMap.insert p.devices x d') x) sid)
          rw [hd, AMap.get?_insert_self]
          have hno : (∀ r, o ≠ some (.rsp r)) → (∀ m, ¬IsDataSnd bytes m ∨ o ≠ some (.ntf (.sessionDataCredit sid .creditAvailable))) →
              (∀ n a b m v, o ≠ some (.ntf (.sessionInfo n sid a b m v))) → d' = d →
              BookStep x sid ⟨env, .uciPacket x bytes, (o.map (.send x)).toList ++ es.map (.effect x)⟩ (bookOf (some d) sid)
                (bookOf (some d') sid) := by
            rintro h1 h2 h3 rfl
            refine .same _ ?_ ?_ (by simp) (info_of ?_) ?_
            · rintro ⟨b, ty, -, -, hm⟩
              rw [hsent] at hm
              rcases hm with hm | hm <;> exact h1 _ (Option.mem_toList.mp hm)
            · rintro (hc | ⟨b, hc, ⟨rc, hrc⟩ | ⟨-, hm⟩⟩)
              · cases hc
              · cases hc
                rw [receive_cmd (.inr ⟨rc, rfl⟩) hrc] at hy
                have hy' := Except.ok.inj (show Except.ok _ = _ from hy)
                exact h1 _ (congrArg (fun z => z.2.1) hy').symm
              · rw [hsent] at hm
                exact h1 _ (Option.mem_toList.mp hm)
            · intro n a b m v
              rw [hsent]
              exact fun hm => h3 n a b m v (Option.mem_toList.mp hm)
            · rintro c ⟨b, m, hc, hsnd, -, -, hm⟩
              cases hc
              rw [hsent] at hm
              exact (h2 m).elim (fun h => h hsnd) (fun h => h (Option.mem_toList.mp hm))
          cases receive_ok hy with
          | ignored => exact hno (by simp) (by simp) (by simp) rfl
          | refused b r q _ hq =>
            exact hno (fun r e => hq.1 r (Option.some.inj e)) (fun m => .inr fun e => hq.2 _ (Option.some.inj e))
              (fun n a b m v e => hq.2 _ (Option.some.inj e)) rfl
          | early => exact hno (by simp) (by simp) (by simp) rfl
          | rcv => exact hno (by simp) (by simp) (by simp) rfl
          | cmd _ c _ rsp _ hc hr hx hf =>
            have hinfo : infoNumbers x sid [⟨env, .uciPacket x bytes, ((some (Packet.rsp rsp)).map (.send x)).toList ++ es.map (.effect x)⟩] = [] := by
              refine info_of ?_
              intro n a b m v hm
              rw [hsent] at hm
              simp at hm
            rcases exec_book sid hx with ⟨hb, h1, h2, h3⟩ | ⟨ty, rfl, hrs, hb⟩ | ⟨hc', hb⟩
            · rw [hb]
              refine .same _ ?_ ?_ (by simp) hinfo ?_
              · rintro ⟨b, ty, he, hcm, hm⟩
                cases he
                rw [hsent] at hm
                have := h1 ty (isCmd_unique hc hcm)
                simp only [Option.toList, List.mem_singleton, Packet.rsp.injEq] at hm
                rcases hm with hm | hm
                · exact this.1 hm.symm
                · exact this.2 hm.symm
              · rintro (he | ⟨b, he, ⟨rc, hrc⟩ | ⟨hde, hm⟩⟩)
                · cases he
                · cases he; exact h3 rc (isCmd_unique hc hrc)
                · cases he
                  rw [hsent] at hm
                  simp only [Option.toList, List.mem_singleton, Packet.rsp.injEq] at hm
                  exact h2 (isCmd_unique hc hde) hm.symm
              · rintro c' ⟨b, m, he, hsnd, -⟩
                cases he
                exact isCmd_not_snd hc hsnd
            · rw [hb]
              refine .creates _ ty ⟨bytes, ty, rfl, hc, ?_⟩ hinfo ⟨bytes, rfl, hc⟩
              rw [hsent]
              rcases hrs with rfl | rfl
              · exact .inl (by simp)
              · exact .inr (by simp)
            · rw [hb]
              refine .ends _ (.inr ⟨bytes, rfl, ?_⟩) hinfo
              rcases hc' with ⟨rfl, rfl⟩ | ⟨rc, rfl⟩
              · refine .inr ⟨hc, ?_⟩
                rw [hsent]; simp
              · exact .inl ⟨rc, hc⟩
          | snd _ m _ n hsnd hd' =>
            have hnc : ¬Creates x sid ⟨env, .uciPacket x bytes, ((some (Packet.ntf n)).map (.send x)).toList ++ ([] : List Effect).map (.effect x)⟩ := by
              rintro ⟨b, ty, he, hcm, -⟩; cases he; exact isCmd_not_snd hcm hsnd
            have hne : ¬Ends x sid ⟨env, .uciPacket x bytes, ((some (Packet.ntf n)).map (.send x)).toList ++ ([] : List Effect).map (.effect x)⟩ := by
              rintro (he | ⟨b, he, ⟨rc, hrc⟩ | ⟨hde, -⟩⟩)
              · cases he
              · cases he; exact isCmd_not_snd hrc hsnd
              · cases he; exact isCmd_not_snd hde hsnd
            rcases hd' with ⟨-, rfl, rfl⟩ | ⟨s, s', hs, hm, rfl⟩
            · exact hno (by simp) (by simp) (by simp) rfl
            · unfold Session.dataMessageSnd at hm
              split at hm
              · cases hm
                have hb : bookOf (some (d.putSession m.sessionHandle s)) sid = bookOf (some d) sid := book_put hs rfl rfl
                rw [hb]
                refine .same _ hnc hne (by simp) (info_of ?_) ?_
                · intro n a b m v hm
                  rw [hsent] at hm
                  simp at hm
                · rintro c ⟨b, m', -, -, -, -, hm⟩
                  rw [hsent] at hm
                  simp at hm
              · split at hm
                · cases hm
                · cases hm
                  have hinfo : infoNumbers x sid [⟨env, .uciPacket x bytes, ((some (Packet.ntf
                      (.sessionDataCredit m.sessionHandle .creditAvailable))).map (.send x)).toList ++ ([] : List Effect).map (.effect x)⟩] = [] := by
                    refine info_of ?_
                    intro n a b m v hm
                    rw [hsent] at hm
                    simp at hm
                  by_cases hms : m.sessionHandle = sid
                  · subst hms
                    have hb : bookOf (some d) m.sessionHandle = some (book s) := by
                      have hs' : d.sessions.get? m.sessionHandle = some s := hs
                      unfold bookOf; simp [hs']
                    have hb' : bookOf (some (d.putSession m.sessionHandle { s with data := s.data ++ m.applicationData })) m.sessionHandle =
                        some (s.sequenceNumber, s.data ++ m.applicationData, s.sessionType) := by
                      show Option.map book (AMap.get? (AMap.insert _ _ _) _) = _
                      rw [AMap.get?_insert_self]; rfl
                    rw [hb, hb']
                    refine .queue _ _ _ _ hnc hne (by simp) hinfo ⟨bytes, m, rfl, hsnd, rfl, rfl, ?_⟩
                    rw [hsent]; simp
                  · have hb : bookOf (some (d.putSession m.sessionHandle { s with data := s.data ++ m.applicationData })) sid =
                        bookOf (some d) sid := book_out hms (by rfl)
                    rw [hb]
                    refine .same _ hnc hne (by simp) hinfo ?_
                    rintro c ⟨b, m', he, hsnd', hms', -⟩
                    cases he
                    rw [isDataSnd_unique hsnd' hsnd] at hms'
                    exact hms hms'
        · have hb : AMap.get? (AMap.insert p.devices x d') h = p.devices.get? h := AMap.get?_insert_of_ne (Ne.symm hx)
          refine bookStep_quiet (by simp [hx]) (by simp) (by simp) (info_nil ?_) (by rw [← hb])
          rw [sentTo_append, sentTo_map, List.append_nil]
          cases o with
          | none => rfl
          | some q =>
            show sentTo h [.send x q] = _
            rw [sentTo_send, if_neg hx]

end Pica
