import Verif.Proofs.Connection
import Verif.Proofs.System
import Verif.Proofs.Receive
import Verif.Proofs.Ranging
/-! What leaves the emulator can be encoded, and is not lost on the way to the host. -/

set_option linter.dupNamespace false

namespace Pica
open Spec

/-- All measurements are OK. -/
def Plain : Ntf → Prop
  | .sessionInfo _ _ _ _ m _ => ∀ x ∈ m, x.status = .ok
  | _ => True

/-- The notifications that tasks will send can be encoded. -/
def Noted (es : List Effect) : Prop := ∀ t n, .notify t n ∈ es → ntfFits n ∧ Plain n

theorem noted_nil : Noted [] := by intro t n h; cases h

theorem noted_append {a b : List Effect} (ha : Noted a) (hb : Noted b) : Noted (a ++ b) := by
  intro t n h
  rcases List.mem_append.mp h with h | h
  exacts [ha t n h, hb t n h]

theorem noted_device (d : Device) (st : DeviceState) : Noted (d.setState st).2 := by
  unfold Device.setState
  split
  · exact noted_nil
  · intro t n h; cases List.mem_singleton.mp h; exact ⟨trivial, trivial⟩

theorem noted_session (s : Session) (st : SessionState) (r : ReasonCode) : Noted (s.setState st r).2 := by
  unfold Session.setState
  split
  · exact noted_nil
  · intro t n h; cases List.mem_singleton.mp h; exact ⟨trivial, trivial⟩

theorem noted_stop (s : Session) : Noted s.stopRangingTask.2 := by
  unfold Session.stopRangingTask
  split
  · intro t n h; cases List.mem_singleton.mp h
  · exact noted_nil

theorem noted_drop (s : Session) : Noted s.drop := noted_append (noted_stop s) (noted_session _ _ _)

theorem noted_dropSessions (d : Device) : Noted d.dropSessions := by
  intro t n h
  obtain ⟨s, -, hs⟩ := List.mem_flatMap.mp h
  exact noted_drop s t n hs

theorem noted_release {d : Device} {x : Device × List Effect} (h : d.releaseActive = .ok x) : Noted x.2 := by
  unfold Device.releaseActive at h
  split at h
  · cases h
  · cases h
    split
    · exact noted_device _ _
    · exact noted_nil

theorem remove_ntf (sid : UInt32) (n : UInt8) (l : List (Arr 2)) (acc : Device.MulticastAcc) (he : Noted acc.effects) :
    (l.foldl (Device.removeControlee sid n) acc).ntf.length ≤ acc.ntf.length + l.length ∧
      Noted (l.foldl (Device.removeControlee sid n) acc).effects := by
  induction l generalizing acc with
  | nil => exact ⟨by simp, he⟩
  | cons a l ih =>
    rw [List.foldl_cons]
    have h1 : (Device.removeControlee sid n acc a).ntf.length ≤ acc.ntf.length + 1 := by
      unfold Device.removeControlee
      split <;> simp
    have h2 : Noted (Device.removeControlee sid n acc a).effects := by
      unfold Device.removeControlee
      split
      · refine noted_append he ?_
        intro t n h
        split at h
        · cases List.mem_singleton.mp h
        · cases h
      · exact he
    obtain ⟨h3, h4⟩ := ih _ h2
    exact ⟨by simp only [List.length_cons]; omega, h4⟩

theorem add_effects (b : Bool) (l : List (Arr 2)) (acc : Device.MulticastAcc) :
    (l.foldl (Device.addControlee b) acc).effects = acc.effects := by
  induction l generalizing acc with
  | nil => rfl
  | cons a l ih =>
    rw [List.foldl_cons, ih]
    unfold Device.addControlee
    repeat' split
    all_goals rfl

theorem noted_update (s : Session) (sid : UInt32) (a : UpdateMulticastListAction) (l : List (Arr 2)) (hl : l.length ≤ 255) :
    Noted (Device.updateControlees s sid a l).effects := by
  unfold Device.updateControlees
  dsimp only
  split
  · rw [add_effects]; exact noted_nil
  · rw [add_effects]; exact noted_nil
  · rw [add_effects]; exact noted_nil
  · obtain ⟨h1, h2⟩ := remove_ntf sid s.appConfig.inBandTerminationAttemptCount l
      ⟨s.appConfig.dstMacAddress, .ok, [], [], []⟩ noted_nil
    split
    · refine noted_append h2 ?_
      intro t n h
      cases List.mem_singleton.mp h
      refine ⟨?_, trivial⟩
      show _ ≤ 255
      simp only [List.length_nil, Nat.zero_add] at h1
      omega
    · exact h2

/-- A command leaves only notifications that can be encoded. -/
theorem noted_exec {d d' : Device} {tid : Nat} {c : Cmd} {r : Rsp} {e : List Effect} (h : d.exec tid c = .ok (d', r, e)) :
    Noted e := by
  cases c with
  | coreDeviceReset rc =>
    have he : e = d.dropSessions ++ (({ Device.new d.handle d.macAddress with isReset := true } : Device).setState
      .deviceStateReady).2 := by cases h; rfl
    rw [he]
    exact noted_append (noted_dropSessions d) (noted_device _ _)
  | coreGetDeviceInfo =>
    change d.coreGetDeviceInfo = _ at h
    unfold Device.coreGetDeviceInfo at h
    split at h <;> cases h; exact noted_nil
  | coreGetCapsInfo => cases h; exact noted_nil
  | coreSetConfig ps =>
    change d.coreSetConfig ps = _ at h
    unfold Device.coreSetConfig at h
    split at h <;> cases h; exact noted_nil
  | coreGetConfig ids => cases h; exact noted_nil
  | sessionInit x ty =>
    change Except.ok (d.sessionInit x ty) = _ at h
    unfold Device.sessionInit at h
    split at h
    · cases h; exact noted_nil
    · split at h
      · cases h; exact noted_drop _
      · have he : e = ((Session.new x ty d.handle).setState .sessionStateInit
            .stateChangeWithSessionManagementCommands).2 := by cases h; rfl
        rw [he]
        exact noted_session _ _ _
  | sessionDeinit x =>
    change d.sessionDeinit x = _ at h
    unfold Device.sessionDeinit at h
    split at h
    · split at h
      · cases hr : d.releaseActive with
        | error z => rw [hr] at h; cases h
        | ok z => rw [hr] at h; cases h; exact noted_append (noted_release hr) (noted_drop _)
      · cases h; exact noted_append noted_nil (noted_drop _)
    · cases h; exact noted_nil
  | sessionGetCount => cases h; exact noted_nil
  | sessionSetAppConfig x tlvs =>
    change d.sessionSetAppConfig x tlvs = _ at h
    unfold Device.sessionSetAppConfig at h
    split at h
    · cases h; exact noted_nil
    · split at h
      · cases h
      · split at h
        · cases h; exact noted_nil
        · split at h
          · cases h; exact noted_nil
          · rename_i s _ _ _ _
            cases hl : Device.setAppConfigLoop s.appConfig tlvs with
            | error z => rw [hl] at h; cases h
            | ok z =>
              rw [hl] at h
              simp only [bind, Except.bind] at h
              split at h
              · cases h; exact noted_nil
              · split at h
                · split at h
                  · injection h with h
                    injection h with _ h
                    injection h with _ h
                    rw [← h]
                    exact noted_session _ _ _
                  · cases h; exact noted_nil
                · cases h; exact noted_nil
  | sessionGetAppConfig x ids =>
    change Except.ok (d.sessionGetAppConfig x ids) = _ at h
    unfold Device.sessionGetAppConfig at h
    split at h <;> cases h <;> exact noted_nil
  | sessionGetState x =>
    change Except.ok (d.sessionGetState x) = _ at h
    unfold Device.sessionGetState at h
    split at h <;> cases h <;> exact noted_nil
  | sessionUpdateMulticast x a pl =>
    change Except.ok (d.sessionUpdateMulticast x a pl) = _ at h
    unfold Device.sessionUpdateMulticast at h
    split at h
    · cases h; exact noted_nil
    · split at h
      · cases h; exact noted_nil
      · split at h
        · cases h; exact noted_nil
        · rename_i s _ _ _ l hl
          dsimp only at h
          split at h
          · have he : e = (Device.updateControlees s x a l).effects ++
                (({ s with appConfig := s.appConfig.withControlees (Device.updateControlees s x a l).dst } : Session).setState
                  .sessionStateIdle .errorInvalidNumOfControlees).2 := by
              injection h with h
              injection h with _ h
              injection h with _ h
              exact h.symm
            rw [he]
            exact noted_append (noted_update _ _ _ _ (parseControlees_length hl)) (noted_session _ _ _)
          · cases h
            exact noted_append (noted_update _ _ _ _ (parseControlees_length hl)) noted_nil
  | sessionStart x =>
    change d.sessionStart tid x = _ at h
    unfold Device.sessionStart at h
    split at h
    · cases h; exact noted_nil
    · split at h
      · cases h; exact noted_nil
      · split at h
        · cases h
        · cases h
          intro t n hm
          rcases List.mem_cons.mp hm with hm | hm
          · cases hm
          · exact noted_append (noted_session _ _ _) (noted_device _ _) t n hm
  | sessionStop x =>
    change d.sessionStop x = _ at h
    unfold Device.sessionStop at h
    split at h
    · cases h; exact noted_nil
    · split at h
      · cases h; exact noted_nil
      · rename_i s _ _
        cases hr : (d.putSession x ((s.stopRangingTask.1).setState .sessionStateIdle
            .stateChangeWithSessionManagementCommands).1).releaseActive with
        | error z => simp only [hr] at h; cases h
        | ok z =>
          simp only [hr] at h
          cases h
          exact noted_append (noted_append (noted_stop _) (noted_session _ _ _)) (noted_release hr)
  | sessionGetRangingCount x =>
    change Except.ok (d.sessionGetRangingCount x) = _ at h
    unfold Device.sessionGetRangingCount at h
    split at h <;> cases h <;> exact noted_nil
  | androidGetPowerStats => cases h; exact noted_nil
  | androidSetCountryCode cc => cases h; exact noted_nil

theorem noted_inBand (d : Device) (mac : MacAddress) (sid : UInt32) : Noted (d.stopInBand mac sid).2 := by
  unfold Device.stopInBand
  split
  · exact noted_nil
  · split
    · exact noted_nil
    · split
      · refine noted_append (noted_append (noted_stop _) (noted_session _ _ _)) ?_
        split
        · exact noted_device _ _
        · exact noted_nil
      · exact noted_nil

/-- The answer to a malformed packet: five bytes that are a RESPONSE with the status UNKNOWN_GID or UNKNOWN_OID. -/
def Short (b : Bytes) : Prop :=
  ∃ h₀ h₁ h₂ st : UInt8, b = [h₀, h₁, h₂, 1, st] ∧ (st = 7 ∨ st = 8) ∧ h₀.toNat / 32 = 2 ∧ h₀.toNat / 16 % 2 = 0

/-- A packet that can be encoded, and is not empty. -/
def Fit : Packet → Prop
  | .control p => Short p.encode ∧ p.payload.drop 3 = [7]
  | .raw b => Short b
  | p => p.encode.isSome = true

/-- Where a packet comes from: a response from the handler of a command; data and measurements are OK. -/
def Made : Packet → Prop
  | .rsp r => ∃ (d d' : Device) (tid : Nat) (c : Cmd) (e : List Effect), d.exec tid c = .ok (d', r, e)
  | .ntf n => Plain n
  | .data d => d.status = .ok
  | _ => True

theorem header_response (g : GroupId) : (ControlPacket.header g .response).toNat / 32 = 2 ∧
    (ControlPacket.header g .response).toNat / 16 % 2 = 0 := by cases g <;> decide

theorem raw_response (b : UInt8) : (MessageType.response.code <<< 5 ||| (b &&& 0xf)).toNat / 32 = 2 ∧
    (MessageType.response.code <<< 5 ||| (b &&& 0xf)).toNat / 16 % 2 = 0 :=
  forall_u8 (P := fun b => (MessageType.response.code <<< 5 ||| (b &&& 0xf)).toNat / 32 = 2 ∧
    (MessageType.response.code <<< 5 ||| (b &&& 0xf)).toNat / 16 % 2 = 0) (by decide +kernel) b

theorem sending_ok {α : Type} {pkt : Packet} {x y : α} (h : Device.sending pkt x = .ok y) : y = x ∧ pkt.encode.isSome = true := by
  unfold Device.sending at h
  split at h
  · rename_i he; cases h; exact ⟨rfl, he⟩
  · cases h

theorem plain_dataMessageSnd {d d' : Device} {p : DataPacket} {n : Ntf} (h : d.dataMessageSnd p = .ok (d', n)) : Plain n := by
  unfold Device.dataMessageSnd at h
  split at h
  · split at h
    · cases h
    · split at h
      · simp only [bind, Except.bind] at h
        split at h
        · cases h
        · rename_i s _ z hz
          unfold Session.dataMessageSnd at hz
          cases h
          repeat' split at hz
          all_goals first | cases hz; trivial | cases hz
      · cases h; trivial
  · split at h
    · cases h
    · cases h; trivial

theorem plain_make {mac : MacAddress} {a b : RangingMeasurement} {m : Measurement} (h : Pica.makeMeasurement mac a b = .ok m) :
    m.status = .ok := by
  unfold Pica.makeMeasurement at h
  split at h <;> cases h
  rfl

theorem plain_anchors {estimate : Nat → Nat → Option RangingMeasurement} {anchors : AMap MacAddress Anchor} {h : Nat}
    {l : List MacAddress} {ms : List Measurement} (ha : Pica.anchorMeasurements estimate anchors h l = .ok ms) :
    ∀ x ∈ ms, x.status = .ok := by
  induction l generalizing ms with
  | nil => cases ha; simp
  | cons m l ih =>
    unfold Pica.anchorMeasurements at ha
    split at ha
    · exact ih ha
    · split at ha
      · simp only [bind, Except.bind] at ha
        split at ha
        · cases ha
        · rename_i x hx
          split at ha
          · cases ha
          · rename_i xs hxs
            cases ha
            exact List.forall_mem_cons.mpr ⟨plain_make hx, ih hxs⟩
      · exact ih ha

theorem plain_peers {estimate : Nat → Nat → Option RangingMeasurement} {k h : Nat} {sid : UInt32} {s : Session} {b : Bool}
    {l : List Device} {z : List Measurement × List Device} (hp : Pica.peerLoop estimate k h sid s b l = .ok z) :
    ∀ x ∈ z.1, x.status = .ok := by
  induction l generalizing z with
  | nil => cases hp; simp
  | cons q l ih =>
    unfold Pica.peerLoop at hp
    split at hp
    · exact ih hp
    · simp only [bind, Except.bind] at hp
      split at hp
      · cases hp
      · split at hp
        · split at hp
          · cases hp
          · split at hp
            · split at hp
              · cases hp
              · rename_i x hx
                split at hp
                · cases hp
                · rename_i xs hxs
                  cases hp
                  exact List.forall_mem_cons.mpr ⟨plain_make hx, ih hxs⟩
            · exact ih hp
        · split at hp
          · cases hp
          · rename_i xs hxs
            cases hp
            exact ih (z := xs) hxs

/-- What a device answers. -/
theorem fit_receive {d d' : Device} {tid : Nat} {bytes : Bytes} {r : Option Packet} {e : List Effect}
    (h : d.receivePacket tid bytes = .ok (d', r, e)) : Noted e ∧ ∀ p, r = some p → Fit p ∧ Made p := by
  unfold Device.receivePacket at h
  split at h
  · cases h
  · rename_i b₀ rest
    split at h
    · split at h
      · rename_i p hp
        cases hd : d.dataMessageSnd p with
        | error z => rw [hd] at h; cases h
        | ok z =>
          rw [hd] at h
          obtain ⟨h1, h2⟩ := sending_ok h
          cases h1
          exact ⟨noted_nil, fun p hp => by cases hp; exact ⟨h2, plain_dataMessageSnd hd⟩⟩
      · cases h; exact ⟨noted_nil, by simp⟩
    · split at h
      · split at h
        · cases h
        · cases h
          refine ⟨noted_nil, fun p hp => ?_⟩
          cases hp
          exact ⟨⟨_, _, _, _, rfl, by split <;> decide, raw_response b₀⟩, trivial⟩
      · rename_i p hp
        cases hc : d.receiveCommand tid p with
        | error z => rw [hc] at h; cases h
        | ok z =>
          obtain ⟨d₁, q, e₁⟩ := z
          rw [hc] at h
          obtain ⟨h1, h2⟩ := sending_ok h
          cases h1
          suffices hs : Noted e ∧ (Fit q ∧ Made q) from ⟨hs.1, fun p hp => by cases hp; exact hs.2⟩
          unfold Device.receiveCommand at hc
          split at hc
          · cases hc; exact ⟨noted_nil, h2, trivial⟩
          · cases hp : Cmd.parse p.gid p.payload with
            | error z => rw [hp] at hc; cases hc
            | ok o =>
              rw [hp] at hc
              cases o with
              | none =>
                simp only [bind, Except.bind] at hc
                split at hc
                · cases hc
                  exact ⟨noted_nil, ⟨⟨_, _, _, _, rfl, .inl rfl, header_response p.gid⟩, rfl⟩, trivial⟩
                · cases hc
              | some c =>
                simp only [bind, Except.bind] at hc
                cases he : d.exec tid c with
                | error z => rw [he] at hc; cases hc
                | ok z =>
                  obtain ⟨d₂, r₂, e₂⟩ := z
                  rw [he] at hc
                  cases hc
                  exact ⟨noted_exec he, h2, _, _, _, _, _, he⟩
    · cases h; exact ⟨noted_nil, by simp⟩

theorem fit_dataSends {alive : Nat → Bool} {sid : UInt32} {s : Session} {l : List Device} {o : List Out}
    (hs : Pica.dataSends alive sid s l = .ok o) : ∀ x ∈ o, ∃ h d, x = .send h (.data d) ∧ Fit (.data d) ∧ Made (.data d) := by
  induction l generalizing o with
  | nil => cases hs; simp
  | cons q l ih =>
    unfold Pica.dataSends at hs
    split at hs
    · cases hs
    · simp only [bind, Except.bind] at hs
      split at hs
      · cases hs
      · rename_i hq
        split at hs
        · cases hs
        · rename_i hr
          cases hs
          intro x hx
          rcases List.mem_append.mp hx with hx | hx
          · obtain ⟨h1, h2, -⟩ := Pica.plain_sendUnwrap hq
            rw [h1] at hx
            exact ⟨_, _, List.mem_singleton.mp hx, h2, rfl⟩
          · exact ih hr x hx

/-- What a step sends, and what the tasks it spawns will send. -/
theorem fit_step {p p' : Pica} {env : Env} {c : Command} {out : List Out} (h : p.step env c = .ok (p', out)) :
    (∀ x pkt, .send x pkt ∈ out → Fit pkt ∧ Made pkt) ∧ ∀ x t n, .effect x (.notify t n) ∈ out → ntfFits n ∧ Plain n := by
  have key : ∀ {x : Nat} {es : List Effect}, Noted es →
      (∀ y pkt, Out.send y pkt ∈ es.map (Out.effect x) → Fit pkt ∧ Made pkt) ∧
      ∀ y t n, Out.effect y (.notify t n) ∈ es.map (Out.effect x) → ntfFits n ∧ Plain n := by
    intro x es he
    constructor
    · intro y pkt hm
      obtain ⟨_, -, hm⟩ := List.mem_map.mp hm
      cases hm
    · intro y t n hm
      obtain ⟨_, hm, e⟩ := List.mem_map.mp hm
      cases e
      exact he t n hm
  cases c with
  | connect =>
    cases h
    obtain ⟨h1, h2⟩ := key (x := p.counter) (noted_device (Device.new p.counter (Pica.deviceMac p.counter)) .deviceStateReady)
    constructor
    · intro x pkt hm
      rcases List.mem_append.mp hm with hm | hm
      · exact h1 x pkt hm
      · cases List.mem_singleton.mp hm
    · intro x t n hm
      rcases List.mem_append.mp hm with hm | hm
      · exact h2 x t n hm
      · cases List.mem_singleton.mp hm
  | disconnect x =>
    change Except.ok (p.disconnect x) = _ at h
    unfold Pica.disconnect at h
    split at h
    · rename_i d hd
      cases h
      obtain ⟨h1, h2⟩ := key (x := x) (noted_dropSessions d)
      constructor
      · intro y pkt hm
        rcases List.mem_cons.mp hm with hm | hm
        · cases hm
        · exact h1 y pkt hm
      · intro y t n hm
        rcases List.mem_cons.mp hm with hm | hm
        · cases hm
        · exact h2 y t n hm
    · cases h; simp
  | ranging x sid =>
    change p.ranging env x sid = _ at h
    obtain ⟨d, s, ms, ms', ts, o₁, -, -, ha, hp, ho, hout⟩ := Pica.ranging_ok h
    have h1 := fit_dataSends ho
    rcases hout with ⟨-, hw, rfl, -, -⟩ | ⟨-, rfl, -⟩
    · have h2 := (Pica.plain_sendUnwrap hw).2.1
      have h3 : Plain (.sessionInfo s.sequenceNumber sid 0 0 (ms ++ ms') []) := by
        intro x hx
        rcases List.mem_append.mp hx with hx | hx
        exacts [plain_anchors ha x hx, plain_peers hp x hx]
      constructor
      · intro y pkt hm
        rcases List.mem_append.mp hm with hm | hm
        · obtain ⟨_, _, e, hf⟩ := h1 _ hm; cases e; exact hf
        · cases List.mem_singleton.mp hm; exact ⟨h2, h3⟩
      · intro y t n hm
        rcases List.mem_append.mp hm with hm | hm
        · obtain ⟨_, _, e, hf⟩ := h1 _ hm; cases e
        · cases List.mem_singleton.mp hm
    · constructor
      · intro y pkt hm
        obtain ⟨_, _, e, hf⟩ := h1 _ hm; cases e; exact hf
      · intro y t n hm
        obtain ⟨_, _, e, hf⟩ := h1 _ hm; cases e
  | stopRanging mac sid =>
    cases h
    constructor
    · intro y pkt hm
      obtain ⟨e, -, hm⟩ := List.mem_flatMap.mp hm
      exact (key (noted_inBand e.2 mac sid)).1 y pkt hm
    · intro y t n hm
      obtain ⟨e, -, hm⟩ := List.mem_flatMap.mp hm
      exact (key (noted_inBand e.2 mac sid)).2 y t n hm
  | uciPacket x bytes =>
    change p.uciPacket env x bytes = _ at h
    unfold Pica.uciPacket at h
    split at h
    · cases h; simp
    · rename_i d hd
      cases hr : d.receivePacket env.tid bytes with
      | error z => rw [hr] at h; cases h
      | ok z =>
        obtain ⟨d', r, e⟩ := z
        rw [hr] at h
        cases h
        obtain ⟨h1, h2⟩ := fit_receive hr
        obtain ⟨h3, h4⟩ := key (x := x) h1
        constructor
        · intro y pkt hm
          rcases List.mem_append.mp hm with hm | hm
          · cases r with
            | none => cases hm
            | some q => cases List.mem_singleton.mp hm; exact h2 _ rfl
          · exact h3 y pkt hm
        · intro y t n hm
          rcases List.mem_append.mp hm with hm | hm
          · cases r with
            | none => cases hm
            | some q => cases List.mem_singleton.mp hm
          · exact h4 y t n hm
  | createAnchor mac =>
    change p.createAnchor mac = _ at h
    unfold Pica.createAnchor at h
    split at h
    · cases h; simp
    · split at h
      · cases h
      · cases h; simp
  | destroyAnchor mac =>
    change Except.ok (p.destroyAnchor mac) = _ at h
    unfold Pica.destroyAnchor at h
    split at h <;> cases h <;> simp

end Pica

namespace Pica
open Spec

theorem System.ntfs_apply (out : List Out) (s : System) :
    ∀ x ∈ (out.foldl System.apply s).ntfs, x ∈ s.ntfs ∨ ∃ t, .effect x.1 (.notify t x.2) ∈ out := by
  induction out generalizing s with
  | nil => intro x hx; exact .inl hx
  | cons o out ih =>
    intro x hx
    rcases ih (s.apply o) x hx with h | ⟨t, h⟩
    · have : x ∈ s.ntfs ∨ ∃ t, o = .effect x.1 (.notify t x.2) := by
        unfold System.apply at h
        split at h
        · rcases List.mem_append.mp h with h | h
          · exact .inl h
          · cases List.mem_singleton.mp h
            exact .inr ⟨_, rfl⟩
        all_goals exact .inl h
      rcases this with h | ⟨t, rfl⟩
      · exact .inl h
      · exact .inr ⟨t, List.mem_cons_self⟩
    · exact .inr ⟨t, List.mem_cons_of_mem _ h⟩

/-- The packets put on the channel of the device `h` in one step of a schedule: by the event loop, or by the task of a
delayed notification. -/
def sentTo (h : Nat) : System.Label → List Packet
  | .process ev => ev.out.filterMap fun
    | .send h' p => if h' = h then some p else none
    | _ => none
  | .notifies h' n => if h' = h then [.ntf n] else []
  | _ => []

theorem fit_run {ls : List System.Label} {s : System} (hr : System.Run .new ls s) :
    (∀ x ∈ s.ntfs, ntfFits x.2 ∧ Plain x.2) ∧ ∀ h, ∀ p ∈ ls.flatMap (sentTo h), Fit p ∧ Made p := by
  generalize hn : System.new = n at hr
  induction hr with
  | nil => subst hn; exact ⟨by simp [System.new], by simp⟩
  | @step t u ls l hr _ hst ih =>
    obtain ⟨h1, h2⟩ := ih
    suffices hs : (∀ x ∈ u.ntfs, ntfFits x.2 ∧ Plain x.2) ∧ ∀ h, ∀ p ∈ sentTo h l, Fit p ∧ Made p by
      refine ⟨hs.1, fun h p hp => ?_⟩
      rw [List.flatMap_append, List.mem_append] at hp
      rcases hp with hp | hp
      · exact h2 h p hp
      · exact hs.2 h p (by simpa using hp)
    cases hst with
    | notifies hp =>
      rename_i h n l
      have hm : ∀ x ∈ (h, n) :: l, ntfFits x.2 ∧ Plain x.2 := fun x hx => h1 x (hp.mem_iff.mpr hx)
      refine ⟨fun x hx => hm x (List.mem_cons_of_mem _ hx), ?_⟩
      intro h' p hp
      simp only [sentTo] at hp
      split at hp
      · cases List.mem_singleton.mp hp
        exact ⟨ntf_isSome.mpr (hm _ List.mem_cons_self).1, (hm _ List.mem_cons_self).2⟩
      · cases hp
    | process hq hs =>
      obtain ⟨h3, h4⟩ := fit_step hs
      constructor
      · intro x hx
        rcases System.ntfs_apply _ _ x hx with hx | ⟨t, hx⟩
        · exact h1 x hx
        · exact h4 _ t _ hx
      · intro h' p hp
        obtain ⟨o, ho, he⟩ := List.mem_filterMap.mp hp
        split at he
        · split at he
          · cases he; exact h3 _ _ ho
          · cases he
        · cases he
    | _ => exact ⟨h1, by simp [sentTo]⟩

/-- The bytes `b` the host has read are those of the packet: its own parser finds the message sent. An answer to a
malformed packet, for which there is no parser, has the bytes sent, up to the length field. -/
def Carries (b : Bytes) : Packet → Prop
  | .rsp r => HostMessage.parse b = some (.rsp r)
  | .ntf n => HostMessage.parse b = some (.ntf n)
  | .data d => DataMessageRcv.parse b = some d
  | .control p => b.take 3 = p.encode.take 3 ∧ b.drop 4 = p.encode.drop 4
  | .raw x => b.take 3 = x.take 3 ∧ b.drop 4 = x.drop 4

theorem rsp_parse_header (g : GroupId) (h₁ a b c d : UInt8) (q : Bytes) :
    Rsp.parse g (h₁ :: a :: b :: q) = Rsp.parse g (h₁ :: c :: d :: q) := by cases g <;> rfl

theorem ntf_parse_header (g : GroupId) (h₁ a b c d : UInt8) (q : Bytes) :
    Ntf.parse g (h₁ :: a :: b :: q) = Ntf.parse g (h₁ :: c :: d :: q) := by cases g <;> rfl

theorem control_decode_header (h₀ : UInt8) (q : Bytes) :
    ControlPacket.decode (h₀ :: q) = (ControlPacket.decode [h₀]).map (fun p => { p with payload := q }) := by
  unfold ControlPacket.decode
  cases h : WireEnum.ofU8? (E := GroupId) (h₀ &&& 0x0f) with
  | none => simp [h]
  | some g => cases h' : WireEnum.ofU8? (E := MessageType) (h₀ >>> 5) <;> simp [h, h']

theorem host_parse_header (h₀ h₁ a b c d : UInt8) (q : Bytes) :
    HostMessage.parse (h₀ :: h₁ :: a :: b :: q) = HostMessage.parse (h₀ :: h₁ :: c :: d :: q) := by
  unfold HostMessage.parse
  rw [control_decode_header, control_decode_header h₀ (h₁ :: c :: d :: q)]
  cases ControlPacket.decode [h₀] with
  | none => rfl
  | some p =>
    simp only [Option.map_some, Option.bind_some]
    cases p.mt
    case data | command => rfl
    · exact congrArg (Option.map _) (rsp_parse_header p.gid h₁ a b c d q)
    · exact congrArg (Option.map _) (ntf_parse_header p.gid h₁ a b c d q)

theorem same_head {m n : Msg} (h : m.Same n) (hm : m.more = 0) (hn : n.more = 0) : m.h₀ = n.h₀ := by
  obtain ⟨h1, h2, -⟩ := h
  unfold Msg.mt at h1
  unfold Msg.low at h2
  unfold Msg.more at hm hn
  apply UInt8.toNat.inj
  omega

theorem rsp_type (r : Rsp) : (2 * 32 + (rspCode r).1).toNat / 32 < 4 := by cases r <;> (dsimp only [rspCode]; decide)
theorem rsp_more (r : Rsp) : (2 * 32 + (rspCode r).1).toNat / 16 % 2 = 0 := by cases r <;> (dsimp only [rspCode]; decide)
theorem ntf_type (n : Ntf) : (3 * 32 + (ntfCode n).1).toNat / 32 < 4 := by cases n <;> (dsimp only [ntfCode]; decide)
theorem ntf_more (n : Ntf) : (3 * 32 + (ntfCode n).1).toNat / 16 % 2 = 0 := by cases n <;> (dsimp only [ntfCode]; decide)

theorem rspPayload_ne (r : Rsp) : rspPayload r ≠ [] := by cases r <;> simp [rspPayload]

theorem ntfPayload_ne (n : Ntf) : ntfPayload n ≠ [] := by cases n <;> simp [ntfPayload, many]

/-- A control message is found again in the message the host reads. -/
theorem control_message {b : Bytes} {x : HostMessage} {m m' : Msg} (hb : b = m.bytes) (hp : HostMessage.parse b = some x)
    (h0 : m.more = 0) (hs : m'.Same m) (hm : m'.more = 0) : HostMessage.parse m'.bytes = some x := by
  rw [← hp, hb]
  unfold Msg.bytes
  rw [same_head hs hm h0, hs.2.2.1, hs.2.2.2.2]
  exact host_parse_header _ _ _ _ _ _ _

/-- A packet that fits has the shape of a message, which is found again in the message the host reads. -/
theorem fit_message {p : Packet} (h : Fit p) :
    ∃ m : Msg, p.encode = some m.bytes ∧ m.mt < 4 ∧ m.payload ≠ [] ∧
      ∀ m' : Msg, m'.Same m → m'.more = 0 → Carries m'.bytes p := by
  have short : ∀ {b : Bytes}, Short b → ∃ m : Msg, b = m.bytes ∧ m.mt < 4 ∧ m.payload ≠ [] ∧
      ∀ m' : Msg, m'.Same m → m'.more = 0 → m'.bytes.take 3 = b.take 3 ∧ m'.bytes.drop 4 = b.drop 4 := by
    rintro b ⟨h₀, h₁, h₂, st, rfl, -, h1, h2⟩
    refine ⟨⟨h₀, h₁, h₂, 1, [st]⟩, rfl, by show h₀.toNat / 32 < 4; omega, by simp, fun m' hs hm => ?_⟩
    have e := same_head hs hm h2
    have hmt : m'.mt ≠ 0 := by rw [hs.1]; show h₀.toNat / 32 ≠ 0; omega
    have e2 := hs.2.2.2.1 hmt
    refine ⟨?_, hs.2.2.2.2⟩
    simp [Msg.bytes, e, e2, hs.2.2.1]
  cases p with
  | rsp r =>
    have hf := rsp_isSome.mp h
    have hb := (Props.C48_rsp_bytes r _).mpr ⟨hf, rfl⟩
    have hp := Props.C48_rsp_roundtrip r _ hb
    obtain ⟨m, e, h1, h2, h3⟩ : ∃ m : Msg, controlBytes 2 (rspCode r) (rspPayload r) = m.bytes ∧ m.mt < 4 ∧ m.more = 0 ∧
        m.payload ≠ [] :=
      ⟨⟨2 * 32 + (rspCode r).1, (rspCode r).2, 0, 0, rspPayload r⟩, rfl, rsp_type r, rsp_more r, rspPayload_ne r⟩
    exact ⟨m, by rw [hb, e], h1, h3, fun m' hs hm => control_message e hp h2 hs hm⟩
  | ntf n =>
    have hf := ntf_isSome.mp h
    have hb := (Props.C48_ntf_bytes n _).mpr ⟨hf, rfl⟩
    have hp := Props.C48_ntf_roundtrip n _ hb
    obtain ⟨m, e, h1, h2, h3⟩ : ∃ m : Msg, controlBytes 3 (ntfCode n) (ntfPayload n) = m.bytes ∧ m.mt < 4 ∧ m.more = 0 ∧
        m.payload ≠ [] :=
      ⟨⟨3 * 32 + (ntfCode n).1, (ntfCode n).2, 0, 0, ntfPayload n⟩, rfl, ntf_type n, ntf_more n, ntfPayload_ne n⟩
    exact ⟨m, by rw [hb, e], h1, h3, fun m' hs hm => control_message e hp h2 hs hm⟩
  | data d =>
    have hf := data_isSome.mp h
    have hb := (Props.C48_data_bytes d _).mpr ⟨hf, rfl⟩
    have hp := Props.C48_data_roundtrip d _ hb
    refine ⟨⟨0x02, 0, 0, 0, u32le d.sessionHandle ++ [d.status.code] ++ u64le d.sourceAddress
        ++ u16le d.dataSequenceNumber ++ leBytes 2 d.applicationData.length ++ d.applicationData⟩,
      by rw [hb]; simp [Msg.bytes], by show (2 : UInt8).toNat / 32 < 4; decide, by simp, fun m' hs hm => ?_⟩
    have e := same_head hs hm (by show (2 : UInt8).toNat / 16 % 2 = 0; decide)
    have e2 := hs.2.2.2.2
    show DataMessageRcv.parse _ = _
    rw [← hp]
    unfold Msg.bytes
    rw [e, e2]
    simp only [List.cons_append, List.nil_append, List.append_assoc]
    rfl
  | control q =>
    obtain ⟨m, e, h1, h2, h3⟩ := short h.1
    exact ⟨m, congrArg some e, h1, h2, h3⟩
  | raw b =>
    obtain ⟨m, e, h1, h2, h3⟩ := short h
    exact ⟨m, congrArg some e, h1, h2, h3⟩

end Pica
