import Verif.Proofs.Delivery
import Verif.Spec.Reasons
/-! The reasons in the session status notifications. -/

set_option linter.dupNamespace false

namespace Pica
open Spec SessionState

/-- The session status notifications that tasks will send give the reason `c`. -/
def Told (c : UInt8) (es : List Effect) : Prop := ∀ t id st r, .notify t (.sessionStatus id st r) ∈ es → r = c

theorem told_nil {c : UInt8} : Told c [] := by intro t id st r h; cases h

theorem told_append {c : UInt8} {a b : List Effect} (ha : Told c a) (hb : Told c b) : Told c (a ++ b) := by
  intro t id st r h
  rcases List.mem_append.mp h with h | h
  exacts [ha t id st r h, hb t id st r h]

theorem told_device {c : UInt8} (d : Device) (st : DeviceState) : Told c (d.setState st).2 := by
  unfold Device.setState
  split
  · exact told_nil
  · intro t id st r h; cases List.mem_singleton.mp h

theorem told_session (s : Session) (st : SessionState) (r : ReasonCode) : Told r.code (s.setState st r).2 := by
  unfold Session.setState
  split
  · exact told_nil
  · intro t id st r h; cases List.mem_singleton.mp h; rfl

theorem told_stop {c : UInt8} (s : Session) : Told c s.stopRangingTask.2 := by
  unfold Session.stopRangingTask
  split
  · intro t id st r h; cases List.mem_singleton.mp h
  · exact told_nil

theorem told_drop (s : Session) : Told 0x00 s.drop := told_append (told_stop s) (told_session _ _ _)

theorem told_dropSessions (d : Device) : Told 0x00 d.dropSessions := by
  intro t id st r h
  obtain ⟨s, -, hs⟩ := List.mem_flatMap.mp h
  exact told_drop s t id st r hs

theorem told_release {c : UInt8} {d : Device} {x : Device × List Effect} (h : d.releaseActive = .ok x) : Told c x.2 := by
  unfold Device.releaseActive at h
  split at h
  · cases h
  · cases h
    split
    · exact told_device _ _
    · exact told_nil

theorem told_remove {c : UInt8} (sid : UInt32) (n : UInt8) (l : List (Arr 2)) (acc : Device.MulticastAcc)
    (he : Told c acc.effects) : Told c (l.foldl (Device.removeControlee sid n) acc).effects := by
  induction l generalizing acc with
  | nil => exact he
  | cons a l ih =>
    rw [List.foldl_cons]
    refine ih _ ?_
    unfold Device.removeControlee
    split
    · refine told_append he ?_
      intro t id st r h
      split at h
      · cases List.mem_singleton.mp h
      · cases h
    · exact he

theorem told_update {c : UInt8} (s : Session) (sid : UInt32) (a : UpdateMulticastListAction) (l : List (Arr 2)) :
    Told c (Device.updateControlees s sid a l).effects := by
  unfold Device.updateControlees
  dsimp only
  split
  · rw [add_effects]; exact told_nil
  · rw [add_effects]; exact told_nil
  · rw [add_effects]; exact told_nil
  · have h2 := told_remove (c := c) sid s.appConfig.inBandTerminationAttemptCount l
      ⟨s.appConfig.dstMacAddress, .ok, [], [], []⟩ told_nil
    split
    · refine told_append h2 ?_
      intro t id st r h
      cases List.mem_singleton.mp h
    · exact h2

/-- The reasons a command gives. -/
theorem told_exec {d d' : Device} {tid : Nat} {c : Cmd} {r : Rsp} {e : List Effect} (h : d.exec tid c = .ok (d', r, e)) :
    Told (cmdReason c) e := by
  cases c with
  | coreDeviceReset rc =>
    have he : e = d.dropSessions ++ (({ Device.new d.handle d.macAddress with isReset := true } : Device).setState
      .deviceStateReady).2 := by cases h; rfl
    rw [he]
    exact told_append (told_dropSessions d) (told_device _ _)
  | coreGetDeviceInfo =>
    change d.coreGetDeviceInfo = _ at h
    unfold Device.coreGetDeviceInfo at h
    split at h <;> cases h; exact told_nil
  | coreGetCapsInfo => cases h; exact told_nil
  | coreSetConfig ps =>
    change d.coreSetConfig ps = _ at h
    unfold Device.coreSetConfig at h
    split at h <;> cases h; exact told_nil
  | coreGetConfig ids => cases h; exact told_nil
  | sessionInit x ty =>
    change Except.ok (d.sessionInit x ty) = _ at h
    unfold Device.sessionInit at h
    split at h
    · cases h; exact told_nil
    · split at h
      · cases h; exact told_drop _
      · have he : e = ((Session.new x ty d.handle).setState .sessionStateInit
            .stateChangeWithSessionManagementCommands).2 := by cases h; rfl
        rw [he]
        exact told_session _ _ _
  | sessionDeinit x =>
    change d.sessionDeinit x = _ at h
    unfold Device.sessionDeinit at h
    split at h
    · split at h
      · cases hr : d.releaseActive with
        | error z => rw [hr] at h; cases h
        | ok z => rw [hr] at h; cases h; exact told_append (told_release hr) (told_drop _)
      · cases h; exact told_append told_nil (told_drop _)
    · cases h; exact told_nil
  | sessionGetCount => cases h; exact told_nil
  | sessionSetAppConfig x tlvs =>
    change d.sessionSetAppConfig x tlvs = _ at h
    unfold Device.sessionSetAppConfig at h
    split at h
    · cases h; exact told_nil
    · split at h
      · cases h
      · split at h
        · cases h; exact told_nil
        · split at h
          · cases h; exact told_nil
          · rename_i s _ _ _ _
            cases hl : Device.setAppConfigLoop s.appConfig tlvs with
            | error z => rw [hl] at h; cases h
            | ok z =>
              rw [hl] at h
              simp only [bind, Except.bind] at h
              split at h
              · cases h; exact told_nil
              · split at h
                · split at h
                  · injection h with h
                    injection h with _ h
                    injection h with _ h
                    rw [← h]
                    exact told_session _ _ _
                  · cases h; exact told_nil
                · cases h; exact told_nil
  | sessionGetAppConfig x ids =>
    change Except.ok (d.sessionGetAppConfig x ids) = _ at h
    unfold Device.sessionGetAppConfig at h
    split at h <;> cases h <;> exact told_nil
  | sessionGetState x =>
    change Except.ok (d.sessionGetState x) = _ at h
    unfold Device.sessionGetState at h
    split at h <;> cases h <;> exact told_nil
  | sessionUpdateMulticast x a pl =>
    change Except.ok (d.sessionUpdateMulticast x a pl) = _ at h
    unfold Device.sessionUpdateMulticast at h
    split at h
    · cases h; exact told_nil
    · split at h
      · cases h; exact told_nil
      · split at h
        · cases h; exact told_nil
        · rename_i s _ _ _ l hl
          dsimp only at h
          split at h
          · have he : e = (Device.updateControlees s x a l).effects ++
                (({ s with appConfig := s.appConfig.withControlees (Device.updateControlees s x a l).dst } : Session).setState
                  .sessionStateIdle .errorInvalidNumOfControlees).2 := by
              injection h with h
              injection h with _ h
              injection h with _ h
              exact h.symm
            rw [he]
            exact told_append (told_update _ _ _ _) (told_session _ _ _)
          · cases h
            exact told_append (told_update _ _ _ _) told_nil
  | sessionStart x =>
    change d.sessionStart tid x = _ at h
    unfold Device.sessionStart at h
    split at h
    · cases h; exact told_nil
    · split at h
      · cases h; exact told_nil
      · split at h
        · cases h
        · cases h
          intro t id st r hm
          rcases List.mem_cons.mp hm with hm | hm
          · cases hm
          · exact told_append (told_session _ _ _) (told_device _ _) t id st r hm
  | sessionStop x =>
    change d.sessionStop x = _ at h
    unfold Device.sessionStop at h
    split at h
    · cases h; exact told_nil
    · split at h
      · cases h; exact told_nil
      · rename_i s _ _
        cases hr : (d.putSession x ((s.stopRangingTask.1).setState .sessionStateIdle
            .stateChangeWithSessionManagementCommands).1).releaseActive with
        | error z => simp only [hr] at h; cases h
        | ok z =>
          simp only [hr] at h
          cases h
          exact told_append (told_append (told_stop _) (told_session _ _ _)) (told_release hr)
  | sessionGetRangingCount x =>
    change Except.ok (d.sessionGetRangingCount x) = _ at h
    unfold Device.sessionGetRangingCount at h
    split at h <;> cases h <;> exact told_nil
  | androidGetPowerStats => cases h; exact told_nil
  | androidSetCountryCode cc => cases h; exact told_nil

theorem told_inBand (d : Device) (mac : MacAddress) (sid : UInt32) : Told 0x05 (d.stopInBand mac sid).2 := by
  unfold Device.stopInBand
  split
  · exact told_nil
  · split
    · exact told_nil
    · split
      · refine told_append (told_append (told_stop _) (told_session _ _ _)) ?_
        split
        · exact told_device _ _
        · exact told_nil
      · exact told_nil

theorem told_receive {d d' : Device} {tid : Nat} {bytes : Bytes} {r : Option Packet} {e : List Effect}
    (h : d.receivePacket tid bytes = .ok (d', r, e)) : e = [] ∨ ∃ c, IsCmd bytes c ∧ Told (cmdReason c) e := by
  cases receive_ok h with
  | ignored => exact .inl rfl
  | refused => exact .inl rfl
  | early => exact .inl rfl
  | cmd _ c _ rsp _ hc _ hx _ => exact .inr ⟨c, hc, told_exec hx⟩
  | snd => exact .inl rfl
  | rcv => exact .inl rfl

/-- The reasons given in a step. -/
theorem told_step {p p' : Pica} {env : Env} {c : Command} {out : List Out} (h : p.step env c = .ok (p', out))
    {x t : Nat} {id : UInt32} {st : SessionState} {r : UInt8} (hm : .effect x (.notify t (.sessionStatus id st r)) ∈ out) :
    Reason c r := by
  have key : ∀ {y : Nat} {es : List Effect} {v : UInt8}, Told v es →
      .effect x (.notify t (.sessionStatus id st r)) ∈ es.map (Out.effect y) → r = v := by
    intro y es v he hm
    obtain ⟨_, hm, e⟩ := List.mem_map.mp hm
    cases e
    exact he t id st r hm
  cases c with
  | connect =>
    cases h
    rcases List.mem_append.mp hm with hm | hm
    · have h0 := key (told_device (c := 0x00) (Device.new p.counter (Pica.deviceMac p.counter)) .deviceStateReady) hm
      have h1 := key (told_device (c := 0x01) (Device.new p.counter (Pica.deviceMac p.counter)) .deviceStateReady) hm
      rw [h0] at h1
      cases h1
    · cases List.mem_singleton.mp hm
  | disconnect y =>
    change Except.ok (p.disconnect y) = _ at h
    unfold Pica.disconnect at h
    split at h
    · rename_i d hd
      cases h
      rcases List.mem_cons.mp hm with hm | hm
      · cases hm
      · rw [key (told_dropSessions d) hm]; exact .disconnect y
    · cases h; cases hm
  | ranging y sid =>
    change p.ranging env y sid = _ at h
    obtain ⟨d, s, ms, ms', ts, o₁, -, -, -, -, ho, hout⟩ := Pica.ranging_ok h
    have h1 := fit_dataSends ho
    rcases hout with ⟨-, hw, rfl, -, -⟩ | ⟨-, rfl, -⟩
    · rcases List.mem_append.mp hm with hm | hm
      · obtain ⟨_, _, e, hf⟩ := h1 _ hm; cases e
      · cases List.mem_singleton.mp hm
    · obtain ⟨_, _, e, hf⟩ := h1 _ hm; cases e
  | stopRanging mac sid =>
    cases h
    obtain ⟨e, -, hm⟩ := List.mem_flatMap.mp hm
    rw [key (told_inBand e.2 mac sid) hm]
    exact .inBand mac sid
  | uciPacket y bytes =>
    change p.uciPacket env y bytes = _ at h
    unfold Pica.uciPacket at h
    split at h
    · cases h; cases hm
    · rename_i d hd
      cases hr : d.receivePacket env.tid bytes with
      | error z => rw [hr] at h; cases h
      | ok z =>
        obtain ⟨d', r', e⟩ := z
        rw [hr] at h
        cases h
        rcases List.mem_append.mp hm with hm | hm
        · cases r' with
          | none => cases hm
          | some q => cases List.mem_singleton.mp hm
        · rcases told_receive hr with rfl | ⟨c, hc, he⟩
          · cases hm
          · rw [key he hm]; exact .command y bytes c hc
  | createAnchor mac =>
    change p.createAnchor mac = _ at h
    unfold Pica.createAnchor at h
    split at h
    · cases h; cases List.mem_singleton.mp hm
    · split at h
      · cases h
      · cases h; cases List.mem_singleton.mp hm
  | destroyAnchor mac =>
    change Except.ok (p.destroyAnchor mac) = _ at h
    unfold Pica.destroyAnchor at h
    split at h <;> cases h <;> cases List.mem_singleton.mp hm

end Pica
