import Verif.Props.Dispatch
import Verif.Props.Life
/-! C14, continued: a device is only made ready by its own host. -/

namespace Pica.Props
open Spec

theorem move_isReset {tid : Nat} {sc : Scope} {d d' : Device} {e : List Effect} (h : DevMove tid sc d e d')
    (hs : ¬∀ x, sc.sess x) : d'.isReset = d.isReset := by
  cases h with
  | reset hx => exact absurd hx hs
  | session => rfl
  | config => rfl
  | reorder => rfl

theorem one_not_all {sid : UInt32} : ¬∀ x, (Scope.one sid).sess x := by
  intro h
  have h1 : (0 : UInt32) = sid := h 0
  have h2 : (1 : UInt32) = sid := h 1
  rw [← h1] at h2
  exact absurd h2 (by decide)

/-- A step changes whether a device has been reset only by a device reset command of its host. -/
theorem step_isReset {p p' : Pica} {env : Env} {c : Command} {out : List Out} (hi : Pica.PInv p)
    (h : p.step env c = .ok (p', out)) (x : Nat) (d d' : Device) (hd : p.devices.get? x = some d)
    (hd' : p'.devices.get? x = some d') :
    d'.isReset = d.isReset ∨ ∃ bytes rc, c = .uciPacket x bytes ∧ IsCmd bytes (.coreDeviceReset rc) := by
  have same : p'.devices = p.devices → d'.isReset = d.isReset := by
    intro e
    rw [e, hd] at hd'
    cases hd'
    rfl
  cases c with
  | connect =>
    have hc : p.counter ≠ x := fun e => absurd (hi.dev _ _ hd).2.1 (by omega)
    unfold Pica.step at h
    cases h
    change AMap.get? (AMap.insert _ _ _) x = _ at hd'
    rw [AMap.get?_insert, if_neg hc, hd] at hd'
    cases hd'
    exact .inl rfl
  | disconnect y =>
    change Except.ok (p.disconnect y) = _ at h
    unfold Pica.disconnect at h
    cases hg : p.devices.get? y with
    | none => rw [hg] at h; cases h; exact .inl (same rfl)
    | some e =>
      rw [hg] at h
      cases h
      change AMap.get? (AMap.erase _ _) x = _ at hd'
      rw [AMap.get?_erase] at hd'
      split at hd'
      · cases hd'
      · rw [hd] at hd'; cases hd'; exact .inl rfl
  | ranging y sid =>
    obtain ⟨e, s, ms, ms', ts, o₁, he, hs, -, -, ho, hc⟩ := Pica.ranging_ok h
    rcases hc with ⟨-, -, rfl, -, rfl⟩ | ⟨-, rfl, rfl⟩
    all_goals
      change AMap.get? (AMap.insert _ _ _) x = _ at hd'
      rw [AMap.get?_insert] at hd'
      split at hd'
      · rename_i hx
        subst hx
        rw [hd] at he
        cases he
        cases hd'
        exact .inl rfl
      · rw [hd] at hd'; cases hd'; exact .inl rfl
  | stopRanging mac sid =>
    unfold Pica.step Pica.stopControleeRanging at h
    cases h
    change AMap.get? (List.map _ _) x = _ at hd'
    rw [Pica.get?_map_values p.devices (fun d => (d.stopInBand mac sid).1), hd] at hd'
    cases hd'
    exact .inl (move_isReset (tid := 0) Device.stopInBand_move one_not_all)
  | uciPacket y bytes =>
    by_cases hx : x = y
    · subst hx
      rw [uci_step hd] at h
      cases hr : d.receivePacket env.tid bytes with
      | error z => rw [hr] at h; cases h
      | ok z =>
        obtain ⟨d₁, r, e⟩ := z
        rw [hr] at h
        cases h
        have : d₁ = d' := by
          change AMap.get? (AMap.insert p.devices x d₁) x = _ at hd'
          rw [AMap.get?_insert, if_pos rfl] at hd'
          exact Option.some.inj hd'
        subst this
        by_cases hc : ∃ c, IsCmd bytes c
        · obtain ⟨c, hc⟩ := hc
          rcases receive_isCmd hc hr with ⟨rfl, -⟩ | ⟨hrd, rsp, hexec, -, -⟩
          · exact .inl rfl
          · by_cases hrc : ∃ rc, c = .coreDeviceReset rc
            · obtain ⟨rc, rfl⟩ := hrc
              exact .inr ⟨bytes, rc, rfl, hc⟩
            · refine .inl (move_isReset (Device.exec_move hrd hexec) ?_)
              cases c with
              | coreDeviceReset rc => exact absurd ⟨rc, rfl⟩ hrc
              | _ => first | exact one_not_all | exact fun h => h 0
        · refine .inl (move_isReset (receive_notCmd (fun c hc' => hc ⟨c, hc'⟩) hr) ?_)
          intro hall
          obtain ⟨m, hm, h0⟩ := hall 0
          obtain ⟨m', hm', h1⟩ := hall 1
          rw [isDataSnd_unique hm hm'] at h0
          rw [← h0] at h1
          exact absurd h1 (by decide)
    · have := (C24_devices_independent p p' env y bytes out h).2.2.1 x hx
      rw [hd, hd'] at this
      cases this
      exact .inl rfl
  | createAnchor mac =>
    change p.createAnchor mac = _ at h
    unfold Pica.createAnchor at h
    split at h
    · cases h; exact .inl (same rfl)
    · split at h
      · cases h
      · cases h; exact .inl (same rfl)
  | destroyAnchor mac =>
    change Except.ok (p.destroyAnchor mac) = _ at h
    unfold Pica.destroyAnchor at h
    split at h
    · cases h; exact .inl (same rfl)
    · cases h; exact .inl (same rfl)

/-- C14: a device has been reset only if its host sent it a device reset command. -/
theorem C14_needs_reset (tr : List Pica.Event) (p : Pica) (hr : Pica.Run .new tr p) (h : Nat) (d : Device)
    (hd : p.devices.get? h = some d) (hrs : d.isReset = true) :
    ∃ e ∈ tr, ∃ bytes rc, e.command = .uciPacket h bytes ∧ IsCmd bytes (.coreDeviceReset rc) := by
  generalize hp₀ : Pica.new = p₀ at hr
  induction hr generalizing d with
  | nil => subst hp₀; cases hd
  | @reorder q r tr hrun hro ih =>
    subst hp₀
    rcases (Pica.reorder_dev (Pica.reachable_inv ⟨tr, hrun⟩) hro).2.2.2 h with e | ⟨d₀, l, h0, -, h1⟩
    · exact ih d (e ▸ hd) hrs
    · rw [hd] at h1
      cases h1
      exact ih d₀ h0 hrs
  | @cmd q r tr env c out hrun hs ih =>
    subst hp₀
    have hi := Pica.reachable_inv ⟨tr, hrun⟩
    have old : (∃ e ∈ tr, ∃ bytes rc, e.command = .uciPacket h bytes ∧ IsCmd bytes (.coreDeviceReset rc)) →
        ∃ e ∈ tr ++ [⟨env, c, out⟩], ∃ bytes rc, e.command = .uciPacket h bytes ∧ IsCmd bytes (.coreDeviceReset rc) := by
      rintro ⟨e, he, hx⟩
      exact ⟨e, List.mem_append_left _ he, hx⟩
    cases hg : q.devices.get? h with
    | none =>
      have hst := Pica.step_dev hi hs h
      rw [hd, hg] at hst
      generalize effectsOf h out = e at hst
      cases hst with
      | connect => cases hrs
    | some d₀ =>
      rcases step_isReset hi hs h d₀ d hg hd with he | ⟨bytes, rc, rfl, hc⟩
      · exact old (ih d₀ hg (he ▸ hrs))
      · exact ⟨_, List.mem_append_right _ (List.mem_singleton.mpr rfl), bytes, rc, rfl, hc⟩

/-- A history after which a device has been reset. -/
example : ∃ tr p d, Pica.Run .new tr p ∧ p.devices.get? 0 = some d ∧ d.isReset = true := by
  obtain ⟨tr, hr⟩ := Ex.after_reachable Ex.oneActive (by decide +kernel)
  have k : ((Ex.after Ex.oneActive).devices.get? 0).map (·.isReset) = some true := by decide +kernel
  obtain ⟨d, hd, he⟩ := Option.map_eq_some_iff.mp k
  exact ⟨tr, _, d, hr, hd, he⟩

end Pica.Props
