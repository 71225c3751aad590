import Verif.Proofs.Delivery
import Verif.Proofs.Dispatch
import Verif.Spec.PyShow
import Verif.Spec.PyUci
/-!
The statuses that the emulator sends have names.
-/

namespace Pica.PyShow
open Spec

/-- The status is one of the list. -/
def Known (s : Status) : Prop := NamedStatus s.code.toNat

instance : DecidablePred Known := fun s => by unfold Known; infer_instance

theorem setConfig_known (c : DeviceConfig) (l : List ConfigParameter) : ∀ x ∈ (Device.setConfigLoop c l).2, Known x.status := by
  induction l generalizing c with
  | nil => intro x hx; cases hx
  | cons p l ih =>
    intro x hx
    unfold Device.setConfigLoop at hx
    rcases List.mem_append.mp hx with hx | hx
    · unfold Device.setConfigParam at hx
      split at hx
      · cases List.mem_singleton.mp hx; exact (by decide : Known .readOnly)
      · split at hx
        · cases hx
        · cases List.mem_singleton.mp hx; exact (by decide : Known .invalidParam)
    · exact ih _ x hx

theorem setAppConfig_known {c : AppConfig} {l : List AppConfigTlv} {z : AppConfig × List AppConfigStatus}
    (h : Device.setAppConfigLoop c l = .ok z) : ∀ x ∈ z.2, Known x.status := by
  induction l generalizing c z with
  | nil => cases h; simp
  | cons t l ih =>
    simp only [Device.setAppConfigLoop, bind, Except.bind] at h
    split at h
    · cases h
    · split at h
      · cases h
      · rename_i y hy
        cases h
        dsimp only
        split
        · exact ih hy
        · exact List.forall_mem_cons.mpr ⟨(by decide : Known .invalidParam), ih hy⟩

/-- The statuses of a response have names. -/
theorem exec_known {d d' : Device} {tid : Nat} {c : Cmd} {r : Rsp} {e : List Effect} (h : d.exec tid c = .ok (d', r, e))
    (hm : ¬ IsMulticastRsp r) : AllNamed (pyRsp r) ↔ NamedIds r := by
  have hk : ∀ s : Status, Known s → (NamedStatus s.code.toNat ↔ True) := fun s h => iff_true_intro h
  cases c with
  | coreDeviceReset rc => cases h; exact iff_true_intro (by decide : Known .ok)
  | coreGetDeviceInfo =>
    change d.coreGetDeviceInfo = _ at h
    unfold Device.coreGetDeviceInfo at h
    split at h <;> cases h
    exact iff_true_intro (by decide : Known .ok)
  | coreGetCapsInfo =>
    cases h
    simp only [pyRsp, AllNamed, NamedIds, List.forall_mem_map]
    exact ⟨fun h => h.2, fun h => ⟨(by decide : Known .ok), h⟩⟩
  | coreSetConfig ps =>
    change d.coreSetConfig ps = _ at h
    unfold Device.coreSetConfig at h
    split at h <;> cases h
    have h1 : Known (if (Device.setConfigLoop d.config ps).2.isEmpty then Status.ok else .invalidParam) := by
      split <;> decide
    have h2 := setConfig_known d.config ps
    simp only [pyRsp, AllNamed, NamedIds, List.forall_mem_map]
    exact ⟨fun h x hx => (h.2 x hx).1, fun h => ⟨h1, fun x hx => ⟨h x hx, h2 x hx⟩⟩⟩
  | coreGetConfig ids =>
    change Except.ok (d.coreGetConfig ids) = _ at h
    unfold Device.coreGetConfig at h
    dsimp only at h
    split at h <;> cases h <;> simp only [pyRsp, AllNamed, NamedIds, List.forall_mem_map]
    · exact ⟨fun h => h.2, fun h => ⟨(by decide : Known .ok), h⟩⟩
    · exact ⟨fun h => h.2, fun h => ⟨(by decide : Known .invalidParam), h⟩⟩
  | sessionInit x ty =>
    change Except.ok (d.sessionInit x ty) = _ at h
    unfold Device.sessionInit at h
    split at h
    · cases h; exact iff_true_intro (by decide : Known .errorMaxSessionsExceeded)
    · split at h
      · cases h; exact iff_true_intro (by decide : Known .errorSessionDuplicate)
      · injection h with h
        injection h with _ h
        injection h with h _
        subst h
        exact iff_true_intro (by decide : Known .ok)
  | sessionDeinit x =>
    change d.sessionDeinit x = _ at h
    unfold Device.sessionDeinit at h
    split at h
    · split at h
      · cases hr : d.releaseActive with
        | error z => rw [hr] at h; cases h
        | ok z => rw [hr] at h; cases h; exact iff_true_intro (by decide : Known .ok)
      · cases h; exact iff_true_intro (by decide : Known .ok)
    · cases h; exact iff_true_intro (by decide : Known .errorSessionNotExist)
  | sessionGetCount => cases h; exact iff_true_intro (by decide : Known .ok)
  | sessionSetAppConfig x tlvs =>
    change d.sessionSetAppConfig x tlvs = _ at h
    unfold Device.sessionSetAppConfig at h
    have key : ∀ (s : Status) (l : List AppConfigStatus), Known s → (∀ y ∈ l, Known y.status) →
        (AllNamed (pyRsp (.sessionSetAppConfig s l)) ↔ NamedIds (.sessionSetAppConfig s l)) := by
      intro s l h1 h2
      simp only [pyRsp, AllNamed, NamedIds, List.forall_mem_map]
      exact ⟨fun h x hx => (h.2 x hx).1, fun h => ⟨h1, fun x hx => ⟨h x hx, h2 x hx⟩⟩⟩
    split at h
    · cases h; exact key _ _ (by decide) (by simp)
    · split at h
      · cases h
      · split at h
        · cases h; exact key _ _ (by decide) (by simp)
        · split at h
          · cases h; exact key _ _ (by decide) (by simp)
          · rename_i s _ _ _ _
            cases hl : Device.setAppConfigLoop s.appConfig tlvs with
            | error z => rw [hl] at h; cases h
            | ok z =>
              have hz := setAppConfig_known hl
              rw [hl] at h
              simp only [bind, Except.bind] at h
              split at h
              · cases h; exact key _ _ (by decide) (by simp)
              · split at h <;>
                · injection h with h
                  injection h with _ h
                  injection h with h _
                  subst h
                  exact key _ _ (by decide) hz
  | sessionGetAppConfig x ids =>
    change Except.ok (d.sessionGetAppConfig x ids) = _ at h
    unfold Device.sessionGetAppConfig at h
    have key : ∀ (s : Status) (l : List AppConfigTlv), Known s →
        (AllNamed (pyRsp (.sessionGetAppConfig s l)) ↔ NamedIds (.sessionGetAppConfig s l)) := by
      intro s l h1
      simp only [pyRsp, AllNamed, NamedIds, List.forall_mem_map]
      exact ⟨fun h => h.2, fun h => ⟨h1, h⟩⟩
    split at h
    · cases h; exact key _ _ (by decide)
    · dsimp only at h
      split at h <;> cases h <;> exact key _ _ (by decide)
  | sessionGetState x =>
    change Except.ok (d.sessionGetState x) = _ at h
    unfold Device.sessionGetState at h
    split at h <;> cases h
    · exact iff_true_intro (by decide : Known .errorSessionNotExist)
    · exact iff_true_intro (by decide : Known .ok)
  | sessionUpdateMulticast x a pl =>
    have hc := exec_code h
    cases r <;> first | exact absurd trivial hm | simp [rspCode, cmdCode] at hc
  | sessionStart x =>
    change d.sessionStart tid x = _ at h
    unfold Device.sessionStart at h
    split at h
    · cases h; exact iff_true_intro (by decide : Known .errorSessionNotExist)
    · split at h
      · cases h; exact iff_true_intro (by decide : Known .errorSessionNotConfigured)
      · split at h
        · cases h
        · cases h; exact iff_true_intro (by decide : Known .ok)
  | sessionStop x =>
    change d.sessionStop x = _ at h
    unfold Device.sessionStop at h
    split at h
    · cases h; exact iff_true_intro (by decide : Known .errorSessionNotExist)
    · split at h
      · cases h; exact iff_true_intro (by decide : Known .errorSessionActive)
      · rename_i s _ _
        cases hr : (d.putSession x ((s.stopRangingTask.1).setState .sessionStateIdle
            .stateChangeWithSessionManagementCommands).1).releaseActive with
        | error z => simp only [hr] at h; cases h
        | ok z =>
          simp only [hr] at h
          cases h
          exact iff_true_intro (by decide : Known .ok)
  | sessionGetRangingCount x =>
    change Except.ok (d.sessionGetRangingCount x) = _ at h
    unfold Device.sessionGetRangingCount at h
    split at h <;> cases h
    · exact iff_true_intro (by decide : Known .errorSessionNotExist)
    · exact iff_true_intro (by decide : Known .ok)
  | androidGetPowerStats => cases h; exact iff_true_intro (by decide : Known .ok)
  | androidSetCountryCode cc => cases h; exact iff_true_intro (by decide : Known .ok)

end Pica.PyShow
