import Verif.Proofs.AppConfig
/-!
C04–C07: the APP configuration of a session, `src/app_config.rs`.

`c.get id` and `c.set id v` are the public functions; `set` yields the configuration afterwards
and whether the result was `Ok(())`. The formats are those of `Verif/Spec/AppFormat.lean`.
-/

namespace Pica.Props
open Spec

/-- C04: a value successfully set is read back, a 4-byte UWB_INITIATION_TIME zero extended. -/
theorem C04_get_set (c c' : AppConfig) (id : AppConfigTlvType) (v : Bytes)
    (h : c.set id v = .ok (c', true)) :
    c'.get id = some (if id.code = 0x2b ∧ v.length = 4 then v ++ [0, 0, 0, 0] else v) := by
  unfold AppConfig.set at h
  unfold AppConfig.get
  cases hp : Param.ofTag? id with
  | none => simp [hp] at h
  | some p =>
    simp only [hp] at h ⊢
    rw [AppConfig.setParam_get h]
    have e : (p = .uwbInitiationTime) ↔ id.code = 0x2b := by
      rw [← Param.ofTag?_eq_some.mp hp]
      constructor
      · rintro rfl; rfl
      · intro h
        refine Param.tag_inj ?_
        show p.tag = Param.uwbInitiationTime.tag
        cases hq : p.tag with
        | mk code => rw [hq] at h; simp only at h; subst h; rfl
    simp only [e]

/-- C05: a parameter does not change when another one is set, and a failed set changes nothing. -/
theorem C05_set_frame (c c' : AppConfig) (id : AppConfigTlvType) (v : Bytes) (r : Bool)
    (h : c.set id v = .ok (c', r)) :
    (∀ id', id' ≠ id → c'.get id' = c.get id') ∧ (r = false → c' = c) := by
  unfold AppConfig.set at h
  cases hp : Param.ofTag? id with
  | none =>
    simp only [hp, Except.ok.injEq, Prod.mk.injEq] at h
    obtain ⟨rfl, rfl⟩ := h
    exact ⟨fun _ _ => rfl, fun _ => rfl⟩
  | some p =>
    simp only [hp] at h
    refine ⟨fun id' hne => ?_, ?_⟩
    · unfold AppConfig.get
      cases hp' : Param.ofTag? id' with
      | none => rfl
      | some p' =>
        refine AppConfig.setParam_frame h ?_
        rintro rfl
        exact hne ((Param.ofTag?_eq_some.mp hp').symm.trans (Param.ofTag?_eq_some.mp hp))
    · rintro rfl; exact AppConfig.setParam_false h

theorem get_mode (c : AppConfig) : c.get ⟨0x26⟩ = some [c.macAddressMode.code] := rfl
theorem get_controlees (c : AppConfig) : c.get ⟨0x05⟩ = some [c.numberOfControlees] := rfl

/-- C06: `set` succeeds exactly on supported identifiers with a legal value. The legality of MAC
addresses depends on MAC_ADDRESS_MODE (0x26) and NUMBER_OF_CONTROLEES (0x05), as read by `get`. -/
theorem C06_set_ok_iff (c : AppConfig) (id : AppConfigTlvType) (v : Bytes) (mode controlees : UInt8)
    (hm : c.get ⟨0x26⟩ = some [mode]) (hn : c.get ⟨0x05⟩ = some [controlees]) :
    (∃ c', c.set id v = .ok (c', true)) ↔
      ¬((id.code = 0x06 ∨ id.code = 0x07) ∧ mode = 1) ∧
      ∃ f, formatOf id.code = some f ∧ f.Allows mode controlees v := by
  rw [get_mode] at hm
  rw [get_controlees] at hn
  cases hm; cases hn
  unfold AppConfig.set
  cases hp : Param.ofTag? id with
  | none =>
    have := mt (AppConfig.formatOf_isSome_iff id).mp (by simp [hp])
    have : formatOf id.code = none := by simpa using this
    simp [this]
  | some p =>
    simp only
    rw [← Param.ofTag?_eq_some.mp hp]
    exact AppConfig.setParam_ok_iff c p v

/-- C06: `set` aborts exactly when a MAC address is set while MAC_ADDRESS_MODE is 1. -/
theorem C06_set_abort_iff (c : AppConfig) (id : AppConfigTlvType) (v : Bytes) (mode : UInt8)
    (hm : c.get ⟨0x26⟩ = some [mode]) :
    (∃ e, c.set id v = .error e) ↔ (id.code = 0x06 ∨ id.code = 0x07) ∧ mode = 1 := by
  rw [get_mode] at hm
  cases hm
  unfold AppConfig.set
  cases hp : Param.ofTag? id with
  | none =>
    have := mt (AppConfig.formatOf_isSome_iff id).mp (by simp [hp])
    constructor
    · rintro ⟨e, he⟩; cases he
    · rintro ⟨h | h, -⟩ <;> · rw [h] at this; exact absurd rfl this
  | some p =>
    simp only
    rw [← Param.ofTag?_eq_some.mp hp]
    exact AppConfig.setParam_error_iff c p v

/-- C06: the configuration always says which format MAC addresses have. -/
theorem C06_context (c : AppConfig) :
    ∃ mode controlees, c.get ⟨0x26⟩ = some [mode] ∧ c.get ⟨0x05⟩ = some [controlees] ∧
      (mode = 0 ∨ mode = 1 ∨ mode = 2) := by
  refine ⟨_, _, get_mode c, get_controlees c, ?_⟩
  cases c.macAddressMode <;> decide

/-- A sequence of `set` calls, with the result of each. -/
def setAll (c : AppConfig) : List (AppConfigTlvType × Bytes) → Except Panic (AppConfig × List Bool)
  | [] => .ok (c, [])
  | (id, v) :: l => do
    let (c₁, r) ← c.set id v
    let (c₂, rs) ← setAll c₁ l
    return (c₂, r :: rs)

theorem setAll_get_none (l : List (AppConfigTlvType × Bytes)) (c c' : AppConfig) (rs : List Bool)
    (h : setAll c l = .ok (c', rs)) (id : AppConfigTlvType) :
    c'.get id = none ↔ c.get id = none ∧ ∀ x ∈ l.zip rs, x.2 = true → x.1.1 ≠ id := by
  induction l generalizing c rs with
  | nil =>
    cases h; simp
  | cons a l ih =>
    obtain ⟨id₀, v⟩ := a
    simp only [setAll, bind, Except.bind] at h
    cases h₁ : c.set id₀ v with
    | error e => simp [h₁] at h
    | ok x =>
      obtain ⟨c₁, r⟩ := x
      simp only [h₁] at h
      cases h₂ : setAll c₁ l with
      | error e => simp [h₂] at h
      | ok y =>
        obtain ⟨c₂, rs'⟩ := y
        simp only [h₂, pure, Except.pure, Except.ok.injEq, Prod.mk.injEq] at h
        obtain ⟨rfl, rfl⟩ := h
        rw [ih c₁ rs' h₂]
        simp only [List.zip_cons_cons, List.mem_cons, forall_eq_or_imp]
        rw [← and_assoc]
        refine and_congr ?_ Iff.rfl
        by_cases hid : id = id₀
        · subst hid
          cases r with
          | true => simp [C04_get_set c c₁ id v h₁]
          | false => simp [(C05_set_frame c c₁ id v false h₁).2 rfl]
        · rw [(C05_set_frame c c₁ id₀ v r h₁).1 id hid]
          simp [Ne.symm hid]

/-- C07: `get` fails exactly on unsupported identifiers and on the six optional parameters, as long
as they have not been set successfully. -/
theorem C07_get_none_iff (l : List (AppConfigTlvType × Bytes)) (c : AppConfig) (rs : List Bool)
    (h : setAll AppConfig.default l = .ok (c, rs)) (id : AppConfigTlvType) :
    c.get id = none ↔ formatOf id.code = none ∨
      id.code ∈ optionalIds ∧ ∀ x ∈ l.zip rs, x.2 = true → x.1.1 ≠ id := by
  rw [setAll_get_none l _ c rs h id]
  have hs := AppConfig.formatOf_isSome_iff id
  unfold AppConfig.get
  cases hp : Param.ofTag? id with
  | none =>
    have hn : formatOf id.code = none := by
      cases hf : formatOf id.code with
      | none => rfl
      | some f => simp [hf, hp] at hs
    simp only [hn, true_and, true_or, iff_true]
    -- an unsupported identifier is never set successfully
    intro x hx hr hid
    subst hid
    have : ∀ (l : List (AppConfigTlvType × Bytes)) (c c' : AppConfig) (rs : List Bool),
        setAll c l = .ok (c', rs) → x ∈ l.zip rs → False := by
      intro l
      induction l with
      | nil => intro c c' rs _ hx; simp at hx
      | cons a l ih =>
        intro c c' rs h hx
        obtain ⟨id₀, v⟩ := a
        simp only [setAll, bind, Except.bind] at h
        cases h₁ : c.set id₀ v with
        | error e => simp [h₁] at h
        | ok y =>
          obtain ⟨c₁, r⟩ := y
          simp only [h₁] at h
          cases h₂ : setAll c₁ l with
          | error e => simp [h₂] at h
          | ok z =>
            obtain ⟨c₂, rs'⟩ := z
            simp only [h₂, pure, Except.pure, Except.ok.injEq, Prod.mk.injEq] at h
            obtain ⟨-, rfl⟩ := h
            rcases List.mem_cons.mp hx with rfl | hx
            · simp only at hp hr
              unfold AppConfig.set at h₁
              simp [hp, hr] at h₁
            · exact ih c₁ c₂ rs' h₂ hx
    exact this l _ _ rs h hx
  | some p =>
    have hn : formatOf id.code ≠ none := by
      intro hf; simp [hf, hp] at hs
    simp only [hn, false_or]
    refine and_congr ?_ Iff.rfl
    have ht := Param.ofTag?_eq_some.mp hp
    constructor
    · intro h; rw [← ht]; exact AppConfig.getParam_none h
    · intro h; rw [← ht] at h; exact AppConfig.getParam_default_optional h

/-! Concrete cases meeting the hypotheses. -/

/-- Two controlees, then their addresses. -/
example : ((setAll AppConfig.default
      [(⟨0x05⟩, [2]), (⟨0x07⟩, [1, 2, 3, 4]), (⟨0x04⟩, [7]), (⟨0x2b⟩, [1, 2, 3, 4])]).toOption.map
      fun (c, rs) => (rs, [c.get ⟨0x07⟩, c.get ⟨0x04⟩, c.get ⟨0x2b⟩, c.get ⟨0x00⟩, c.get ⟨0xa0⟩])) =
    some ([true, true, false, true],
      [some [1, 2, 3, 4], some [9], some [1, 2, 3, 4, 0, 0, 0, 0], none, none]) := by
  decide +kernel

/-- MAC_ADDRESS_MODE 1 followed by a MAC address aborts. -/
example : setAll AppConfig.default [(⟨0x26⟩, [1]), (⟨0x06⟩, [1, 2])] = .error .macMode1 := by rfl

example : ∃ f, formatOf 0x07 = some f ∧ f.Allows 0 2 [1, 2, 3, 4] := ⟨.macs, rfl, by unfold Format.Allows; decide⟩

end Pica.Props
