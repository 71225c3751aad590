import Verif.Spec.AppConfig
import Verif.Props.AppConfig
import Verif.Model.Device
/-! The loop of SESSION_SET_APP_CONFIG against `Spec.Applied`. -/

namespace Pica
open Spec

/-- The parameters of a command. -/
def tlvPairs (l : List AppConfigTlv) : List (UInt8 × Bytes) := l.map fun t => (t.cfgId.code, t.v)

theorem view_mode (c : AppConfig) : (View.of c).byte 0x26 = c.macAddressMode.code := rfl
theorem view_controlees (c : AppConfig) : (View.of c).byte 0x05 = c.numberOfControlees := rfl

theorem tag_eta (t : AppConfigTlvType) : (⟨t.code⟩ : AppConfigTlvType) = t := rfl

theorem set_abort_iff (c : AppConfig) (id : AppConfigTlvType) (v : Bytes) :
    (∃ e, c.set id v = .error e) ↔ Unsupported (View.of c) id.code :=
  Props.C06_set_abort_iff c id v _ (Props.get_mode c)

theorem set_ok_iff (c : AppConfig) (id : AppConfigTlvType) (v : Bytes) :
    (∃ c', c.set id v = .ok (c', true)) ↔ ¬Unsupported (View.of c) id.code ∧ Legal (View.of c) id.code v :=
  Props.C06_set_ok_iff c id v _ _ (Props.get_mode c) (Props.get_controlees c)

theorem view_set {c c' : AppConfig} {id : AppConfigTlvType} {v : Bytes} (h : c.set id v = .ok (c', true)) :
    View.of c' = fun i => if i = id.code then some (kept id.code v) else View.of c i := by
  funext i
  by_cases hi : i = id.code
  · subst hi
    simp only [if_true]
    exact Props.C04_get_set c c' id v h
  · simp only [hi, if_false]
    refine (Props.C05_set_frame c c' id v true h).1 ⟨i⟩ ?_
    intro e; exact hi (congrArg AppConfigTlvType.code e)

/-- The loop computes the specification. -/
theorem loop_ok {l : List AppConfigTlv} {c c' : AppConfig} {inv : List AppConfigStatus}
    (h : Device.setAppConfigLoop c l = .ok (c', inv)) :
    ∃ bad, Applied (View.of c) (tlvPairs l) (View.of c') bad ∧ inv = bad.map fun i => ⟨⟨i⟩, .invalidParam⟩ := by
  induction l generalizing c c' inv with
  | nil => cases h; exact ⟨[], .nil _, rfl⟩
  | cons t l ih =>
    unfold Device.setAppConfigLoop at h
    cases hs : c.set t.cfgId t.v with
    | error e => rw [hs] at h; cases h
    | ok x =>
      obtain ⟨c₁, ok⟩ := x
      rw [hs] at h
      simp only [bind, Except.bind] at h
      cases hl : Device.setAppConfigLoop c₁ l with
      | error e => rw [hl] at h; cases h
      | ok y =>
        obtain ⟨c₂, inv₂⟩ := y
        rw [hl] at h
        cases h
        obtain ⟨bad, ha, hi⟩ := ih hl
        have hu : ¬Unsupported (View.of c) t.cfgId.code := fun hu => by
          obtain ⟨e, he⟩ := (set_abort_iff c t.cfgId t.v).mpr hu
          rw [hs] at he; cases he
        cases ok with
        | true =>
          refine ⟨bad, .good hu ((set_ok_iff c _ _).mp ⟨c₁, hs⟩).2 ?_, by simpa using hi⟩
          rw [← view_set hs]; exact ha
        | false =>
          refine ⟨t.cfgId.code :: bad, .bad hu ?_ ?_, by simp [hi]⟩
          · intro hl
            obtain ⟨c₃, h₃⟩ := (set_ok_iff c t.cfgId t.v).mpr ⟨hu, hl⟩
            rw [hs] at h₃; cases h₃
          · rw [← (Props.C05_set_frame c c₁ _ _ _ hs).2 rfl]; exact ha

theorem loop_error {l : List AppConfigTlv} {c : AppConfig} {x : Panic} (h : Device.setAppConfigLoop c l = .error x) :
    ∀ w bad, ¬Applied (View.of c) (tlvPairs l) w bad := by
  intro w bad ha
  induction l generalizing c w bad x with
  | nil => cases h
  | cons t l ih =>
    unfold Device.setAppConfigLoop at h
    have hu : ¬Unsupported (View.of c) t.cfgId.code := by cases ha <;> assumption
    cases hs : c.set t.cfgId t.v with
    | error e => exact hu ((set_abort_iff c t.cfgId t.v).mp ⟨e, hs⟩)
    | ok y =>
      obtain ⟨c₁, ok⟩ := y
      rw [hs] at h
      simp only [bind, Except.bind] at h
      cases hl : Device.setAppConfigLoop c₁ l with
      | ok z => rw [hl] at h; cases h
      | error e =>
        cases ha with
        | good _ hleg ha =>
          obtain ⟨c₃, h₃⟩ := (set_ok_iff c t.cfgId t.v).mpr ⟨hu, hleg⟩
          rw [hs] at h₃
          cases h₃
          rw [← view_set hs] at ha
          exact ih hl _ _ ha
        | bad _ hleg ha =>
          cases ok with
          | true => exact hleg ((set_ok_iff c _ _).mp ⟨c₁, hs⟩).2
          | false =>
            rw [← (Props.C05_set_frame c c₁ _ _ _ hs).2 rfl] at ha
            exact ih hl _ _ ha

/-- The outcome of a sequence of settings is unique. -/
theorem Spec.Applied.unique {w w₁ w₂ : View} {l : List (UInt8 × Bytes)} {b₁ b₂ : List UInt8}
    (h₁ : Applied w l w₁ b₁) (h₂ : Applied w l w₂ b₂) : w₁ = w₂ ∧ b₁ = b₂ := by
  induction h₁ generalizing w₂ b₂ with
  | nil => cases h₂; exact ⟨rfl, rfl⟩
  | good _ hl _ ih =>
    cases h₂ with
    | good _ _ h => exact ih h
    | bad _ hn _ => exact absurd hl hn
  | bad _ hn _ ih =>
    cases h₂ with
    | good _ hl _ => exact absurd hl hn
    | bad _ _ h =>
      obtain ⟨rfl, rfl⟩ := ih h
      exact ⟨rfl, rfl⟩

theorem Spec.Applied.bad_sub {w w' : View} {l : List (UInt8 × Bytes)} {bad : List UInt8} (h : Applied w l w' bad) :
    bad.length ≤ l.length ∧ ∀ i ∈ bad, ∃ x ∈ l, x.1 = i := by
  induction h with
  | nil => simp
  | good _ _ _ ih =>
    refine ⟨Nat.le_succ_of_le ih.1, fun i hi => ?_⟩
    obtain ⟨x, hx, e⟩ := ih.2 i hi
    exact ⟨x, List.mem_cons_of_mem _ hx, e⟩
  | bad _ _ _ ih =>
    refine ⟨Nat.succ_le_succ ih.1, fun i hi => ?_⟩
    rcases List.mem_cons.mp hi with rfl | hi
    · exact ⟨_, List.mem_cons_self, rfl⟩
    · obtain ⟨x, hx, e⟩ := ih.2 i hi
      exact ⟨x, List.mem_cons_of_mem _ hx, e⟩

theorem hasMandatory_iff (c : AppConfig) : Device.hasMandatory c = true ↔ Complete (View.of c) := by
  have h1 : View.of c 0x11 = c.deviceRole.map (fun x => [x.code]) := rfl
  have h2 : View.of c 0x03 = c.multiNodeMode.map (fun x => [x.code]) := rfl
  have h3 : View.of c 0x01 = c.rangingRoundUsage.map (fun x => [x.code]) := rfl
  have h4 : View.of c 0x06 = c.deviceMacAddress.map (fun x => x.toBytes) := rfl
  have h5 : View.of c 0x22 = c.scheduleMode.map (fun x => [x.code]) := rfl
  unfold Device.hasMandatory Complete
  simp only [List.mem_cons, List.not_mem_nil, or_false, forall_eq_or_imp, forall_eq, h1, h2, h3, h4, h5,
    Bool.and_eq_true, ne_eq, Option.map_eq_none_iff, Option.isSome_iff_ne_none, and_assoc]

end Pica
