import Verif.Proofs.Params
import Mathlib.Tactic.Linarith
/-! Configurations without extended addresses and with at most eight controlees. -/

set_option linter.dupNamespace false

namespace Pica
open Spec SessionState

/-- Short addresses only, at most eight controlees, and a key that fits a packet. -/
structure AppConfig.Tame (c : AppConfig) : Prop where
  mode : c.macAddressMode = .mode0
  mac : ∀ m, c.deviceMacAddress = some m → ∃ a, m = .short a
  dst : ∀ m ∈ c.dstMacAddress, ∃ a, m = .short a
  small : c.Small
  key : c.sessionKey.length ≤ 255

/-- The parameter keeps a configuration tame. -/
def Modest (id : AppConfigTlvType) (v : Bytes) : Prop :=
  (id.code = 0x26 → v = [0]) ∧ (id.code = 0x05 → ∀ n, v = [n] → n.toNat ≤ 8) ∧ v.length ≤ 255

namespace AppConfig

theorem tame_default : Tame AppConfig.default :=
  ⟨rfl, (by intro m h; cases h), (by intro m h; cases h), ⟨by decide, by decide⟩, by decide⟩

theorem assign_tame {α : Type} {c c' : AppConfig} {x : Option α} {f : α → AppConfig} {r : Bool}
    (h : assign c x f = .ok (c', r)) (hc : Tame c) (hf : ∀ a, x = some a → Tame (f a)) : Tame c' := by
  unfold assign at h
  split at h
  · cases h; exact hf _ rfl
  · cases h; exact hc

theorem parseMac_tame {mode : MacAddressMode} {v : Bytes} {m : MacAddress} (h0 : mode = .mode0)
    (h : parseMac mode v = .ok (some m)) : ∃ a, m = .short a := by
  subst h0
  unfold parseMac at h
  simp only [Except.ok.injEq, Option.map_eq_some_iff] at h
  obtain ⟨a, -, rfl⟩ := h
  exact ⟨a, rfl⟩

theorem mapM_mem {α β : Type} {f : α → Option β} {l : List α} {l' : List β} (h : l.mapM f = some l') :
    ∀ b ∈ l', ∃ a ∈ l, f a = some b := by
  induction l generalizing l' with
  | nil => cases h; intro b hb; cases hb
  | cons a l ih =>
    simp only [List.mapM_cons, Option.bind_eq_bind, Option.bind_eq_some_iff, Option.pure_def, Option.some.injEq] at h
    obtain ⟨b, hb, bs, hbs, rfl⟩ := h
    intro c hc
    rcases List.mem_cons.mp hc with rfl | hc
    · exact ⟨a, List.mem_cons_self .., hb⟩
    · obtain ⟨x, hx, hf⟩ := ih hbs c hc
      exact ⟨x, List.mem_cons_of_mem _ hx, hf⟩

theorem parseDst_tame {mode : MacAddressMode} {n : UInt8} {v : Bytes} {l : List MacAddress} (h0 : mode = .mode0)
    (h : parseDst mode n v = .ok (some l)) : ∀ m ∈ l, ∃ a, m = .short a := by
  subst h0
  unfold parseDst at h
  simp only [Except.ok.injEq] at h
  split at h
  · intro m hm
    obtain ⟨b, -, hb⟩ := mapM_mem h m hm
    obtain ⟨a, -, rfl⟩ := Option.map_eq_some_iff.mp hb
    exact ⟨a, rfl⟩
  · cases h

theorem set_tame {c c' : AppConfig} {id : AppConfigTlvType} {v : Bytes} {r : Bool} (h : c.set id v = .ok (c', r))
    (hc : Tame c) (hv : Modest id v) : Tame c' := by
  have hsmall := set_small h hc.small hv.2.1
  unfold AppConfig.set at h
  cases hp : Param.ofTag? id with
  | none => rw [hp] at h; cases h; exact hc
  | some p =>
    rw [hp] at h
    simp only at h
    cases p
    case deviceMacAddress =>
      unfold setParam at h
      cases hm : parseMac c.macAddressMode v with
      | error e => simp [hm, bind, Except.bind] at h
      | ok x =>
        simp only [hm, bind, Except.bind] at h
        refine assign_tame h hc fun a ha => ⟨hc.mode, ?_, hc.dst, hc.small, hc.key⟩
        intro m e
        cases e
        subst ha
        exact parseMac_tame hc.mode hm
    case dstMacAddress =>
      unfold setParam at h
      cases hm : parseDst c.macAddressMode c.numberOfControlees v with
      | error e => simp [hm, bind, Except.bind] at h
      | ok x =>
        simp only [hm, bind, Except.bind] at h
        have : x = none ∨ ∃ l, x = some l := by cases x <;> simp
        rcases this with rfl | ⟨l, rfl⟩
        · unfold assign at h; cases h; exact hc
        · unfold assign at h
          cases h
          exact ⟨hc.mode, hc.mac, parseDst_tame hc.mode hm, hsmall, hc.key⟩
    case numberOfControlees =>
      unfold setParam at h
      refine assign_tame h hc fun a ha => ⟨hc.mode, hc.mac, hc.dst, ?_, hc.key⟩
      rw [ha] at h
      unfold assign at h
      cases h
      exact hsmall
    case macAddressMode =>
      unfold setParam at h
      have ht : id.code = 0x26 := by
        have := Param.ofTag?_eq_some.mp hp
        rw [← this]; rfl
      have hv0 := hv.1 ht
      subst hv0
      refine assign_tame h hc fun a ha => ⟨?_, hc.mac, hc.dst, hc.small, hc.key⟩
      cases ha
      rfl
    case sessionKey =>
      unfold setParam at h
      refine assign_tame h hc fun a ha => ⟨hc.mode, hc.mac, hc.dst, hc.small, ?_⟩
      cases ha
      exact hv.2.2
    all_goals
      unfold setParam at h
      exact assign_tame h hc fun a _ => ⟨hc.mode, hc.mac, hc.dst, hc.small, hc.key⟩

theorem set_total {c : AppConfig} (hc : Tame c) (id : AppConfigTlvType) (v : Bytes) : ∃ x, c.set id v = .ok x := by
  cases hs : c.set id v with
  | ok x => exact ⟨x, rfl⟩
  | error e =>
    obtain ⟨-, h⟩ := (set_abort_iff c id v).mp ⟨e, hs⟩
    rw [view_mode, hc.mode] at h
    cases h

end AppConfig

theorem loop_tame {l : List AppConfigTlv} {c c' : AppConfig} {inv : List AppConfigStatus}
    (h : Device.setAppConfigLoop c l = .ok (c', inv)) (hc : c.Tame) (hv : ∀ t ∈ l, Modest t.cfgId t.v) : c'.Tame := by
  induction l generalizing c inv with
  | nil => cases h; exact hc
  | cons t l ih =>
    unfold Device.setAppConfigLoop at h
    cases hs : c.set t.cfgId t.v with
    | error e => rw [hs] at h; cases h
    | ok x =>
      obtain ⟨c₁, ok⟩ := x
      rw [hs] at h
      simp only [bind, Except.bind] at h
      cases hl : Device.setAppConfigLoop c₁ l with
      | error e => rw [hl] at h; cases h
      | ok y =>
        obtain ⟨c₂, inv₂⟩ := y
        rw [hl] at h
        cases h
        exact ih hl (AppConfig.set_tame hs hc (hv t (by simp))) (fun u hu => hv u (by simp [hu]))

theorem loop_total {l : List AppConfigTlv} {c : AppConfig} (hc : c.Tame) (hv : ∀ t ∈ l, Modest t.cfgId t.v) :
    ∃ x, Device.setAppConfigLoop c l = .ok x := by
  induction l generalizing c with
  | nil => exact ⟨_, rfl⟩
  | cons t l ih =>
    unfold Device.setAppConfigLoop
    obtain ⟨⟨c₁, ok⟩, hs⟩ := AppConfig.set_total hc t.cfgId t.v
    obtain ⟨⟨c₂, inv⟩, hl⟩ := ih (AppConfig.set_tame hs hc (hv t (by simp))) (fun u hu => hv u (by simp [hu]))
    rw [hs]
    simp only [bind, Except.bind]
    rw [hl]
    exact ⟨_, rfl⟩

theorem flat_short (l : List MacAddress) (h : ∀ m ∈ l, ∃ a, m = .short a) :
    (l.flatMap MacAddress.toBytes).length = 2 * l.length := by
  induction l with
  | nil => rfl
  | cons m l ih =>
    obtain ⟨a, rfl⟩ := h m (by simp)
    rw [List.flatMap_cons, List.length_append, ih (fun m hm => h m (by simp [hm])), List.length_cons]
    have : (MacAddress.short a).toBytes.length = 2 := a.2
    omega

/-- The values of the parameters fit a packet. -/
theorem view_fits {c : AppConfig} (hc : c.Tame) {i : UInt8} {v : Bytes} (h : View.of c i = some v) : v.length ≤ 255 := by
  unfold View.of AppConfig.get at h
  cases hp : Param.ofTag? ⟨i⟩ with
  | none => rw [hp] at h; cases h
  | some p =>
    rw [hp] at h
    simp only at h
    cases p
    case dstMacAddress =>
      cases h
      rw [flat_short _ hc.dst]
      have := hc.small.1
      omega
    case sessionKey => cases h; exact hc.key
    case deviceMacAddress =>
      obtain ⟨m, hm, rfl⟩ := Option.map_eq_some_iff.mp h
      obtain ⟨a, rfl⟩ := hc.mac m hm
      have : (MacAddress.short a).toBytes.length = 2 := a.2
      omega
    case subSessionKey =>
      unfold AppConfig.getParam at h
      simp only [Option.some.injEq] at h
      subst h
      split
      · simp
      · rename_i k _; rw [k.2]; omega
      · rename_i k _; rw [k.2]; omega
    case capSizeRange => cases h; rw [c.capSizeRange.2]; omega
    case staticStsIv => cases h; rw [c.staticStsIv.2]; omega
    case sessionTimeBase => cases h; rw [c.sessionTimeBase.2]; omega
    all_goals first
      | (cases h; simp [u16le, u32le, u64le, leBytes])
      | (obtain ⟨m, -, rfl⟩ := Option.map_eq_some_iff.mp h; simp)

end Pica
