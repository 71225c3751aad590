import Verif.Model.AppConfig
import Verif.Spec.AppFormat
import Verif.Proofs.Bytes
import Verif.Proofs.Enums

namespace Pica

theorem Param.mem_all (p : Param) : p ∈ Param.all := by cases p <;> decide

theorem Param.tag_inj {p q : Param} (h : p.tag = q.tag) : p = q := by
  have : ∀ p ∈ Param.all, ∀ q ∈ Param.all, p.tag = q.tag → p = q := by decide +kernel
  exact this p p.mem_all q q.mem_all h

theorem Param.ofTag?_tag (p : Param) : Param.ofTag? p.tag = some p := by
  have : ∀ p ∈ Param.all, Param.ofTag? p.tag = some p := by decide +kernel
  exact this p p.mem_all

theorem Param.ofTag?_eq_some {id : AppConfigTlvType} {p : Param} :
    Param.ofTag? id = some p ↔ p.tag = id := by
  constructor
  · intro h
    have := List.find?_some h
    simpa using this
  · intro h; rw [← h]; exact p.ofTag?_tag

namespace AppConfig

theorem parseU8_eq_some {v : Bytes} {x : UInt8} : parseU8 v = some x ↔ v = [x] := by
  unfold parseU8
  split
  · simp only [Option.some.injEq, List.cons.injEq, and_true]
  · rename_i h
    simp only [reduceCtorEq, false_iff]
    rintro rfl
    exact h x rfl

theorem parseEnum_eq_some {E : Type} [WireEnum E] [LawfulWireEnum E] {v : Bytes} {x : E} :
    parseEnum E v = some x ↔ v = [WireEnum.toU8 x] := by
  unfold parseEnum
  simp only [Option.bind_eq_some_iff, parseU8_eq_some, WireEnum.ofU8?_eq_some]
  constructor
  · rintro ⟨b, rfl, rfl⟩; rfl
  · rintro rfl; exact ⟨_, rfl, rfl⟩

theorem parseU16_eq_some {v : Bytes} {x : UInt16} : parseU16 v = some x ↔ v = u16le x := by
  unfold parseU16
  constructor
  · intro h
    split at h
    · rename_i hl
      simp only [Option.some.injEq] at h
      rw [← h, u16le_ofLe hl]
    · cases h
  · rintro rfl; simp

theorem parseU32_eq_some {v : Bytes} {x : UInt32} : parseU32 v = some x ↔ v = u32le x := by
  unfold parseU32
  constructor
  · intro h
    split at h
    · rename_i hl
      simp only [Option.some.injEq] at h
      rw [← h, u32le_ofLe hl]
    · cases h
  · rintro rfl; simp

theorem parseU64_eq_some {v : Bytes} {x : UInt64} : parseU64 v = some x ↔ v = u64le x := by
  unfold parseU64
  constructor
  · intro h
    split at h
    · rename_i hl
      simp only [Option.some.injEq] at h
      rw [← h, u64le_ofLe hl]
    · cases h
  · rintro rfl; simp

theorem isSome_parseU8 (v : Bytes) : (parseU8 v).isSome ↔ v.length = 1 := by
  unfold parseU8
  split
  · simp
  · rename_i h
    simp only [Option.isSome_none, Bool.false_eq_true, false_iff]
    intro hl
    match v, hl with
    | [x], _ => exact h x rfl
theorem isSome_parseU16 (v : Bytes) : (parseU16 v).isSome ↔ v.length = 2 := by
  unfold parseU16; split <;> simp_all
theorem isSome_parseU32 (v : Bytes) : (parseU32 v).isSome ↔ v.length = 4 := by
  unfold parseU32; split <;> simp_all
theorem isSome_parseU64 (v : Bytes) : (parseU64 v).isSome ↔ v.length = 8 := by
  unfold parseU64; split <;> simp_all

/-- An enumerated value is accepted exactly when it is one byte holding a code of the enumeration. -/
theorem isSome_parseEnum (E : Type) [WireEnum E] [LawfulWireEnum E] (v : Bytes) :
    (parseEnum E v).isSome ↔ ∃ b ∈ (WireEnum.all (E := E)).map WireEnum.toU8, v = [b] := by
  rw [Option.isSome_iff_exists]
  simp only [parseEnum_eq_some, List.mem_map]
  constructor
  · rintro ⟨x, rfl⟩; exact ⟨_, ⟨x, LawfulWireEnum.complete x, rfl⟩, rfl⟩
  · rintro ⟨b, ⟨x, _, rfl⟩, rfl⟩; exact ⟨x, rfl⟩

theorem parseAoaBound_eq_some {v : Bytes} {x : UInt16 × UInt16 × UInt16 × UInt16} :
    parseAoaBound v = some x ↔ v = u16le x.1 ++ u16le x.2.1 ++ u16le x.2.2.1 ++ u16le x.2.2.2 := by
  constructor
  · intro h
    unfold parseAoaBound at h
    split at h
    · rename_i a b c d e f g i
      simp only [Option.some.injEq] at h
      subst h
      have e1 := u16le_ofLe (l := [a, b]) rfl
      have e2 := u16le_ofLe (l := [c, d]) rfl
      have e3 := u16le_ofLe (l := [e, f]) rfl
      have e4 := u16le_ofLe (l := [g, i]) rfl
      dsimp only
      rw [e1, e2, e3, e4]; rfl
    · cases h
  · rintro rfl
    obtain ⟨p, q, r, s⟩ := x
    have key : ∀ y : UInt16, ∃ a b, u16le y = [a, b] ∧ UInt16.ofNat (ofLe [a, b]) = y := by
      intro y
      have hl := length_u16le y
      match hy : u16le y, hl with
      | [a, b], _ => exact ⟨a, b, rfl, by rw [← hy]; simp⟩
    obtain ⟨a, b, h1, h1'⟩ := key p
    obtain ⟨c, d, h2, h2'⟩ := key q
    obtain ⟨e, f, h3, h3'⟩ := key r
    obtain ⟨g, i, h4, h4'⟩ := key s
    simp only [h1, h2, h3, h4, List.cons_append, List.nil_append, parseAoaBound, h1', h2', h3', h4']

theorem isSome_parseAoaBound (v : Bytes) : (parseAoaBound v).isSome ↔ v.length = 8 := by
  constructor
  · intro h
    obtain ⟨x, hx⟩ := Option.isSome_iff_exists.mp h
    rw [parseAoaBound_eq_some.mp hx]; simp
  · intro h
    match v, h with
    | [a, b, c, d, e, f, g, i], _ => rfl

theorem isSome_parseInitiationTime (v : Bytes) :
    (parseInitiationTime v).isSome ↔ v.length = 4 ∨ v.length = 8 := by
  unfold parseInitiationTime
  split
  · rename_i h; simp [isSome_parseU32, h]
  · rename_i h; simp [isSome_parseU64, h]

theorem isSome_parseSubSessionKey (v : Bytes) :
    (parseSubSessionKey v).isSome ↔ v.length = 16 ∨ v.length = 32 := by
  unfold parseSubSessionKey
  split
  · rename_i h
    simp only [h, Option.isSome_map, Arr.ofBytes?_isSome]; simp
  · split
    · rename_i h h'
      simp only [h', Option.isSome_map, Arr.ofBytes?_isSome]; simp
    · rename_i h h'; simp [h, h']

/-! #### Chunks -/

theorem chunks_flatten {n : Nat} (hn : 0 < n) (v : Bytes) : (chunks n v).flatten = v := by
  induction v using chunks.induct n with
  | case1 v h =>
    rcases h with h | h
    · omega
    · subst h; unfold chunks; simp
  | case2 v h ih =>
    unfold chunks
    rw [if_neg h, List.flatten_cons, ih, List.take_append_drop]

theorem chunks_length {n : Nat} (k : Nat) (v : Bytes) (hv : v.length = k * n) :
    ∀ m ∈ chunks n v, m.length = n := by
  induction k generalizing v with
  | zero =>
    have : v = [] := List.length_eq_zero_iff.mp (by simpa using hv)
    subst this; unfold chunks; simp
  | succ k ih =>
    unfold chunks
    split
    · simp
    · intro m hm
      have hv' : v.length = k * n + n := by rw [hv, Nat.add_mul, Nat.one_mul]
      rcases List.mem_cons.mp hm with rfl | hm
      · simp only [List.length_take]; omega
      · exact ih (v.drop n) (by simp only [List.length_drop]; omega) m hm

theorem mapM_ofBytes? {n : Nat} (f : Arr n → MacAddress) (hf : ∀ a, (f a).toBytes = a.1)
    {ls : List Bytes} {ms : List MacAddress}
    (h : ls.mapM (fun m => (Arr.ofBytes? n m).map f) = some ms) : ms.flatMap MacAddress.toBytes = ls.flatten := by
  induction ls generalizing ms with
  | nil => simp at h; subst h; rfl
  | cons l ls ih =>
    simp only [List.mapM_cons, Option.bind_eq_bind, Option.bind_eq_some_iff, Option.map_eq_some_iff,
      Option.pure_def, Option.some.injEq] at h
    obtain ⟨x, ⟨a, ha, rfl⟩, ms', hms, rfl⟩ := h
    rw [List.flatMap_cons, List.flatten_cons, ih hms, hf, Arr.ofBytes?_eq_some.mp ha]

theorem mapM_ofBytes?_isSome {n : Nat} (f : Arr n → MacAddress) {ls : List Bytes} (hl : ∀ l ∈ ls, l.length = n) :
    (ls.mapM (fun m => (Arr.ofBytes? n m).map f)).isSome := by
  induction ls with
  | nil => rfl
  | cons l ls ih =>
    have h1 := Arr.ofBytes?_isSome.mpr (hl l (by simp))
    obtain ⟨a, ha⟩ := Option.isSome_iff_exists.mp h1
    obtain ⟨b, hb⟩ := Option.isSome_iff_exists.mp (ih (fun m hm => hl m (by simp [hm])))
    simp [List.mapM_cons, ha, hb]

end AppConfig
end Pica

namespace Pica.AppConfig
open Spec

theorem assign_ok {α : Type} {c : AppConfig} {x : Option α} {f : α → AppConfig} :
    (∃ c', assign c x f = .ok (c', true)) ↔ x.isSome := by
  unfold assign; cases x <;> simp

theorem assign_true {α : Type} {c c' : AppConfig} {x : Option α} {f : α → AppConfig}
    (h : assign c x f = .ok (c', true)) : ∃ y, x = some y ∧ c' = f y := by
  unfold assign at h
  cases x with
  | none => simp at h
  | some y => simp at h; exact ⟨y, rfl, h.symm⟩

theorem assign_false {α : Type} {c c' : AppConfig} {x : Option α} {f : α → AppConfig}
    (h : assign c x f = .ok (c', false)) : c' = c := by
  unfold assign at h
  cases x with
  | none => simp at h; exact h.symm
  | some y => simp at h

theorem assign_ne_error {α : Type} {c : AppConfig} {x : Option α} {f : α → AppConfig} {e : Panic} :
    assign c x f ≠ .error e := by
  unfold assign; cases x <;> simp

theorem isSome_iff_allows {P : Prop} {m n id : UInt8} {v : Bytes} (f : Format)
    (hf : formatOf id = some f) (h6 : id ≠ 6) (h7 : id ≠ 7) (hp : P ↔ f.Allows m n v) :
    P ↔ ¬((id = 6 ∨ id = 7) ∧ m = 1) ∧ ∃ f, formatOf id = some f ∧ f.Allows m n v := by
  rw [hf, hp]; simp [h6, h7]

theorem macMode_code_eq_one (x : MacAddressMode) : x.code = 1 ↔ x = .mode1 := by cases x <;> decide

theorem isSome_ofBytes?_iff (n : Nat) (v : Bytes) : (Arr.ofBytes? n v).isSome ↔ v.length ∈ [n] := by
  rw [Arr.ofBytes?_isSome]; simp

/-- One case per parameter: acceptance of a value, `src/app_config.rs` 188-340. -/
theorem setParam_ok_iff (c : AppConfig) (p : Param) (v : Bytes) :
    (∃ c', setParam c p v = .ok (c', true)) ↔
      ¬((p.tag.code = 6 ∨ p.tag.code = 7) ∧ c.macAddressMode.code = 1) ∧
      ∃ f, formatOf p.tag.code = some f ∧ f.Allows c.macAddressMode.code c.numberOfControlees v := by
  have one : ∀ n : Nat, v.length ∈ [n] ↔ v.length = n := fun n => by simp
  have two : ∀ n m : Nat, v.length ∈ [n, m] ↔ v.length = n ∨ v.length = m := fun n m => by simp
  cases p
  case deviceMacAddress =>
    cases hm : c.macAddressMode with
    | mode1 => simp [setParam, hm, parseMac, Param.tag, AppConfigTlvType.deviceMacAddress, MacAddressMode.code,
        bind, Except.bind]
    | mode0 =>
      simp only [setParam, hm, parseMac, bind, Except.bind]
      rw [assign_ok, Option.isSome_map, Arr.ofBytes?_isSome]
      constructor
      · intro h; exact ⟨by decide, .mac, rfl, h⟩
      · rintro ⟨-, f, hf, h⟩; cases hf; exact h
    | mode2 =>
      simp only [setParam, hm, parseMac, bind, Except.bind]
      rw [assign_ok, Option.isSome_map, Arr.ofBytes?_isSome]
      constructor
      · intro h; exact ⟨by decide, .mac, rfl, h⟩
      · rintro ⟨-, f, hf, h⟩; cases hf; exact h
  case dstMacAddress =>
    cases hm : c.macAddressMode with
    | mode1 => simp [setParam, hm, parseDst, Param.tag, AppConfigTlvType.dstMacAddress, MacAddressMode.code,
        bind, Except.bind]
    | mode0 =>
      simp only [setParam, hm, parseDst, bind, Except.bind]
      rw [assign_ok]
      constructor
      · intro h
        split at h
        · rename_i hl; exact ⟨by decide, .macs, rfl, hl⟩
        · simp at h
      · rintro ⟨-, f, hf, h⟩; cases hf
        have hl : v.length = c.numberOfControlees.toNat * 2 := h
        rw [if_pos hl]
        exact mapM_ofBytes?_isSome _ (chunks_length _ v hl)
    | mode2 =>
      simp only [setParam, hm, parseDst, bind, Except.bind]
      rw [assign_ok]
      constructor
      · intro h
        split at h
        · rename_i hl; exact ⟨by decide, .macs, rfl, hl⟩
        · simp at h
      · rintro ⟨-, f, hf, h⟩; cases hf
        have hl : v.length = c.numberOfControlees.toNat * 8 := h
        rw [if_pos hl]
        exact mapM_ofBytes?_isSome _ (chunks_length _ v hl)
  all_goals
    unfold setParam
    refine assign_ok.trans ?_
    refine isSome_iff_allows _ rfl (by decide) (by decide) ?_
    first
      | exact isSome_parseEnum _ v
      | exact (isSome_parseU8 v).trans (one 1).symm
      | exact (isSome_parseU16 v).trans (one 2).symm
      | exact (isSome_parseU32 v).trans (one 4).symm
      | exact (isSome_parseU64 v).trans (one 8).symm
      | exact (isSome_parseAoaBound v).trans (one 8).symm
      | exact isSome_ofBytes?_iff _ v
      | exact (isSome_parseInitiationTime v).trans (two 4 8).symm
      | exact (isSome_parseSubSessionKey v).trans (two 16 32).symm
      | exact ⟨fun _ => trivial, fun _ => rfl⟩

theorem setParam_error_iff (c : AppConfig) (p : Param) (v : Bytes) :
    (∃ e, setParam c p v = .error e) ↔
      (p.tag.code = 6 ∨ p.tag.code = 7) ∧ c.macAddressMode.code = 1 := by
  cases p
  case deviceMacAddress =>
    cases hm : c.macAddressMode <;>
      simp [setParam, parseMac, hm, Param.tag, AppConfigTlvType.deviceMacAddress, MacAddressMode.code,
        bind, Except.bind, assign_ne_error]
  case dstMacAddress =>
    cases hm : c.macAddressMode <;>
      simp [setParam, parseDst, hm, Param.tag, AppConfigTlvType.dstMacAddress, MacAddressMode.code,
        bind, Except.bind, assign_ne_error]
  all_goals
    constructor
    · rintro ⟨e, he⟩
      unfold setParam at he
      exact absurd he assign_ne_error
    · rintro ⟨h, -⟩; exact absurd h (by decide)

theorem setParam_false {c c' : AppConfig} {p : Param} {v : Bytes}
    (h : setParam c p v = .ok (c', false)) : c' = c := by
  cases p
  case deviceMacAddress =>
    unfold setParam at h
    cases hm : parseMac c.macAddressMode v with
    | error e => simp [hm, bind, Except.bind] at h
    | ok x => simp only [hm, bind, Except.bind] at h; exact assign_false h
  case dstMacAddress =>
    unfold setParam at h
    cases hm : parseDst c.macAddressMode c.numberOfControlees v with
    | error e => simp [hm, bind, Except.bind] at h
    | ok x => simp only [hm, bind, Except.bind] at h; exact assign_false h
  all_goals
    unfold setParam at h
    exact assign_false h

theorem setParam_frame {c c' : AppConfig} {p p' : Param} {v : Bytes} {r : Bool}
    (h : setParam c p v = .ok (c', r)) (hne : p' ≠ p) : getParam c' p' = getParam c p' := by
  cases r with
  | false => rw [setParam_false h]
  | true =>
    cases p
    case deviceMacAddress =>
      unfold setParam at h
      cases hm : parseMac c.macAddressMode v with
      | error e => simp [hm, bind, Except.bind] at h
      | ok x =>
        simp only [hm, bind, Except.bind] at h
        obtain ⟨y, -, rfl⟩ := assign_true h
        cases p' <;> first | rfl | exact absurd rfl hne
    case dstMacAddress =>
      unfold setParam at h
      cases hm : parseDst c.macAddressMode c.numberOfControlees v with
      | error e => simp [hm, bind, Except.bind] at h
      | ok x =>
        simp only [hm, bind, Except.bind] at h
        obtain ⟨y, -, rfl⟩ := assign_true h
        cases p' <;> first | rfl | exact absurd rfl hne
    all_goals
      unfold setParam at h
      obtain ⟨y, -, rfl⟩ := assign_true h
      cases p' <;> first | rfl | exact absurd rfl hne

theorem u64le_of_u32 (v : Bytes) (hv : v.length = 4) :
    u64le (UInt32.ofNat (ofLe v)).toUInt64 = v ++ [0, 0, 0, 0] := by
  have hlt := ofLe_lt v
  rw [hv] at hlt
  match v, hv with
  | [a, b, c, d], _ =>
    have h1 : (UInt32.ofNat (ofLe [a, b, c, d])).toUInt64.toNat = ofLe [a, b, c, d, 0, 0, 0, 0] := by
      rw [UInt32.toNat_toUInt64, UInt32.toNat_ofNat_of_lt' (by simpa using hlt)]
      simp [ofLe]
    unfold u64le
    rw [h1]
    exact leBytes_ofLe [a, b, c, d, 0, 0, 0, 0]

theorem setParam_get {c c' : AppConfig} {p : Param} {v : Bytes}
    (h : setParam c p v = .ok (c', true)) :
    getParam c' p = some (if p = .uwbInitiationTime ∧ v.length = 4 then v ++ [0, 0, 0, 0] else v) := by
  cases p
  case deviceMacAddress =>
    unfold setParam at h
    cases hm : c.macAddressMode with
    | mode1 => simp [hm, parseMac, bind, Except.bind] at h
    | mode0 =>
      simp only [hm, parseMac, bind, Except.bind] at h
      obtain ⟨y, hy, rfl⟩ := assign_true h
      obtain ⟨a, ha, rfl⟩ := Option.map_eq_some_iff.mp hy
      rw [if_neg (by simp), ← Arr.ofBytes?_eq_some.mp ha]; rfl
    | mode2 =>
      simp only [hm, parseMac, bind, Except.bind] at h
      obtain ⟨y, hy, rfl⟩ := assign_true h
      obtain ⟨a, ha, rfl⟩ := Option.map_eq_some_iff.mp hy
      rw [if_neg (by simp), ← Arr.ofBytes?_eq_some.mp ha]; rfl
  case dstMacAddress =>
    unfold setParam at h
    cases hm : c.macAddressMode with
    | mode1 => simp [hm, parseDst, bind, Except.bind] at h
    | mode0 =>
      simp only [hm, parseDst, bind, Except.bind] at h
      obtain ⟨y, hy, rfl⟩ := assign_true h
      split at hy
      · have := mapM_ofBytes? _ (fun _ => rfl) hy
        rw [chunks_flatten (by decide)] at this
        rw [if_neg (by simp), ← this]; rfl
      · cases hy
    | mode2 =>
      simp only [hm, parseDst, bind, Except.bind] at h
      obtain ⟨y, hy, rfl⟩ := assign_true h
      split at hy
      · have := mapM_ofBytes? _ (fun _ => rfl) hy
        rw [chunks_flatten (by decide)] at this
        rw [if_neg (by simp), ← this]; rfl
      · cases hy
  case uwbInitiationTime =>
    obtain ⟨y, hy, rfl⟩ := assign_true h
    show some (u64le y) = _
    unfold parseInitiationTime at hy
    split at hy
    · rename_i hl
      obtain ⟨x, hx, rfl⟩ := Option.map_eq_some_iff.mp hy
      rw [if_pos ⟨rfl, hl⟩]
      simp only [parseU32, hl, if_true, Option.some.injEq] at hx
      rw [← hx, u64le_of_u32 v hl]
    · rename_i hl
      rw [if_neg (fun h => hl h.2), parseU64_eq_some.mp hy]
  case aoaBoundConfig =>
    obtain ⟨y, hy, rfl⟩ := assign_true h
    rw [if_neg (by simp), parseAoaBound_eq_some.mp hy]; rfl
  case subSessionKey =>
    obtain ⟨y, hy, rfl⟩ := assign_true h
    rw [if_neg (by simp)]
    unfold parseSubSessionKey at hy
    split at hy
    · obtain ⟨a, ha, rfl⟩ := Option.map_eq_some_iff.mp hy
      rw [← Arr.ofBytes?_eq_some.mp ha]; rfl
    · split at hy
      · obtain ⟨a, ha, rfl⟩ := Option.map_eq_some_iff.mp hy
        rw [← Arr.ofBytes?_eq_some.mp ha]; rfl
      · cases hy
  case sessionKey =>
    unfold setParam at h
    obtain ⟨y, hy, rfl⟩ := assign_true h
    cases hy
    rw [if_neg (by simp)]; rfl
  all_goals
    obtain ⟨y, hy, rfl⟩ := assign_true h
    rw [if_neg (fun h => Param.noConfusion h.1)]
    first
      | rw [parseEnum_eq_some.mp hy]; rfl
      | rw [parseU8_eq_some.mp hy]; rfl
      | rw [parseU16_eq_some.mp hy]; rfl
      | rw [parseU32_eq_some.mp hy]; rfl
      | rw [← Arr.ofBytes?_eq_some.mp hy]; rfl

theorem getParam_none {c : AppConfig} {p : Param} (h : getParam c p = none) :
    p.tag.code ∈ optionalIds := by
  cases p <;> first | decide | (exfalso; simp [getParam] at h)

theorem getParam_default_optional {p : Param} (h : p.tag.code ∈ optionalIds) :
    getParam default p = none := by
  cases p <;> first | rfl | (exfalso; revert h; decide)

theorem formatOf_isSome_iff (id : AppConfigTlvType) :
    (formatOf id.code).isSome ↔ (Param.ofTag? id).isSome := by
  have : ∀ b : UInt8, (formatOf b).isSome ↔ (Param.ofTag? ⟨b⟩).isSome := by
    intro b
    have h := (by decide +kernel : ∀ b : Fin 256,
      (formatOf (UInt8.ofFin b)).isSome ↔ (Param.ofTag? ⟨UInt8.ofFin b⟩).isSome) b.toFin
    simpa using h
  exact this id.code

end Pica.AppConfig
