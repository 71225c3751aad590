import Verif.Spec.Multicast
import Verif.Proofs.Command
import Verif.Proofs.Packets
import Mathlib.Data.List.Induction
/-! The loops of SESSION_UPDATE_CONTROLLER_MULTICAST_LIST in closed form. -/

namespace Pica
open Spec SessionState Codec

/-! ### Payload -/

theorem describes_controlee (n : Nat) : Describes (Pdl.controlee n) (fun _ => True ∧ True ∧ True)
    (fun x => x.shortAddress.1 ++ (u32le x.subsessionId ++ x.subsessionKey.1)) :=
  describes_iso (describes_seq (describes_arr 2) (describes_seq describes_u32 (describes_arr n))) (fun _ => rfl)

theorem canonical_controlee (n : Nat) : Canonical (Pdl.controlee n) (fun _ => True ∧ True ∧ True)
    (fun x => x.shortAddress.1 ++ (u32le x.subsessionId ++ x.subsessionKey.1)) :=
  canonical_iso (canonical_seq (canonical_arr 2) (canonical_seq canonical_u32 (canonical_arr n))) (fun _ => rfl)

theorem controlees_iff (k : Nat) (payload : Bytes) (addrs : List (Arr 2)) :
    ((Pdl.controleeList k).decFull payload).map (·.map WireControlee.shortAddress) = some addrs ↔
      IsControlees k payload addrs := by
  have hf := (describes_counted8 (describes_controlee k)).full
  have hc := (canonical_counted8 (canonical_controlee k)).full
  constructor
  · intro h
    obtain ⟨l, hl, he⟩ := Option.map_eq_some_iff.mp h
    obtain ⟨h1, h2⟩ := hc _ _ hl
    refine ⟨l.map fun x => (x.shortAddress, x.subsessionId, x.subsessionKey), by simpa using h1.1, ?_, by simp [← he]⟩
    rw [h2]
    unfold many
    simp [List.flatMap_map]
  · rintro ⟨items, hl, hp, ha⟩
    have := hf.dec (items.map fun x => ⟨x.1, x.2.1, x.2.2⟩) ⟨by simpa using hl, by simp⟩
    have e : payload = UInt8.ofNat (items.map fun x => (⟨x.1, x.2.1, x.2.2⟩ : WireControlee k)).length ::
        (items.map fun x => (⟨x.1, x.2.1, x.2.2⟩ : WireControlee k)).flatMap
          (fun x => x.shortAddress.1 ++ (u32le x.subsessionId ++ x.subsessionKey.1)) := by
      rw [hp]; unfold many; simp [List.flatMap_map]
    rw [e]
    unfold Pdl.controleeList
    rw [this]
    simp [ha]

theorem parseControlees_iff (a : UpdateMulticastListAction) (payload : Bytes) (addrs : List (Arr 2)) :
    Device.parseControlees a payload = some addrs ↔ IsControlees (keyLength a) payload addrs := by
  cases a <;> exact controlees_iff _ _ _

/-! ### Lists -/

theorem overall_append (l : List ControleeStatus) (x : ControleeStatus) : overall (l ++ [x]) =
    if x.status = .okMulticastListUpdate then overall l
    else if x.status = .errorMulticastListFull then .errorMulticastListFull else .failed := by
  unfold overall
  rw [List.filter_append]
  by_cases h : x.status = .okMulticastListUpdate
  · simp [h]
  · simp [h]

theorem mapIdx_concat_take {α β : Type} (f : List α → α → β) (l : List α) (a : α) :
    (l ++ [a]).mapIdx (fun i x => f ((l ++ [a]).take i) x) = l.mapIdx (fun i x => f (l.take i) x) ++ [f l a] := by
  rw [List.mapIdx_append]
  congr 1
  · apply List.ext_getElem
    · simp
    · intro i h1 h2
      simp only [List.getElem_mapIdx]
      rw [List.take_append_of_le_length]
      simp at h1; omega
  · simp

theorem mem_newcomers {old : List MacAddress} {l : List (Arr 2)} {a : Arr 2} :
    a ∈ newcomers old l ↔ a ∈ l ∧ MacAddress.short a ∉ old := by
  unfold newcomers
  rw [List.mem_eraseDups]
  simp

theorem newcomers_length_le (old : List MacAddress) (l : List (Arr 2)) : (newcomers old l).length ≤ l.length := by
  have : ∀ n (l : List (Arr 2)), l.length ≤ n → l.eraseDups.length ≤ l.length := by
    intro n
    induction n with
    | zero => intro l h; rw [List.length_eq_zero_iff.mp (Nat.le_zero.mp h)]; simp
    | succ n ih =>
      intro l h
      cases l with
      | nil => simp
      | cons a l =>
        rw [List.eraseDups_cons]
        have h1 := List.length_filter_le (fun b => !b == a) l
        have h2 := ih (l.filter fun b => !b == a) (by simp only [List.length_cons] at h; omega)
        simp only [List.length_cons]
        omega
  exact Nat.le_trans (this _ _ (Nat.le_refl _)) (List.length_filter_le _ _)

theorem newcomers_concat (old : List MacAddress) (l : List (Arr 2)) (a : Arr 2) : newcomers old (l ++ [a]) =
    newcomers old l ++ if MacAddress.short a ∈ old ∨ a ∈ l then [] else [a] := by
  unfold newcomers
  rw [List.filter_append, List.eraseDups_append]
  congr 1
  by_cases h1 : MacAddress.short a ∈ old
  · simp [h1, List.removeAll]
  · by_cases h2 : a ∈ l
    · simp [h1, h2, List.removeAll]
    · simp [h1, h2, List.removeAll, List.eraseDups_cons]

theorem afterAdd_nil (old : List MacAddress) : afterAdd old [] = old := by
  unfold afterAdd newcomers; simp

theorem mem_short_map {a : Arr 2} {l : List (Arr 2)} : MacAddress.short a ∈ l.map MacAddress.short ↔ a ∈ l := by
  simp

theorem afterAdd_concat (old : List MacAddress) (l : List (Arr 2)) (a : Arr 2) : afterAdd old (l ++ [a]) =
    if MacAddress.short a ∈ afterAdd old l ∨ (afterAdd old l).length = 8 then afterAdd old l else afterAdd old l ++ [.short a] := by
  have hle := newcomers_length_le old l
  unfold afterAdd
  rw [newcomers_concat]
  by_cases ho : old.length ≤ 8
  · simp only [if_pos ho, List.mem_append, mem_short_map, List.length_append, List.length_map, List.length_take]
    by_cases hin : MacAddress.short a ∈ old ∨ a ∈ l
    · rw [if_pos hin, List.append_nil]
      split
      · rfl
      · rename_i hn
        exfalso
        rw [not_or, not_or] at hn
        obtain ⟨⟨hn1, hn2⟩, hn3⟩ := hn
        rcases hin with h | h
        · exact hn1 h
        · have : a ∈ newcomers old l := mem_newcomers.mpr ⟨h, hn1⟩
          rw [List.take_of_length_le (by omega)] at hn2
          exact hn2 this
    · rw [if_neg hin]
      rw [not_or] at hin
      have hna : a ∉ newcomers old l := fun h => hin.2 (mem_newcomers.mp h).1
      by_cases hfull : old.length + min (8 - old.length) (newcomers old l).length = 8
      · rw [if_pos (.inr hfull), List.take_append_of_le_length (by omega)]
      · rw [if_neg, List.take_append, List.take_of_length_le (by omega), List.map_append, List.append_assoc]
        · congr 2
          rw [List.take_of_length_le (by simp; omega)]
          rfl
        · rw [not_or, not_or]
          exact ⟨⟨hin.1, fun h => hna (List.mem_of_mem_take h)⟩, hfull⟩
  · simp only [if_neg ho, List.mem_append, mem_short_map, List.length_append, List.length_map, List.length_take]
    have hlen : ¬(old.length + min l.length (newcomers old l).length = 8) := by omega
    rw [List.take_of_length_le (l := newcomers old l) hle]
    by_cases hin : MacAddress.short a ∈ old ∨ a ∈ l
    · rw [if_pos hin, List.append_nil, List.take_of_length_le (by omega), if_pos]
      left
      rcases hin with h | h
      · exact .inl h
      · by_cases ho : MacAddress.short a ∈ old
        · exact .inl ho
        · exact .inr (mem_newcomers.mpr ⟨h, ho⟩)
    · rw [if_neg hin]
      rw [not_or] at hin
      rw [List.take_of_length_le (by simp; omega), if_neg, List.map_append, List.append_assoc]
      · rfl
      · rw [not_or, not_or]
        exact ⟨⟨hin.1, fun h => hin.2 (mem_newcomers.mp h).1⟩, hlen⟩

theorem addStatuses_concat (old : List MacAddress) (l : List (Arr 2)) (a : Arr 2) : addStatuses old (l ++ [a]) =
    addStatuses old l ++ [⟨a,
      if MacAddress.short a ∈ afterAdd old l then .errorAddressAlreadyPresent
      else if (afterAdd old l).length = 8 then .errorMulticastListFull
      else .okMulticastListUpdate⟩] :=
  mapIdx_concat_take (fun pre a => (⟨a,
      if MacAddress.short a ∈ afterAdd old pre then .errorAddressAlreadyPresent
      else if (afterAdd old pre).length = 8 then .errorMulticastListFull
      else .okMulticastListUpdate⟩ : ControleeStatus)) l a

theorem removeStatuses_concat (old : List MacAddress) (l : List (Arr 2)) (a : Arr 2) : removeStatuses old (l ++ [a]) =
    removeStatuses old l ++ [⟨a, if MacAddress.short a ∈ old ∧ a ∉ l then .okMulticastListUpdate else .errorAddressNotFound⟩] :=
  mapIdx_concat_take (fun pre a => (⟨a,
    if MacAddress.short a ∈ old ∧ a ∉ pre then .okMulticastListUpdate else .errorAddressNotFound⟩ : ControleeStatus)) l a

theorem afterRemove_concat (old : List MacAddress) (l : List (Arr 2)) (a : Arr 2) : afterRemove old (l ++ [a]) =
    (afterRemove old l).filter (fun m => decide (m ≠ .short a)) := by
  unfold afterRemove
  rw [List.filter_filter]
  congr 1
  funext m
  rw [← Bool.decide_and]
  congr 1
  apply propext
  constructor
  · intro h
    exact ⟨h a (by simp), fun b hb => h b (by simp [hb])⟩
  · rintro ⟨h1, h2⟩ b hb
    rcases List.mem_append.mp hb with h | h
    · exact h2 b h
    · rw [List.mem_singleton.mp h]; exact h1

theorem mem_afterRemove {old : List MacAddress} {l : List (Arr 2)} {a : Arr 2} :
    MacAddress.short a ∈ afterRemove old l ↔ MacAddress.short a ∈ old ∧ a ∉ l := by
  unfold afterRemove
  simp only [List.mem_filter, decide_eq_true_eq]
  constructor
  · rintro ⟨h1, h2⟩; exact ⟨h1, fun h => h2 a h rfl⟩
  · rintro ⟨h1, h2⟩; exact ⟨h1, by rintro b hb he; cases he; exact h2 hb⟩

theorem succeeded_concat (l : List ControleeStatus) (x : ControleeStatus) : succeeded (l ++ [x]) =
    succeeded l ++ if x.status = .okMulticastListUpdate then [x] else [] := by
  unfold succeeded
  rw [List.filter_append]
  by_cases h : x.status = .okMulticastListUpdate <;> simp [h]

/-! ### The loops -/

theorem add_fold (old : List MacAddress) (addrs : List (Arr 2)) :
    addrs.foldl (Device.addControlee false) ⟨old, .ok, [], [], []⟩ =
      ⟨afterAdd old addrs, overall (addStatuses old addrs), addStatuses old addrs, [], []⟩ := by
  induction addrs using List.reverseRecOn with
  | nil => rw [afterAdd_nil]; rfl
  | append_singleton l a ih =>
    rw [List.foldl_append, ih, List.foldl_cons, List.foldl_nil]
    unfold Device.addControlee
    rw [if_neg (by decide), afterAdd_concat, addStatuses_concat, overall_append]
    dsimp only
    by_cases h1 : MacAddress.short a ∈ afterAdd old l
    · simp [h1]
    · by_cases h2 : (afterAdd old l).length = 8
      · simp [h1, h2, maxNumberOfControlees]
      · simp [h1, h2, maxNumberOfControlees]

theorem key_fold (old : List MacAddress) (addrs : List (Arr 2)) :
    ∃ ntf, addrs.foldl (Device.addControlee true) ⟨old, .ok, [], [], []⟩ =
      ⟨old, if addrs = [] then .ok else .failed, [], ntf, []⟩ := by
  induction addrs using List.reverseRecOn with
  | nil => exact ⟨[], rfl⟩
  | append_singleton l a ih =>
    obtain ⟨ntf, ih⟩ := ih
    rw [List.foldl_append, ih, List.foldl_cons, List.foldl_nil]
    unfold Device.addControlee
    rw [if_pos rfl]
    exact ⟨_, by simp; rfl⟩

theorem remove_fold (sid : UInt32) (n : UInt8) (old : List MacAddress) (addrs : List (Arr 2)) :
    addrs.foldl (Device.removeControlee sid n) ⟨old, .ok, [], [], []⟩ =
      ⟨afterRemove old addrs, overall (removeStatuses old addrs), removeStatuses old addrs,
        succeeded (removeStatuses old addrs),
        if n = 0 then [] else (succeeded (removeStatuses old addrs)).map fun x => .stopRanging (.short x.macAddress) sid n⟩ := by
  induction addrs using List.reverseRecOn with
  | nil =>
    have : afterRemove old [] = old := by unfold afterRemove; simp
    rw [this]
    simp [removeStatuses, succeeded, overall]
  | append_singleton l a ih =>
    rw [List.foldl_append, ih, List.foldl_cons, List.foldl_nil]
    unfold Device.removeControlee
    rw [afterRemove_concat, removeStatuses_concat, overall_append, succeeded_concat]
    dsimp only
    by_cases h1 : MacAddress.short a ∈ afterRemove old l
    · have h2 := mem_afterRemove.mp h1
      rw [if_pos h1, if_pos h2]
      by_cases hn : n = 0
      · simp [hn]
      · simp [hn]
    · have h2 := mt mem_afterRemove.mpr h1
      rw [if_neg h1, if_neg h2]
      have hf : (afterRemove old l).filter (fun m => decide (m ≠ .short a)) = afterRemove old l := by
        rw [List.filter_eq_self]
        intro m hm
        simp only [decide_eq_true_eq]
        rintro rfl
        exact h1 hm
      rw [hf]
      simp

end Pica
