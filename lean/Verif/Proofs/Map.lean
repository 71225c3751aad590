import Mathlib.Data.List.Perm.Basic
import Mathlib.Data.List.Nodup
import Verif.Model.Map
/-! Association lists. -/

namespace Pica.AMap
variable {K V : Type} [DecidableEq K]

@[simp] theorem get?_nil (k : K) : get? ([] : AMap K V) k = none := rfl

theorem get?_cons (e : K × V) (m : AMap K V) (k : K) :
    get? (e :: m) k = if e.1 = k then some e.2 else get? m k := rfl

theorem get?_insert (m : AMap K V) (k k' : K) (v : V) :
    (m.insert k v).get? k' = if k = k' then some v else m.get? k' := by
  induction m with
  | nil => rfl
  | cons e m ih =>
    simp only [insert]
    split
    · rename_i h
      simp only [get?_cons]
      by_cases hk : k = k'
      · simp [hk]
      · simp [hk, h]
    · rename_i h
      simp only [get?_cons, ih]
      by_cases hk : k = k'
      · subst hk; simp [h]
      · simp [hk]

@[simp] theorem get?_insert_self (m : AMap K V) (k : K) (v : V) : (m.insert k v).get? k = some v := by
  simp [get?_insert]

theorem get?_insert_of_ne {m : AMap K V} {k k' : K} {v : V} (h : k' ≠ k) : (m.insert k v).get? k' = m.get? k' := by
  simp [get?_insert, Ne.symm h]

theorem get?_erase (m : AMap K V) (k k' : K) : (m.erase k).get? k' = if k = k' then none else m.get? k' := by
  induction m with
  | nil => simp [erase]
  | cons e m ih =>
    unfold erase at ih ⊢
    rw [List.filter_cons]
    by_cases h : e.1 = k
    · simp only [h, ne_eq, not_true_eq_false, decide_false, Bool.false_eq_true, if_false, ih, get?_cons]
      by_cases hk : k = k' <;> simp [hk]
    · simp only [ne_eq, h, not_false_eq_true, decide_true, if_true, get?_cons, ih]
      by_cases hk : k = k'
      · subst hk; simp [h]
      · simp [hk]

@[simp] theorem get?_erase_self (m : AMap K V) (k : K) : (m.erase k).get? k = none := by simp [get?_erase]

theorem get?_erase_of_ne {m : AMap K V} {k k' : K} (h : k' ≠ k) : (m.erase k).get? k' = m.get? k' := by
  simp [get?_erase, Ne.symm h]

theorem get?_eq_none {m : AMap K V} {k : K} : m.get? k = none ↔ k ∉ m.keys := by
  induction m with
  | nil => simp [keys]
  | cons e m ih =>
    unfold keys at ih ⊢
    simp only [get?_cons, List.map_cons, List.mem_cons, not_or]
    by_cases h : e.1 = k
    · simp [h]
    · simp [h, ih, Ne.symm h]

theorem mem_of_get? {m : AMap K V} {k : K} {v : V} (h : m.get? k = some v) : (k, v) ∈ m := by
  induction m with
  | nil => cases h
  | cons e m ih =>
    rw [get?_cons] at h
    split at h
    · rename_i he; cases h; rw [← he]; exact List.mem_cons_self
    · exact List.mem_cons_of_mem _ (ih h)

theorem get?_of_mem {m : AMap K V} {k : K} {v : V} (hn : m.keys.Nodup) (h : (k, v) ∈ m) : m.get? k = some v := by
  induction m with
  | nil => cases h
  | cons e m ih =>
    rw [get?_cons]
    unfold keys at hn ih
    rw [List.map_cons, List.nodup_cons] at hn
    rcases List.mem_cons.mp h with rfl | h
    · simp
    · have : e.1 ≠ k := by
        rintro rfl
        exact hn.1 (List.mem_map.mpr ⟨_, h, rfl⟩)
      simp [this, ih hn.2 h]

theorem get?_iff_mem {m : AMap K V} (hn : m.keys.Nodup) {k : K} {v : V} : m.get? k = some v ↔ (k, v) ∈ m :=
  ⟨mem_of_get?, get?_of_mem hn⟩

theorem get?_perm {m m' : AMap K V} (hn : m.keys.Nodup) (hp : m'.Perm m) (k : K) : m'.get? k = m.get? k := by
  have hn' : m'.keys.Nodup := (hp.map Prod.fst).nodup_iff.mpr hn
  apply Option.ext
  intro v
  rw [get?_iff_mem hn', get?_iff_mem hn]
  exact hp.mem_iff

theorem keys_insert (m : AMap K V) (k : K) (v : V) :
    (m.insert k v).keys = if k ∈ m.keys then m.keys else m.keys ++ [k] := by
  induction m with
  | nil => rfl
  | cons e m ih =>
    unfold keys at ih ⊢
    simp only [insert]
    split
    · rename_i h; subst h; simp
    · rename_i h
      simp only [List.map_cons, ih, List.mem_cons, Ne.symm h, false_or]
      split <;> rfl

theorem nodup_insert {m : AMap K V} (h : m.keys.Nodup) (k : K) (v : V) : (m.insert k v).keys.Nodup := by
  rw [keys_insert]
  split
  · exact h
  · rename_i hk
    rw [List.nodup_append]
    refine ⟨h, by simp, ?_⟩
    intro a ha b hb
    rw [List.mem_singleton] at hb
    rintro rfl
    exact hk (hb ▸ ha)

theorem keys_erase (m : AMap K V) (k : K) : (m.erase k).keys = m.keys.filter (fun x => decide (x ≠ k)) := by
  unfold keys erase
  rw [List.filter_map]
  rfl

theorem nodup_erase {m : AMap K V} (h : m.keys.Nodup) (k : K) : (m.erase k).keys.Nodup := by
  rw [keys_erase]; exact h.filter _

theorem length_insert (m : AMap K V) (k : K) (v : V) :
    (m.insert k v).length = if (m.get? k).isSome then m.length else m.length + 1 := by
  have h := congrArg List.length (keys_insert m k v)
  have hk : ∀ m : AMap K V, m.keys.length = m.length := fun m => by simp [keys]
  rw [hk] at h
  rw [h]
  by_cases hm : k ∈ m.keys
  · have : m.get? k ≠ none := fun e => get?_eq_none.mp e hm
    simp [hm, hk, Option.isSome_iff_ne_none.mpr this]
  · simp [hm, hk, get?_eq_none.mpr hm]

theorem length_erase_le (m : AMap K V) (k : K) : (m.erase k).length ≤ m.length := List.length_filter_le _ _

theorem insert_self {m : AMap K V} {k : K} {v : V} (h : m.get? k = some v) : m.insert k v = m := by
  induction m with
  | nil => cases h
  | cons e m ih =>
    rw [get?_cons] at h
    simp only [insert]
    split
    · rename_i he
      rw [if_pos he] at h
      cases h
      rw [← he]
    · rename_i he
      rw [if_neg he] at h
      rw [ih h]

theorem erase_absent {m : AMap K V} {k : K} (h : m.get? k = none) : m.erase k = m := by
  unfold erase
  rw [List.filter_eq_self]
  intro e he
  have := get?_eq_none.mp h
  simp only [ne_eq, decide_not, Bool.not_eq_true', decide_eq_false_iff_not]
  rintro rfl
  exact this (List.mem_map_of_mem (f := Prod.fst) he)

/-- Set or remove the value of a key. -/
def put (m : AMap K V) (k : K) : Option V → AMap K V
  | some v => m.insert k v
  | none => m.erase k

theorem get?_put (m : AMap K V) (k k' : K) (o : Option V) : (m.put k o).get? k' = if k = k' then o else m.get? k' := by
  cases o
  · exact get?_erase m k k'
  · exact get?_insert m k k' _

theorem put_self {m : AMap K V} {k : K} : m.put k (m.get? k) = m := by
  cases h : m.get? k
  · exact erase_absent h
  · exact insert_self h

theorem nodup_put {m : AMap K V} (h : m.keys.Nodup) (k : K) (o : Option V) : (m.put k o).keys.Nodup := by
  cases o
  · exact nodup_erase h k
  · exact nodup_insert h k _

omit [DecidableEq K] in
theorem mem_values {m : AMap K V} {v : V} : v ∈ m.values ↔ ∃ k, (k, v) ∈ m := by
  unfold values
  simp only [List.mem_map, Prod.exists, exists_eq_right]

/-! Sums over a map. -/

/-- Number of values with a property. -/
def count (p : V → Bool) (m : AMap K V) : Nat := (m.filter (fun e => p e.2)).length

/-- 1 for a value with the property, 0 otherwise. -/
def weight (p : V → Bool) : Option V → Nat
  | some v => if p v then 1 else 0
  | none => 0

omit [DecidableEq K] in
theorem count_perm {p : V → Bool} {m m' : AMap K V} (h : m'.Perm m) : count p m' = count p m :=
  (h.filter _).length_eq

theorem count_erase {p : V → Bool} {m : AMap K V} (hn : m.keys.Nodup) (k : K) :
    count p (m.erase k) + weight p (m.get? k) = count p m := by
  induction m with
  | nil => rfl
  | cons e m ih =>
    have hn' : e.1 ∉ keys m ∧ (keys m).Nodup := by
      unfold keys at hn ⊢; rw [List.map_cons, List.nodup_cons] at hn; exact hn
    rw [get?_cons]
    have hcons : count p (e :: m) = (if p e.2 then 1 else 0) + count p m := by
      unfold count; rw [List.filter_cons]; split <;> simp [Nat.add_comm]
    rw [hcons]
    by_cases h : e.1 = k
    · subst h
      have : (erase (e :: m) e.1) = m := by
        have h1 : erase (e :: m) e.1 = erase m e.1 := by unfold erase; rw [List.filter_cons]; simp
        rw [h1, erase_absent (get?_eq_none.mpr hn'.1)]
      rw [this]; simp [weight, Nat.add_comm]
    · have : erase (e :: m) k = e :: erase m k := by unfold erase; rw [List.filter_cons]; simp [h]
      rw [this, if_neg h, ← ih hn'.2]
      have hcons' : count p (e :: erase m k) = (if p e.2 then 1 else 0) + count p (erase m k) := by
        unfold count; rw [List.filter_cons]; split <;> simp [Nat.add_comm]
      rw [hcons', Nat.add_assoc]

theorem count_insert {p : V → Bool} (m : AMap K V) (k : K) (v : V) :
    count p (m.insert k v) + weight p (m.get? k) =
      count p m + (if p v then 1 else 0) := by
  have hc : ∀ (e : K × V) (m : AMap K V), count p (e :: m) = (if p e.2 then 1 else 0) + count p m := by
    intro e m; unfold count; rw [List.filter_cons]; split <;> simp [Nat.add_comm]
  induction m with
  | nil =>
    show count p ((k, v) :: []) + 0 = _
    rw [hc]; simp [Nat.add_comm]
  | cons e m ih =>
    rw [get?_cons]
    simp only [insert]
    split
    · rename_i h
      rw [hc, hc]; simp only [weight]; omega
    · rename_i h
      rw [hc, hc]; simp only; omega

theorem count_put {p : V → Bool} {m : AMap K V} (hn : m.keys.Nodup) (k : K) (o : Option V) :
    count p (m.put k o) + weight p (m.get? k) =
      count p m + weight p o := by
  cases o
  · have := count_erase (p := p) hn k; show count p (m.erase k) + _ = count p m + 0; omega
  · exact count_insert m k _

theorem count_pos {p : V → Bool} {m : AMap K V} {k : K} {v : V} (h : m.get? k = some v) (hp : p v = true) :
    0 < count p m := by
  unfold count
  exact List.length_pos_of_mem (List.mem_filter.mpr ⟨mem_of_get? h, hp⟩)

theorem count_eq_zero {p : V → Bool} {m : AMap K V} (hn : m.keys.Nodup) :
    count p m = 0 ↔ ∀ k v, m.get? k = some v → p v = false := by
  unfold count
  rw [List.length_eq_zero_iff, List.filter_eq_nil_iff]
  constructor
  · intro h k v hk
    simpa using h _ (mem_of_get? hk)
  · intro h e he
    have := h e.1 e.2 (get?_of_mem hn he)
    simp [this]

end Pica.AMap
