import Verif.Model.PyShow
import Verif.Spec.PyShow
import Verif.Proofs.WebText
/-! What is printed of an object determines its fields. -/

namespace Pica.PyShow
open Py Spec

/-! ### Text -/

theorem split_at {c : Char} {a a' s s' : Text} (ha : c ∉ a) (ha' : c ∉ a') (h : a ++ c :: s = a' ++ c :: s') :
    a = a' ∧ s = s' := by
  induction a generalizing a' with
  | nil =>
    cases a' with
    | nil => simpa using h
    | cons x a' => simp only [List.nil_append, List.cons_append, List.cons.injEq] at h; exact absurd (by simp [h.1]) ha'
  | cons x a ih =>
    cases a' with
    | nil => simp only [List.nil_append, List.cons_append, List.cons.injEq] at h; exact absurd (by simp [h.1]) ha
    | cons y a' =>
      simp only [List.cons_append, List.cons.injEq, List.mem_cons, not_or] at h ha ha'
      obtain ⟨h1, h2⟩ := ih ha.2 ha'.2 h.2
      exact ⟨by rw [h.1, h1], h2⟩

theorem digits_inj {m n : Nat} (h : WebText.digits m = WebText.digits n) : m = n := by
  have h1 := WebText.natural_digits m [] (by trivial)
  have h2 := WebText.natural_digits n [] (by trivial)
  rw [h, h2] at h1
  simpa using h1.symm

/-- The characters of a decimal number. -/
theorem digits_chars (n : Nat) : WebText.digits n ≠ [] ∧ ∀ c ∈ WebText.digits n, 48 ≤ c.toNat ∧ c.toNat ≤ 57 := by
  induction n using Nat.strongRecOn with
  | _ n ih =>
    have key : ∀ d < 10, 48 ≤ (Char.ofNat (48 + d)).toNat ∧ (Char.ofNat (48 + d)).toNat ≤ 57 := by decide
    unfold WebText.digits
    split
    · next h => exact ⟨by simp, by simpa using key n h⟩
    · next h =>
      refine ⟨by simp, fun c hc => ?_⟩
      rcases List.mem_append.mp hc with hc | hc
      · exact (ih (n / 10) (by omega)).2 c hc
      · rw [List.mem_singleton.mp hc]; exact key _ (by omega)

theorem not_mem_digits {c : Char} (n : Nat) (h : c.toNat < 48 ∨ 57 < c.toNat) : c ∉ WebText.digits n := fun hc => by
  have := (digits_chars n).2 c hc; omega

theorem hexDigit_inj : ∀ m < 16, ∀ n < 16, hexDigit m = hexDigit n → m = n := by decide

theorem hexDigits_length (n : Nat) : 0 < (hexDigits n).length := by
  unfold hexDigits; split <;> simp

theorem hexDigits_inj {m n : Nat} (h : hexDigits m = hexDigits n) : m = n := by
  induction m using Nat.strongRecOn generalizing n with
  | _ m ih =>
    have hm : hexDigits m = if m < 16 then [hexDigit m] else hexDigits (m / 16) ++ [hexDigit (m % 16)] := by
      rw [hexDigits]
    have hn : hexDigits n = if n < 16 then [hexDigit n] else hexDigits (n / 16) ++ [hexDigit (n % 16)] := by
      rw [hexDigits]
    rw [hm, hn] at h
    split at h <;> split at h
    · next a b => exact hexDigit_inj m a n b (by simpa using h)
    · next a b =>
      have := congrArg List.length h
      have h0 := hexDigits_length (n / 16)
      simp only [List.length_append, List.length_cons, List.length_nil] at this; omega
    · next a b =>
      have := congrArg List.length h
      have h0 := hexDigits_length (m / 16)
      simp only [List.length_append, List.length_cons, List.length_nil] at this; omega
    · next a b =>
      obtain ⟨h1, h2⟩ := List.append_inj' h rfl
      have := ih (m / 16) (by omega) h1
      have := hexDigit_inj _ (Nat.mod_lt m (by omega)) _ (Nat.mod_lt n (by omega)) (by simpa using h2)
      omega

theorem hexDigits_chars (n : Nat) : ∀ c ∈ hexDigits n, c ≠ ')' ∧ c ≠ '\n' ∧ c ≠ ' ' := by
  have key : ∀ d < 16, hexDigit d ≠ ')' ∧ hexDigit d ≠ '\n' ∧ hexDigit d ≠ ' ' := by decide
  induction n using Nat.strongRecOn with
  | _ n ih =>
    unfold hexDigits
    split
    · next h => simpa using key n h
    · next h =>
      intro c hc
      rcases List.mem_append.mp hc with hc | hc
      · exact ih (n / 16) (by omega) c hc
      · rw [List.mem_singleton.mp hc]; exact key _ (by omega)

theorem intercalate_cons_cons (s x y : Text) (l : List Text) :
    List.intercalate s (x :: y :: l) = x ++ (s ++ List.intercalate s (y :: l)) := by
  simp [List.intercalate]

/-- Texts without a comma can be told apart when they are written one after the other. -/
theorem intercalate_inj {l l' : List Text} (h0 : ∀ x ∈ l, x ≠ [] ∧ ',' ∉ x) (h0' : ∀ x ∈ l', x ≠ [] ∧ ',' ∉ x)
    (h : List.intercalate [',', ' '] l = List.intercalate [',', ' '] l') : l = l' := by
  have one : ∀ x : Text, List.intercalate [',', ' '] [x] = x := by simp [List.intercalate]
  have nil : List.intercalate [',', ' '] ([] : List Text) = [] := rfl
  have ne : ∀ (x : Text) l, x ≠ [] → List.intercalate [',', ' '] (x :: l) ≠ [] := by
    intro x l hx
    cases l with
    | nil => rw [one]; exact hx
    | cons y l => rw [intercalate_cons_cons]; simp [hx]
  induction l generalizing l' with
  | nil =>
    cases l' with
    | nil => rfl
    | cons x l' => exact absurd h.symm (by rw [nil]; exact ne x l' (h0' x (by simp)).1)
  | cons x l ih =>
    have hx := h0 x (by simp)
    cases l' with
    | nil => exact absurd h (by rw [nil]; exact ne x l hx.1)
    | cons x' l' =>
      have hx' := h0' x' (by simp)
      cases l with
      | nil =>
        cases l' with
        | nil => rw [one, one] at h; rw [h]
        | cons y' l' =>
          rw [one, intercalate_cons_cons] at h
          exact absurd (by rw [h]; simp) hx.2
      | cons y l =>
        cases l' with
        | nil =>
          rw [one, intercalate_cons_cons] at h
          exact absurd (by rw [← h]; simp) hx'.2
        | cons y' l' =>
          rw [intercalate_cons_cons, intercalate_cons_cons] at h
          obtain ⟨h1, h2⟩ := split_at hx.2 hx'.2 (by simpa using h)
          simp only [List.cons.injEq, true_and] at h2
          rw [h1, ih (fun z hz => h0 z (by simp [List.mem_cons.mp hz])) (fun z hz => h0' z (by simp [List.mem_cons.mp hz])) h2]

theorem mem_intercalate {c : Char} {s : Text} {l : List Text} (h : c ∈ List.intercalate s l) : c ∈ s ∨ ∃ x ∈ l, c ∈ x := by
  induction l with
  | nil => simp [List.intercalate] at h
  | cons x l ih =>
    cases l with
    | nil => exact .inr ⟨x, by simp, by simpa [List.intercalate] using h⟩
    | cons y l =>
      rw [intercalate_cons_cons, List.mem_append, List.mem_append] at h
      rcases h with h | h | h
      · exact .inr ⟨x, by simp, h⟩
      · exact .inl h
      · rcases ih h with h | ⟨z, hz, h⟩
        · exact .inl h
        · exact .inr ⟨z, by simp [List.mem_cons.mp hz], h⟩

theorem reprList_inj {b b' : Bytes} (h : reprList b = reprList b') : b = b' := by
  unfold reprList at h
  have h := (List.append_inj' h rfl).1
  simp only [List.cons.injEq, true_and] at h
  have ok : ∀ b : Bytes, ∀ x ∈ b.map (fun x => WebText.digits x.toNat), x ≠ [] ∧ ',' ∉ x := by
    intro b x hx
    obtain ⟨v, -, rfl⟩ := List.mem_map.mp hx
    exact ⟨(digits_chars _).1, not_mem_digits _ (by decide)⟩
  have := intercalate_inj (ok b) (ok b') h
  exact List.map_injective_iff.mpr (fun x y h => UInt8.toNat_inj.mp (digits_inj h)) this

theorem newline_reprList (b : Bytes) : '\n' ∉ reprList b := by
  intro h
  unfold reprList at h
  simp only [List.mem_append, List.mem_cons, List.not_mem_nil, or_false] at h
  rcases h with (h | h) | h
  · exact absurd h (by decide)
  · rcases mem_intercalate h with h | ⟨x, hx, h⟩
    · exact absurd h (by decide)
    · obtain ⟨v, -, rfl⟩ := List.mem_map.mp hx
      exact not_mem_digits _ (by decide) h
  · exact absurd h (by decide)

/-! ### Types -/

mutual

/-- The value has the type of the field. -/
def Typed : FieldType → Val → Prop
  | .int, .int _ => True
  | .enum _, .int _ => True
  | .custom, .bytes _ => True
  | .other _, _ => True
  | .struct c, .obj d vs => c = d ∧ TypedFields c.fields vs
  | .list t, .list vs => TypedList t vs
  | _, _ => False

def TypedFields : List Field → List Val → Prop
  | [], [] => True
  | f :: fs, v :: vs => Typed f.2 v ∧ TypedFields fs vs
  | _, _ => False

def TypedList (t : FieldType) : List Val → Prop
  | [] => True
  | v :: vs => Typed t v ∧ TypedList t vs

end

mutual

/-- The value without what is not printed of it. -/
def hide : FieldType → Val → Val
  | .other _, _ => .optional none
  | .struct _, .obj d vs => .obj d (hideFields d.fields vs)
  | .list t, .list vs => .list (hideList t vs)
  | _, v => v

def hideFields : List Field → List Val → List Val
  | f :: fs, v :: vs => hide f.2 v :: hideFields fs vs
  | _, vs => vs

def hideList (t : FieldType) : List Val → List Val
  | [] => []
  | v :: vs => hide t v :: hideList t vs

end

/-- Every class begins with the payload and has no other field of this name. -/
theorem fields_head (c : Class) : ∃ t fs, c.fields = ("payload", .other t) :: fs ∧ ∀ f ∈ fs, f.1 ≠ "payload" := by
  cases c <;> exact ⟨_, _, rfl, by decide⟩

theorem then_returned {a b : Printed} (h : (a.then b).returned = true) :
    a.returned = true ∧ b.returned = true ∧ (a.then b).text = a.text ++ b.text := by
  unfold Printed.then at *
  split at h
  · next ha => exact ⟨ha, h, by rw [if_pos ha]⟩
  · next ha => exact absurd h ha

/-- Text that does not go on below `q`. -/
def Off (q r : Text) : Prop := r = [] ∨ ¬ q <+: r

theorem Off.deeper {q r : Text} (h : Off q r) (x : Text) : Off (q ++ x) r := by
  rcases h with h | h
  · exact .inl h
  · exact .inr fun h' => h ((List.prefix_append q x).trans h')

theorem off_branch (q s : Text) (b : Bool) : Off (q ++ stem false) (q ++ branch b ++ s) := by
  refine .inr fun h => ?_
  rw [List.append_assoc] at h
  have := (List.prefix_append_right_inj q).mp h
  cases b <;> simp [stem, branch] at this

theorem not_off_branch (q s : Text) (b : Bool) : ¬ Off q (q ++ branch b ++ s) := by
  rintro (h | h)
  · cases b <;> simp [branch] at h
  · exact h (by rw [List.append_assoc]; exact List.prefix_append _ _)

theorem branch_inj {s s' : Text} {b b' : Bool} (h : branch b ++ s = branch b' ++ s') : b = b' := by
  cases b <;> cases b' <;> first | rfl | simp [branch] at h

theorem printVal_head {p pp name : Text} {align : Nat} {t : FieldType} {v : Val}
    (h : (printVal p pp name align t v).returned = true) : ∃ s, (printVal p pp name align t v).text = p ++ s := by
  unfold printVal at *
  split at h
  · exact ⟨_, by simp only [printed, List.append_assoc]; rfl⟩
  · split at h
    · exact ⟨_, by simp only [printed, List.append_assoc]; rfl⟩
    · cases h
  · rw [(then_returned h).2.2]; exact ⟨_, by simp only [List.append_assoc]; rfl⟩
  · rw [(then_returned h).2.2]; exact ⟨_, by simp only [printed, List.append_assoc]; rfl⟩
  · exact ⟨_, by simp only [printed, List.append_assoc]; rfl⟩
  · exact ⟨_, by simp only [printed, List.append_assoc]; rfl⟩
  · cases h

theorem memberName_space {e : String} {n : Nat} {m : Text} (h : memberName e n = some m) : ' ' ∉ m := by
  have key : ∀ c ∈ classes, ∀ x ∈ c.members, ' ' ∉ x.1.toList := by decide +kernel
  unfold memberName at h
  obtain ⟨c, hc, h⟩ := Option.bind_eq_some_iff.mp h
  obtain ⟨x, hx, rfl⟩ := Option.map_eq_some_iff.mp h
  exact key c (List.mem_of_find?_eq_some hc) x (List.mem_of_find?_eq_some hx)

end Pica.PyShow
