import Verif.Proofs.PyShown
/-! The lines that are printed of the fields. -/

namespace Pica.PyShow
open Py Spec

theorem digits_eq (n : Nat) : WebText.digits n = Nat.toDigits 10 n := by
  induction n using Nat.strongRecOn with
  | ind n ih =>
    rw [WebText.digits]
    have hc : ∀ k < 10, Char.ofNat (48 + k) = k.digitChar := by decide
    split
    · next h => rw [Nat.toDigits_of_lt_base h, hc n h]
    · next h => rw [Nat.toDigits_of_base_le (by decide) (by omega), ih _ (by omega), hc _ (Nat.mod_lt _ (by decide))]

theorem hexDigits_eq (n : Nat) : hexDigits n = Nat.toDigits 16 n := by
  induction n using Nat.strongRecOn with
  | ind n ih =>
    rw [hexDigits]
    have hc : ∀ k < 16, hexDigit k = k.digitChar := by decide
    split
    · next h => rw [Nat.toDigits_of_lt_base h, hc n h]
    · next h => rw [Nat.toDigits_of_base_le (by decide) (by omega), ih _ (by omega), hc _ (Nat.mod_lt _ (by decide))]

theorem foldl_text (l : List Nat) (s : String) :
    (l.foldl (fun r n => r ++ ", " ++ toString n) s).toList = s.toList ++ (l.flatMap fun n => ", ".toList ++ WebText.digits n) := by
  induction l generalizing s with
  | nil => simp
  | cons n l ih =>
    rw [List.foldl_cons, ih, List.flatMap_cons, digits_eq]
    simp only [String.toList_append, Nat.toString_eq_ofList_toDigits, String.toList_ofList, List.append_assoc]

theorem intercalate_flatMap (x : Text) (l : List Text) (s : Text) :
    List.intercalate s (x :: l) = x ++ l.flatMap fun y => s ++ y := by
  induction l generalizing x with
  | nil => simp [List.intercalate]
  | cons y l ih => rw [intercalate_cons_cons, ih]; simp

theorem reprList_eq (b : Bytes) : reprList b = (toString (b.map UInt8.toNat)).toList := by
  match b with
  | [] => rfl
  | [x] =>
    simp [reprList, toString, List.toString, List.intercalate, digits_eq]
  | x :: y :: b =>
    have e : toString ((x :: y :: b).map UInt8.toNat) =
        (((y :: b).map UInt8.toNat).foldl (fun r n => r ++ ", " ++ toString n) ("[" ++ toString x.toNat)).push ']' := rfl
    rw [e, String.toList_push, foldl_text, reprList, List.map_cons, intercalate_flatMap, List.flatMap_map, List.flatMap_map]
    simp only [String.toList_append, Nat.toString_eq_ofList_toDigits, String.toList_ofList, digits_eq]
    rfl

/-! ### Where the lines are -/

/-- Nothing, or lines. -/
def Lines (t : Text) : Prop := t = [] ∨ ∃ s, t = s ++ ['\n']

theorem Lines.append {s t : Text} (hs : Lines s) (ht : Lines t) : Lines (s ++ t) := by
  rcases ht with rfl | ⟨t, rfl⟩
  · rwa [List.append_nil]
  · exact .inr ⟨s ++ t, by rw [List.append_assoc]⟩

theorem lines_after {s t : Text} (ht : Lines t) : Lines (s ++ ['\n'] ++ t) := Lines.append (.inr ⟨s, rfl⟩) ht

mutual

theorem printVal_lines (p pp name : Text) (align : Nat) (t : FieldType) (v : Val)
    (h : (printVal p pp name align t v).returned = true) : Lines (printVal p pp name align t v).text := by
  match t, v with
  | .struct _, .obj c vs =>
    unfold printVal at h ⊢
    obtain ⟨-, h1, h2⟩ := then_returned h
    obtain ⟨-, h3, h4⟩ := then_returned h1
    rw [h2, h4, ← List.append_assoc]
    exact Lines.append (.inr ⟨_, (List.append_assoc ..).symm⟩) (showFields_lines _ _ _ _ h3)
  | .list t, .list vs =>
    unfold printVal at h ⊢
    obtain ⟨-, h1, h2⟩ := then_returned h
    rw [h2]
    exact Lines.append (.inr ⟨_, rfl⟩) (showElements_lines _ _ _ _ h1)
  | .enum e, .int n =>
    unfold printVal at h ⊢
    cases hm : memberName e n with
    | none => rw [hm] at h; cases h
    | some m => exact .inr ⟨_, rfl⟩
  | .int, .int _ | .custom, .bytes _ => exact .inr ⟨_, rfl⟩
  | .other _, .int _ | .other _, .bytes _ | .other _, .optional _ | .other _, .list _ | .other _, .obj _ _ => exact .inr ⟨_, rfl⟩
  | .int, .bytes _ | .int, .optional _ | .int, .list _ | .int, .obj _ _ => cases h
  | .custom, .int _ | .custom, .optional _ | .custom, .list _ | .custom, .obj _ _ => cases h
  | .enum _, .bytes _ | .enum _, .optional _ | .enum _, .list _ | .enum _, .obj _ _ => cases h
  | .struct _, .int _ | .struct _, .bytes _ | .struct _, .optional _ | .struct _, .list _ => cases h
  | .list _, .int _ | .list _, .bytes _ | .list _, .optional _ | .list _, .obj _ _ => cases h
termination_by sizeOf v

theorem showFields_lines (pre : Text) (align : Nat) (fs : List Field) (vs : List Val)
    (h : (showFields pre align fs vs).returned = true) : Lines (showFields pre align fs vs).text := by
  match fs, vs with
  | [], [] | [], _ :: _ | _ :: _, [] => exact .inl rfl
  | f :: fs, v :: vs =>
    unfold showFields at h ⊢
    obtain ⟨h1, h2, h3⟩ := then_returned h
    rw [h3]
    refine Lines.append ?_ (showFields_lines _ _ _ _ h2)
    split at h1
    · next hp => rw [if_pos hp]; exact .inl rfl
    · next hp => rw [if_neg hp]; exact printVal_lines _ _ _ _ _ _ h1
termination_by sizeOf vs

theorem showElements_lines (pp : Text) (t : FieldType) (i : Nat) (vs : List Val)
    (h : (showElements pp t i vs).returned = true) : Lines (showElements pp t i vs).text := by
  match vs with
  | [] => exact .inl rfl
  | v :: vs =>
    unfold showElements at h ⊢
    obtain ⟨h1, h2, h3⟩ := then_returned h
    rw [h3]
    exact Lines.append (printVal_lines _ _ _ _ _ _ h1) (showElements_lines _ _ _ _ h2)
termination_by sizeOf vs

end

/-- The text of a field is in that of the object. -/
theorem showFields_part {pre : Text} {align : Nat} {fs : List Field} {vs : List Val}
    (h : (showFields pre align fs vs).returned = true) {f : Field} {v : Val} (hm : (f, v) ∈ fs.zip vs) (hp : f.1 ≠ "payload") :
    ∃ a b last, Lines a ∧ (printVal (pre ++ branch last) (pre ++ stem last) f.1.toList align f.2 v).returned = true ∧
      (showFields pre align fs vs).text = a ++ (printVal (pre ++ branch last) (pre ++ stem last) f.1.toList align f.2 v).text ++ b := by
  induction fs generalizing vs with
  | nil => simp at hm
  | cons g fs ih =>
    match vs with
    | [] => simp at hm
    | w :: vs =>
      unfold showFields at h ⊢
      obtain ⟨h1, h2, h3⟩ := then_returned h
      rw [h3]
      rw [List.zip_cons_cons, List.mem_cons] at hm
      rcases hm with hm | hm
      · cases hm
        rw [if_neg hp] at h1 ⊢
        exact ⟨[], _, _, .inl rfl, h1, rfl⟩
      · obtain ⟨a, b, last, e1, e2, e3⟩ := ih h2 hm
        refine ⟨_ ++ a, b, last, Lines.append ?_ e1, e2, by rw [e3, List.append_assoc, List.append_assoc, List.append_assoc]⟩
        split at h1
        · next hp => rw [if_pos hp]; exact .inl rfl
        · next hp => rw [if_neg hp]; exact printVal_lines _ _ _ _ _ _ h1

theorem other_payload {c : Class} (hc : c ≠ .dlTdoaRangingMeasurement) : ∀ f ∈ c.fields, f.1 ≠ "payload" → ∀ t, f.2 ≠ .other t := by
  have h : ∀ f ∈ c.fields, f.1 ≠ "payload" → (match f.2 with | .other _ => false | _ => true) = true := by
    cases c <;> first | exact absurd rfl hc | decide
  intro f hf hp t ht
  have := h f hf hp
  rw [ht] at this
  cases this

theorem class_ne (o : Obj) : classOf o ≠ .dlTdoaRangingMeasurement := by
  cases o
  case command c => cases c <;> exact Class.noConfusion
  all_goals exact Class.noConfusion

theorem of_same_int {k n : Nat} {v : Pdl.Value} (h : Same k (.int n) v) : v = .int n := by
  cases v <;> cases k <;> simp [Same, SameFields] at h <;> first | exact h.elim | rw [h]

theorem of_same_bytes {k : Nat} {b : Bytes} {v : Pdl.Value} (h : Same k (.bytes b) v) : v = .bytes b := by
  cases v <;> cases k <;> simp [Same, SameFields] at h <;> first | exact h.elim | rw [h]

theorem of_same_obj {k : Nat} {c : Class} {vs : List Val} {v : Pdl.Value} (h : Same k (.obj c vs) v) : ∃ r, v = .record r := by
  cases v <;> cases k <;> first | (simp [Same] at h; done) | exact ⟨_, rfl⟩

theorem of_same_list {k : Nat} {l : List Val} {v : Pdl.Value} (h : Same k (.list l) v) :
    (∃ r, v = .ints r) ∨ ∃ r, v = .records r := by
  cases v <;> cases k <;> first | (simp [Same, SameFields] at h; done) | exact .inl ⟨_, rfl⟩ | exact .inr ⟨_, rfl⟩

theorem memberName_mem {e : String} {n : Nat} {m : Text} (h : memberName e n = some m) :
    ∃ c ∈ classes, ∃ k, (k, n) ∈ c.members ∧ c.name = e ∧ m = k.toList := by
  obtain ⟨c, hc, h'⟩ := Option.bind_eq_some_iff.mp h
  obtain ⟨⟨k, v⟩, hk, rfl⟩ := Option.map_eq_some_iff.mp h'
  have h1 := List.find?_some hc
  have h2 := List.find?_some hk
  have h1 : c.name = e := of_decide_eq_true h1
  have h2 : v = n := of_decide_eq_true h2
  subst h2
  exact ⟨c, List.mem_of_find?_eq_some hc, k, List.mem_of_find?_eq_some hk, h1, rfl⟩

/-- The line of a field. -/
theorem printVal_line {p pp name : Text} {align : Nat} {t : FieldType} {w : Val} {v : Pdl.Value} {k : Nat}
    (h : (printVal p pp name align t w).returned = true) (ht : ∀ s, t ≠ .other s) (hs : Same k w v) :
    ∃ gap text b, (printVal p pp name align t w).text = p ++ name ++ gap ++ text ++ '\n' :: b ∧ (∀ c ∈ gap, c = ' ') ∧ Line text v := by
  have hgap : ∀ c ∈ List.replicate (align - name.length) ' ', c = ' ' := fun c hc => (List.mem_replicate.mp hc).2
  match t, w with
  | .int, .int n =>
    rw [of_same_int hs]
    refine ⟨_, _, [], ?_, hgap, WebText.digits n, rfl, .inl (digits_eq n)⟩
    rw [← hexDigits_eq]
    simp only [printVal, printed, padded, List.append_assoc, List.cons_append, List.nil_append]
  | .enum e, .int n =>
    rw [of_same_int hs]
    unfold printVal at h ⊢
    cases hm : memberName e n with
    | none => rw [hm] at h; cases h
    | some m =>
      obtain ⟨c, hc, k, hk, rfl, rfl⟩ := memberName_mem hm
      refine ⟨_, _, [], ?_, hgap, c.name.toList ++ [':', ':'] ++ k.toList, rfl, .inr ⟨c, hc, k, hk, rfl⟩⟩
      rw [← hexDigits_eq]
      simp only [printed, padded, List.append_assoc, List.cons_append, List.nil_append]
      rfl
  | .struct _, .obj c vs =>
    obtain ⟨r, rfl⟩ := of_same_obj hs
    unfold printVal at h ⊢
    obtain ⟨-, h1, h2⟩ := then_returned h
    obtain ⟨-, h3, h4⟩ := then_returned h1
    refine ⟨_, _, (showFields pp c.align c.fields vs).text, ?_, hgap, c, rfl⟩
    rw [h2, h4]
    simp only [printed, padded, List.append_assoc, List.cons_append, List.nil_append]
  | .list t, .list vs =>
    unfold printVal at h ⊢
    obtain ⟨-, h1, h2⟩ := then_returned h
    have hl : Line [] v := by rcases of_same_list hs with ⟨r, rfl⟩ | ⟨r, rfl⟩ <;> rfl
    refine ⟨_, [], (showElements pp t 0 vs).text, ?_, hgap, hl⟩
    rw [h2]
    simp only [printed, padded, List.append_assoc, List.cons_append, List.nil_append]
  | .custom, .bytes b =>
    rw [of_same_bytes hs]
    refine ⟨_, _, [], ?_, hgap, rfl⟩
    rw [← reprList_eq]
    simp only [printVal, printed, padded, List.append_assoc]
  | .other s, _ => exact absurd rfl (ht s)
  | .int, .bytes _ | .int, .optional _ | .int, .list _ | .int, .obj _ _ => cases h
  | .custom, .int _ | .custom, .optional _ | .custom, .list _ | .custom, .obj _ _ => cases h
  | .enum _, .bytes _ | .enum _, .optional _ | .enum _, .list _ | .enum _, .obj _ _ => cases h
  | .struct _, .int _ | .struct _, .bytes _ | .struct _, .optional _ | .struct _, .list _ => cases h
  | .list _, .int _ | .list _, .bytes _ | .list _, .optional _ | .list _, .obj _ _ => cases h

/-- Every attribute has its line. -/
theorem show_line {o : Obj} (h : o.show.returned = true) {x : String × Pdl.Value} (hx : x ∈ attributes o) (hp : x.1 ≠ "payload") :
    ∃ a mark gap text b, o.show.text = a ++ '\n' :: mark ++ x.1.toList ++ gap ++ text ++ '\n' :: b ∧
      (mark = "├── ".toList ∨ mark = "└── ".toList) ∧ (∀ c ∈ gap, c = ' ') ∧ Line text x.2 := by
  obtain ⟨vs, e1, e2, e3⟩ := show_eq o
  obtain ⟨c, ws, f1, f2, f3, f4⟩ := fields_obj o
  rw [e1] at f1
  cases f1
  obtain ⟨v, g1, g2⟩ := f3 x hx (no_lengths o _ (List.mem_map_of_mem hx))
  rw [List.zip_map_left, List.mem_map] at g1
  obtain ⟨⟨f, v'⟩, g3, g4⟩ := g1
  obtain ⟨xn, xv⟩ := x
  simp only [Prod.map_apply, id_eq, Prod.mk.injEq] at g4
  obtain ⟨rfl, rfl⟩ := g4
  dsimp only at hp g2 ⊢
  rw [e3] at h
  obtain ⟨-, h1, h2⟩ := then_returned h
  obtain ⟨a, b, last, k1, k2, k3⟩ := showFields_part h1 g3 hp
  obtain ⟨gap, text, b', l1, l2, l3⟩ := printVal_line k2 (other_payload (class_ne o) f (List.of_mem_zip g3).1 hp) g2
  have key : ∃ a', (classOf o).name.toList ++ ['\n'] ++ a = a' ++ ['\n'] := by
    rcases k1 with rfl | ⟨s, rfl⟩
    · exact ⟨_, by rw [List.append_nil]⟩
    · exact ⟨_, (List.append_assoc ..).symm⟩
  obtain ⟨a', ha⟩ := key
  refine ⟨a', branch last, gap, text, b' ++ b, ?_, by cases last <;> simp [branch], l2, l3⟩
  rw [e3, h2, k3, l1]
  have : (printed (classOf o).name.toList).text = (classOf o).name.toList ++ ['\n'] := rfl
  rw [this]
  have ha' := congrArg (· ++ (branch last ++ (f.1.toList ++ (gap ++ (text ++ '\n' :: (b' ++ b)))))) ha
  simpa only [List.append_assoc, List.nil_append, List.cons_append] using ha'

end Pica.PyShow
