import Verif.Proofs.PyShow
/-! The printed text of an object determines what is printed of it. -/

namespace Pica.PyShow
open Py Spec

theorem number_told {n n' : Nat} {r r' : Text}
    (h : hexDigits n ++ ([')'] ++ (['\n'] ++ r)) = hexDigits n' ++ ([')'] ++ (['\n'] ++ r'))) : n = n' ∧ r = r' := by
  obtain ⟨h1, h2⟩ := split_at (fun h => (hexDigits_chars n _ h).1 rfl) (fun h => (hexDigits_chars n' _ h).1 rfl) h
  exact ⟨hexDigits_inj h1, by simpa using h2⟩

theorem fields_rest_off {pre : Text} {align : Nat} {fs : List Field} {vs : List Val} {r : Text}
    (hn : ∀ f ∈ fs, f.1 ≠ "payload") (ht : TypedFields fs vs) (hr : (showFields pre align fs vs).returned = true)
    (ho : Off pre r) : Off (pre ++ stem fs.isEmpty) ((showFields pre align fs vs).text ++ r) := by
  cases fs with
  | nil => unfold showFields; simpa using ho.deeper _
  | cons f fs =>
    cases vs with
    | nil => unfold TypedFields at ht; exact ht.elim
    | cons v vs =>
      unfold showFields at hr ⊢
      rw [if_neg (hn f (by simp))] at hr ⊢
      obtain ⟨h1, -, h3⟩ := then_returned hr
      obtain ⟨s, hs⟩ := printVal_head h1
      rw [h3, hs, List.append_assoc, List.append_assoc]
      exact off_branch _ _ _

theorem elements_rest_off {pp : Text} {t : FieldType} {i : Nat} {vs : List Val} {r : Text}
    (hr : (showElements pp t i vs).returned = true) (ho : Off pp r) :
    Off (pp ++ stem vs.isEmpty) ((showElements pp t i vs).text ++ r) := by
  cases vs with
  | nil => unfold showElements; simpa using ho.deeper _
  | cons v vs =>
    unfold showElements at hr ⊢
    obtain ⟨h1, -, h3⟩ := then_returned hr
    obtain ⟨s, hs⟩ := printVal_head h1
    rw [h3, hs, List.append_assoc, List.append_assoc]
    exact off_branch _ _ _

/-- A nonempty list is printed with a line below the field. -/
theorem elements_cons_head {pp : Text} {t : FieldType} {i : Nat} {v : Val} {vs : List Val}
    (hr : (showElements pp t i (v :: vs)).returned = true) :
    ∃ s, (showElements pp t i (v :: vs)).text = pp ++ branch vs.isEmpty ++ s := by
  unfold showElements at hr ⊢
  obtain ⟨h1, -, h3⟩ := then_returned hr
  obtain ⟨s, hs⟩ := printVal_head h1
  exact ⟨_, by rw [h3, hs, List.append_assoc]⟩

mutual

theorem printVal_told (p pp name : Text) (align : Nat) (t : FieldType) (v v' : Val) (r r' : Text) (ht : Typed t v)
    (ht' : Typed t v') (hr : (printVal p pp name align t v).returned = true)
    (hr' : (printVal p pp name align t v').returned = true) (ho : Off pp r) (ho' : Off pp r')
    (h : (printVal p pp name align t v).text ++ r = (printVal p pp name align t v').text ++ r') :
    hide t v = hide t v' ∧ r = r' := by
  match t, v, v' with
  | .int, .int n, .int n' =>
    simp only [printVal, printed, List.append_assoc, List.append_cancel_left_eq] at h
    obtain ⟨h1, h2⟩ := split_at (c := ' ') (not_mem_digits n (by decide)) (not_mem_digits n' (by decide)) h
    have := digits_inj h1
    subst this
    exact ⟨rfl, by simpa using h2⟩
  | .enum e, .int n, .int n' =>
    unfold printVal at hr hr' h
    cases hm : memberName e n with
    | none => simp [hm] at hr
    | some m =>
      cases hm' : memberName e n' with
      | none => simp [hm'] at hr'
      | some m' =>
        simp only [hm, hm', printed, List.append_assoc, List.append_cancel_left_eq] at h
        obtain ⟨h1, h2⟩ := split_at (c := ' ') (memberName_space hm) (memberName_space hm') h
        obtain ⟨h3, h4⟩ := number_told (List.append_cancel_left (as := "(0x".toList) h2)
        subst h3
        exact ⟨rfl, h4⟩
  | .custom, .bytes b, .bytes b' =>
    simp only [printVal, printed, List.append_assoc, List.append_cancel_left_eq] at h
    obtain ⟨h1, h2⟩ := split_at (c := '\n') (newline_reprList b) (newline_reprList b') h
    rw [reprList_inj h1]
    exact ⟨rfl, h2⟩
  | .other x, v, v' =>
    have e : ∀ w, printVal p pp name align (.other x) w =
        printed (p ++ padded name align ++ " = ##".toList ++ x.toList ++ "##".toList) := by intro w; cases w <;> rfl
    rw [e, e] at h
    have e : ∀ w, hide (.other x) w = .optional none := by intro w; cases w <;> rfl
    rw [e, e]
    exact ⟨rfl, List.append_cancel_left h⟩
  | .list t, .list vs, .list vs' =>
    unfold printVal at hr hr' h
    unfold Typed at ht ht'
    obtain ⟨-, h1, h2⟩ := then_returned hr
    obtain ⟨-, h1', h2'⟩ := then_returned hr'
    rw [h2, h2', List.append_assoc, List.append_assoc] at h
    obtain ⟨h3, h4⟩ := showElements_told pp t 0 vs vs' r r' ht ht' h1 h1' ho ho' (List.append_cancel_left h)
    exact ⟨by unfold hide; rw [h3], h4⟩
  | .struct c, .obj d vs, .obj d' vs' =>
    unfold printVal at hr hr' h
    unfold Typed at ht ht'
    obtain ⟨rfl, ht⟩ := ht
    obtain ⟨rfl, ht'⟩ := ht'
    obtain ⟨-, h1, h2⟩ := then_returned hr
    obtain ⟨-, h1', h2'⟩ := then_returned hr'
    obtain ⟨-, h3, h4⟩ := then_returned h1
    obtain ⟨-, h3', h4'⟩ := then_returned h1'
    rw [h2, h2', h4, h4'] at h
    simp only [List.append_assoc, List.append_cancel_left_eq] at h
    obtain ⟨x, fs, hc, hn⟩ := fields_head c
    rw [hc] at ht ht' h3 h3' h
    obtain ⟨h5, h6⟩ := showHead_told pp c.align x fs vs vs' r r' hn ht ht' h3 h3' ho ho' h
    rw [← hc] at h5
    exact ⟨by unfold hide; rw [h5], h6⟩
  | .int, .bytes _, _ | .int, .optional _, _ | .int, .list _, _ | .int, .obj _ _, _ => exact ht.elim
  | .int, .int _, .bytes _ | .int, .int _, .optional _ | .int, .int _, .list _ | .int, .int _, .obj _ _ => exact ht'.elim
  | .enum _, .bytes _, _ | .enum _, .optional _, _ | .enum _, .list _, _ | .enum _, .obj _ _, _ => exact ht.elim
  | .enum _, .int _, .bytes _ | .enum _, .int _, .optional _ | .enum _, .int _, .list _ | .enum _, .int _, .obj _ _ =>
    exact ht'.elim
  | .custom, .int _, _ | .custom, .optional _, _ | .custom, .list _, _ | .custom, .obj _ _, _ => exact ht.elim
  | .custom, .bytes _, .int _ | .custom, .bytes _, .optional _ | .custom, .bytes _, .list _ | .custom, .bytes _, .obj _ _ =>
    exact ht'.elim
  | .list _, .int _, _ | .list _, .optional _, _ | .list _, .bytes _, _ | .list _, .obj _ _, _ => exact ht.elim
  | .list _, .list _, .int _ | .list _, .list _, .optional _ | .list _, .list _, .bytes _ | .list _, .list _, .obj _ _ =>
    exact ht'.elim
  | .struct _, .int _, _ | .struct _, .optional _, _ | .struct _, .list _, _ | .struct _, .bytes _, _ => exact ht.elim
  | .struct _, .obj _ _, .int _ | .struct _, .obj _ _, .optional _ | .struct _, .obj _ _, .list _
  | .struct _, .obj _ _, .bytes _ => exact ht'.elim
termination_by sizeOf v

theorem showHead_told (pre : Text) (align : Nat) (x : String) (fs : List Field) (vs vs' : List Val) (r r' : Text)
    (hn : ∀ f ∈ fs, f.1 ≠ "payload")
    (ht : TypedFields (("payload", .other x) :: fs) vs) (ht' : TypedFields (("payload", .other x) :: fs) vs')
    (hr : (showFields pre align (("payload", .other x) :: fs) vs).returned = true)
    (hr' : (showFields pre align (("payload", .other x) :: fs) vs').returned = true) (ho : Off pre r) (ho' : Off pre r')
    (h : (showFields pre align (("payload", .other x) :: fs) vs).text ++ r =
      (showFields pre align (("payload", .other x) :: fs) vs').text ++ r') :
    hideFields (("payload", .other x) :: fs) vs = hideFields (("payload", .other x) :: fs) vs' ∧ r = r' := by
  match vs, vs' with
  | [], _ => unfold TypedFields at ht; exact ht.elim
  | _ :: _, [] => unfold TypedFields at ht'; exact ht'.elim
  | v :: vs, v' :: vs' =>
    unfold showFields at hr hr' h
    unfold TypedFields at ht ht'
    rw [if_pos rfl] at hr hr' h
    rw [if_pos rfl] at h
    obtain ⟨-, h1, h2⟩ := then_returned hr
    obtain ⟨-, h1', h2'⟩ := then_returned hr'
    rw [h2, h2', List.nil_append, List.nil_append] at h
    obtain ⟨h3, h4⟩ := showFields_told pre align fs vs vs' r r' hn ht.2 ht'.2 h1 h1' ho ho' h
    unfold hideFields
    have e : ∀ w, hide (.other x) w = .optional none := by intro w; cases w <;> rfl
    rw [h3, e, e]
    exact ⟨rfl, h4⟩
termination_by sizeOf vs

theorem showFields_told (pre : Text) (align : Nat) (fs : List Field) (vs vs' : List Val) (r r' : Text)
    (hn : ∀ f ∈ fs, f.1 ≠ "payload") (ht : TypedFields fs vs) (ht' : TypedFields fs vs')
    (hr : (showFields pre align fs vs).returned = true) (hr' : (showFields pre align fs vs').returned = true)
    (ho : Off pre r) (ho' : Off pre r')
    (h : (showFields pre align fs vs).text ++ r = (showFields pre align fs vs').text ++ r') :
    hideFields fs vs = hideFields fs vs' ∧ r = r' := by
  match fs, vs, vs' with
  | [], [], [] => unfold showFields at h; exact ⟨rfl, by simpa using h⟩
  | [], _ :: _, _ => unfold TypedFields at ht; exact ht.elim
  | [], [], _ :: _ => unfold TypedFields at ht'; exact ht'.elim
  | _ :: _, [], _ => unfold TypedFields at ht; exact ht.elim
  | _ :: _, _ :: _, [] => unfold TypedFields at ht'; exact ht'.elim
  | f :: fs, v :: vs, v' :: vs' =>
    have hf := hn f (by simp)
    have hn := fun g hg => hn g (List.mem_cons_of_mem f hg)
    unfold showFields at hr hr' h
    unfold TypedFields at ht ht'
    rw [if_neg hf] at hr hr' h
    rw [if_neg hf] at h
    obtain ⟨h0, h1, h2⟩ := then_returned hr
    obtain ⟨h0', h1', h2'⟩ := then_returned hr'
    rw [h2, h2', List.append_assoc, List.append_assoc] at h
    obtain ⟨h3, h4⟩ := printVal_told _ _ _ align f.2 v v' _ _ ht.1 ht'.1 h0 h0' (fields_rest_off hn ht.2 h1 ho)
      (fields_rest_off hn ht'.2 h1' ho') h
    obtain ⟨h5, h6⟩ := showFields_told pre align fs vs vs' r r' hn ht.2 ht'.2 h1 h1' ho ho' h4
    unfold hideFields
    rw [h3, h5]
    exact ⟨rfl, h6⟩
termination_by sizeOf vs

theorem showElements_told (pp : Text) (t : FieldType) (i : Nat) (vs vs' : List Val) (r r' : Text)
    (ht : TypedList t vs) (ht' : TypedList t vs')
    (hr : (showElements pp t i vs).returned = true) (hr' : (showElements pp t i vs').returned = true)
    (ho : Off pp r) (ho' : Off pp r')
    (h : (showElements pp t i vs).text ++ r = (showElements pp t i vs').text ++ r') :
    hideList t vs = hideList t vs' ∧ r = r' := by
  match vs, vs' with
  | [], [] => unfold showElements at h; exact ⟨rfl, by simpa using h⟩
  | [], v' :: vs' =>
    obtain ⟨s, hs⟩ := elements_cons_head hr'
    rw [hs] at h
    unfold showElements at h
    simp only [List.nil_append] at h
    rw [h, List.append_assoc (pp ++ _)] at ho
    exact absurd ho (not_off_branch _ _ _)
  | v :: vs, [] =>
    obtain ⟨s, hs⟩ := elements_cons_head hr
    rw [hs] at h
    unfold showElements at h
    simp only [List.nil_append] at h
    rw [← h, List.append_assoc (pp ++ _)] at ho'
    exact absurd ho' (not_off_branch _ _ _)
  | v :: vs, v' :: vs' =>
    have he : vs.isEmpty = vs'.isEmpty := by
      obtain ⟨s, hs⟩ := elements_cons_head hr
      obtain ⟨s', hs'⟩ := elements_cons_head hr'
      rw [hs, hs'] at h
      simp only [List.append_assoc, List.append_cancel_left_eq] at h
      exact branch_inj h
    unfold showElements at hr hr' h
    unfold TypedList at ht ht'
    rw [← he] at hr' h
    obtain ⟨h0, h1, h2⟩ := then_returned hr
    obtain ⟨h0', h1', h2'⟩ := then_returned hr'
    rw [h2, h2', List.append_assoc _ _ r, List.append_assoc _ _ r'] at h
    obtain ⟨h3, h4⟩ := printVal_told _ _ _ 5 t v v' _ _ ht.1 ht'.1 h0 h0' (elements_rest_off h1 ho)
      (by rw [he]; exact elements_rest_off h1' ho') h
    obtain ⟨h5, h6⟩ := showElements_told pp t (i + 1) vs vs' r r' ht.2 ht'.2 h1 h1' ho ho' h4
    unfold hideList
    rw [h3, h5]
    exact ⟨rfl, h6⟩
termination_by sizeOf vs

end

/-! ### The same text -/

mutual

theorem printVal_hide (p pp name : Text) (align : Nat) (t : FieldType) (v : Val) :
    printVal p pp name align t (hide t v) = printVal p pp name align t v := by
  have e : ∀ x w, printVal p pp name align (.other x) w =
      printed (p ++ padded name align ++ " = ##".toList ++ x.toList ++ "##".toList) := by intro x w; cases w <;> rfl
  match t, v with
  | .other x, v => rw [e, e]
  | .struct _, .obj d vs =>
    unfold hide printVal
    rw [showFields_hide pp d.align d.fields vs]
  | .list t, .list vs =>
    unfold hide printVal
    rw [showElements_hide pp t 0 vs]
  | .int, .int _ | .int, .bytes _ | .int, .optional _ | .int, .list _ | .int, .obj _ _ => rfl
  | .enum _, .int _ | .enum _, .bytes _ | .enum _, .optional _ | .enum _, .list _ | .enum _, .obj _ _ => rfl
  | .custom, .int _ | .custom, .bytes _ | .custom, .optional _ | .custom, .list _ | .custom, .obj _ _ => rfl
  | .list _, .int _ | .list _, .bytes _ | .list _, .optional _ | .list _, .obj _ _ => rfl
  | .struct _, .int _ | .struct _, .bytes _ | .struct _, .optional _ | .struct _, .list _ => rfl
termination_by sizeOf v

theorem showFields_hide (pre : Text) (align : Nat) (fs : List Field) (vs : List Val) :
    showFields pre align fs (hideFields fs vs) = showFields pre align fs vs := by
  match fs, vs with
  | [], [] => rfl
  | [], _ :: _ => rfl
  | _ :: _, [] => rfl
  | f :: fs, v :: vs =>
    unfold hideFields showFields
    rw [printVal_hide _ _ _ align f.2 v, showFields_hide pre align fs vs]
termination_by sizeOf vs

theorem showElements_hide (pp : Text) (t : FieldType) (i : Nat) (vs : List Val) :
    showElements pp t i (hideList t vs) = showElements pp t i vs := by
  match vs with
  | [] => rfl
  | v :: vs =>
    have he : (hideList t vs).isEmpty = vs.isEmpty := by cases vs <;> rfl
    unfold hideList showElements
    rw [he, printVal_hide _ _ _ 5 t v, showElements_hide pp t (i + 1) vs]
termination_by sizeOf vs

end

/-- The names of the classes. -/
theorem name_inj {c d : Class} (h : c.name = d.name) : c = d := by
  have key : ∀ i < 100, ∀ j < 100, (Class.ofNat i).name = (Class.ofNat j).name → Class.ofNat i = Class.ofNat j := by
    decide +kernel
  have hi : ∀ c : Class, c.ctorIdx < 100 ∧ Class.ofNat c.ctorIdx = c := by intro c; cases c <;> exact ⟨by decide, rfl⟩
  have := key _ (hi c).1 _ (hi d).1
  rw [(hi c).2, (hi d).2] at this
  exact this h

end Pica.PyShow
