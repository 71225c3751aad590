import Verif.Proofs.JsonBody
/-! What becomes of a body that is cut off. -/

namespace Pica.JsonBody
open Spec.JsonText

theorem skip_append {b t : Bytes} {c : UInt8} (h : skip b = c :: t) (s : Bytes) : skip (b ++ s) = c :: (t ++ s) := by
  obtain ⟨w, hw, hb⟩ := skip_spec b
  rw [h] at hb
  rw [hb, List.append_assoc, skip_blank hw, List.cons_append, skip_dark (dark_skip h)]

theorem skip_cut {b s t' : Bytes} {c : UInt8} (h : skip (b ++ s) = c :: t') :
    skip b = [] ∨ ∃ t, skip b = c :: t ∧ t' = t ++ s := by
  match hb : skip b with
  | [] => exact .inl rfl
  | x :: t =>
    rw [skip_append hb] at h
    cases h
    exact .inr ⟨t, rfl, rfl⟩

theorem ident_cut {x b s r' : Bytes} (h : ident x (b ++ s) = .ok r') :
    ident x b = .error .eof ∨ ∃ r, ident x b = .ok r ∧ r' = r ++ s := by
  induction x generalizing b with
  | nil => cases h; exact .inr ⟨b, rfl, rfl⟩
  | cons x xs ih =>
    cases b with
    | nil => exact .inl rfl
    | cons c b =>
      rw [List.cons_append, ident] at h
      rw [ident]
      split at h
      · rename_i hc
        rw [if_pos hc]
        exact ih h
      · cases h

theorem ignoreStr_cut {b s r' : Bytes} (h : ignoreStr (b ++ s) = .ok r') :
    ignoreStr b = .error .eof ∨ ∃ r, ignoreStr b = .ok r ∧ r' = r ++ s := by
  fun_induction ignoreStr b
  · exact .inl rfl
  · rw [List.cons_append, ignoreStr.eq_def] at h
    cases h
    exact .inr ⟨_, rfl, rfl⟩
  · exact .inl rfl
  · rename_i hx _ ih
    simp only [List.cons_append] at h
    rw [ignoreStr.eq_def] at h
    dsimp only at h
    rw [if_neg (by decide), if_pos rfl, if_pos rfl, if_pos hx] at h
    exact ih h
  · rename_i hx _
    simp only [List.cons_append] at h
    rw [ignoreStr.eq_def] at h
    dsimp only at h
    rw [if_neg (by decide), if_pos rfl, if_pos rfl, if_neg hx] at h
    cases h
  · exact .inl rfl
  · rename_i h1 h2 _ ih
    simp only [List.cons_append] at h
    rw [ignoreStr.eq_def] at h
    dsimp only at h
    rw [if_neg (by decide), if_pos rfl, if_neg h1, if_pos h2] at h
    exact ih h
  · rename_i h1 h2 _
    simp only [List.cons_append] at h
    rw [ignoreStr.eq_def] at h
    dsimp only at h
    rw [if_neg (by decide), if_pos rfl, if_neg h1, if_neg h2] at h
    cases h
  · rename_i h1 h2 h3
    rw [List.cons_append, ignoreStr.eq_def] at h
    dsimp only at h
    rw [if_neg h1, if_neg h2, if_pos h3] at h
    cases h
  · rename_i h1 h2 h3 ih
    rw [List.cons_append, ignoreStr.eq_def] at h
    dsimp only at h
    rw [if_neg h1, if_neg h2, if_neg h3] at h
    exact ih h

theorem before_cut {u b s v r' : Bytes} {x : Res (Bytes × Bytes)} (h : before u x = .ok (v, r'))
    (ih : ∀ v, x = .ok (v, r') → parseStr b = .error .eof ∨ ∃ r, parseStr b = .ok (v, r) ∧ r' = r ++ s) :
    before u (parseStr b) = .error .eof ∨ ∃ r, before u (parseStr b) = .ok (v, r) ∧ r' = r ++ s := by
  obtain ⟨t, ht, rfl⟩ := before_ok.mp h
  rcases ih t ht with h | ⟨r, h, hr⟩
  · exact .inl (by rw [h]; rfl)
  · exact .inr ⟨r, by rw [h]; rfl, hr⟩

theorem parseStr_cut {b s v r' : Bytes} (h : parseStr (b ++ s) = .ok (v, r')) :
    parseStr b = .error .eof ∨ ∃ r, parseStr b = .ok (v, r) ∧ r' = r ++ s := by
  fun_induction parseStr b generalizing v <;> first
    | exact .inl rfl
    | skip
  all_goals simp only [List.cons_append] at h
  all_goals rw [parseStr.eq_def] at h
  all_goals dsimp only at h
  all_goals (first
    | (simp_all; done)
    | (rename_i ih; exact before_cut (by simpa [*] using h) fun v hv => ih hv))

theorem key_cut {b s v r' : Bytes} (h : key (b ++ s) = .ok (v, r')) :
    key b = .error .eof ∨ ∃ r, key b = .ok (v, r) ∧ r' = r ++ s := by
  unfold key at h ⊢
  split at h
  · cases h
  · rename_i hp
    split at h
    · rename_i hu
      cases h
      rcases parseStr_cut hp with h | ⟨r, h, hr⟩
      · exact .inl (by rw [h])
      · refine .inr ⟨r, ?_, hr⟩
        rw [h]
        dsimp only
        rw [if_pos hu]
    · cases h

theorem parseNumber_cut {p : Bool} {m : Nat} {d : UInt8} {t s r' : Bytes} {n : Int}
    (h : parseNumber p m (d :: t ++ s) = .ok (.int n, r')) :
    parseNumber p m (d :: t) = .ok (.int n, d :: t) ∧ r' = d :: t ++ s := by
  have h' := parseNumber_int h
  refine ⟨?_, h'.1.symm⟩
  rw [List.cons_append, parseNumber] at h
  rw [parseNumber]
  split at h
  · cases decimal_float h
  · rename_i h1
    rw [if_neg h1]
    split at h
    · cases exponent_float h
    · rename_i h2
      rw [if_neg h2]
      simp only [Except.ok.injEq, Prod.mk.injEq] at h ⊢
      exact ⟨h.1, trivial⟩

theorem digits_more (n : Nat) (ds s : Bytes) (h : ∀ c ∈ ds, Digit c) :
    ds.foldl (fun n c => 10 * n + (c.toNat - 48)) n ≤ (digits n (ds ++ s)).1 := by
  obtain ⟨es, he, hs, hn, -⟩ := digits_spec 0 s
  have := digits_append (ds := ds ++ es) n (by
    intro c hc
    rcases List.mem_append.mp hc with hc | hc
    · exact h c hc
    · exact he c hc) hn
  rw [List.append_assoc, ← hs] at this
  rw [this, List.foldl_append]
  exact foldl_ge es _

theorem parseInteger_cut {p : Bool} {b s r' : Bytes} {n : Int} (h : parseInteger p (b ++ s) = .ok (.int n, r')) :
    b = [] ∨ (∃ m : Int, parseInteger p b = .ok (.int m, []) ∧ (0 ≤ m ∧ m ≤ n ∨ n ≤ m ∧ m ≤ 0)) ∨
      ∃ r, parseInteger p b = .ok (.int n, r) ∧ r' = r ++ s := by
  cases b with
  | nil => exact .inl rfl
  | cons c t =>
    right
    rw [List.cons_append, parseInteger.eq_def] at h
    rw [parseInteger.eq_def]
    dsimp only at h ⊢
    split at h
    · rename_i hc
      rw [if_pos hc]
      cases t with
      | nil =>
        right
        refine ⟨[], ?_⟩
        rw [List.nil_append] at h
        have key : parseNumber p 0 s = .ok (.int n, r') := by
          cases s with
          | nil => exact h
          | cons d s =>
            dsimp only at h
            split at h
            · cases h
            · exact h
        obtain ⟨h1, h2 | h2⟩ := parseNumber_int key
        · obtain ⟨rfl, rfl⟩ := h2
          exact ⟨rfl, h1.symm⟩
        · exact absurd rfl h2.2.1
      | cons d t =>
        right
        refine ⟨d :: t, ?_⟩
        rw [List.cons_append] at h
        dsimp only at h ⊢
        split at h
        · cases h
        · rename_i hd
          rw [if_neg hd]
          exact parseNumber_cut h
    · rename_i hc
      rw [if_neg hc]
      split at h
      · rename_i hd
        rw [if_pos hd]
        obtain ⟨ds, h1, h2, h3, h4⟩ := digits_spec (c.toNat - 48) t
        match hx : (digits (c.toNat - 48) t).2 with
        | [] =>
          left
          rw [hx, List.append_nil] at h2
          rw [h2] at h
          rw [h4]
          clear h4 h3 hx h2 t
          have hpos : 0 < ds.foldl (fun n c => 10 * n + (c.toNat - 48)) (c.toNat - 48) := by
            refine Nat.lt_of_lt_of_le ?_ (foldl_ge ds _)
            have := isDigit_iff.mp hd
            simp only [Digit, UInt8.le_iff_toNat_le, UInt8.reduceToNat] at this
            have : c.toNat ≠ 48 := fun e => hc (UInt8.toNat_inj.mp e)
            omega
          have hge := digits_more (c.toNat - 48) ds s h1
          obtain ⟨-, hn⟩ := parseNumber_int h
          generalize ds.foldl (fun n c => 10 * n + (c.toNat - 48)) (c.toNat - 48) = m at *
          rcases hn with ⟨rfl, hn⟩ | ⟨rfl, h0, hn⟩
          · exact ⟨m, rfl, by omega⟩
          · refine ⟨-m, ?_, by omega⟩
            rw [parseNumber, if_neg (by simp), if_neg (by omega)]
        | d :: y =>
          right
          rw [hx] at h2
          have hda := digits_append (r := d :: (y ++ s)) (c.toNat - 48) h1 (by
            rw [hx] at h3
            intro c t e
            cases e
            exact h3 d y rfl)
          refine ⟨d :: y, ?_⟩
          have e : t ++ s = ds ++ d :: (y ++ s) := by rw [h2]; simp
          rw [e, hda, ← h4] at h
          exact parseNumber_cut h
      · cases h

theorem number_cut {lo hi n : Int} {b s r' : Bytes} (h : number lo hi (b ++ s) = .ok (n, r')) (h1 : lo ≤ 0) (h2 : 0 ≤ hi) :
    number lo hi b = .error .eof ∨ (∃ m, number lo hi b = .ok (m, [])) ∨ ∃ r, number lo hi b = .ok (n, r) ∧ r' = r ++ s := by
  have hv : ∀ {p b r'}, visit lo hi (parseInteger p (b ++ s)) = .ok (n, r') →
      visit lo hi (parseInteger p b) = .error .eof ∨ (∃ m, visit lo hi (parseInteger p b) = .ok (m, [])) ∨
        ∃ r, visit lo hi (parseInteger p b) = .ok (n, r) ∧ r' = r ++ s := by
    intro p b r' h
    match hp : parseInteger p (b ++ s) with
    | .error e => rw [hp] at h; cases h
    | .ok (.float, _) => rw [hp] at h; cases h
    | .ok (.int m, t) =>
      rw [hp, visit] at h
      split at h
      · rename_i hm
        cases h
        rcases parseInteger_cut hp with rfl | ⟨m, h, hmn⟩ | ⟨r, h, hr⟩
        · exact .inl rfl
        · refine .inr (.inl ⟨m, ?_⟩)
          rw [h, visit, if_pos (by omega)]
        · refine .inr (.inr ⟨r, ?_, hr⟩)
          rw [h, visit, if_pos hm]
      · cases h
  unfold number at h ⊢
  split at h
  · cases h
  · rename_i c t ht
    rcases skip_cut ht with hs | ⟨u, hs, rfl⟩
    · exact .inl (by rw [hs])
    · rw [hs]
      dsimp only
      split at h
      · rename_i hc
        rw [if_pos hc]
        exact hv h
      · rename_i hc
        rw [if_neg hc]
        split at h
        · rename_i hd
          rw [if_pos hd]
          exact hv h
        · cases h

/-- The texts that end inside a number, before the next digit. -/
def Torn (b : Bytes) : Prop := ∃ u c, b = u ++ [c] ∧ (c = 45 ∨ c = 46 ∨ c = 101 ∨ c = 69 ∨ c = 43)

theorem Torn.append {b : Bytes} (h : Torn b) (a : Bytes) : Torn (a ++ b) := by
  obtain ⟨u, c, rfl, hc⟩ := h
  exact ⟨a ++ u, c, by simp, hc⟩

theorem Torn.cons {b : Bytes} (h : Torn b) (c : UInt8) : Torn (c :: b) := h.append [c]

theorem Torn.one {c : UInt8} (h : c = 45 ∨ c = 46 ∨ c = 101 ∨ c = 69 ∨ c = 43) : Torn [c] := ⟨[], c, rfl, h⟩

/-- What becomes of a result when the end `s` of the text is cut off. -/
def CutOff (x : Res Bytes) (torn : Prop) (r' s : Bytes) : Prop :=
  x = .error .eof ∨ (x = .error .bad ∧ torn) ∨ x = .ok [] ∨ ∃ r, x = .ok r ∧ r' = r ++ s

theorem CutOff.imp {x : Res Bytes} {p q : Prop} {r' s : Bytes} (h : CutOff x p r' s) (hpq : p → q) : CutOff x q r' s := by
  rcases h with h | ⟨h, hp⟩ | h
  · exact .inl h
  · exact .inr (.inl ⟨h, hpq hp⟩)
  · exact .inr (.inr h)

theorem dropDigits_cut (b s : Bytes) :
    dropDigits b = [] ∨ ∃ u d y, b = u ++ d :: y ∧ dropDigits b = d :: y ∧ dropDigits (b ++ s) = d :: y ++ s := by
  obtain ⟨ds, h1, h2, h3⟩ := dropDigits_spec b
  match hx : dropDigits b with
  | [] => exact .inl rfl
  | d :: y =>
    rw [hx] at h2 h3
    refine .inr ⟨ds, d, y, h2, rfl, ?_⟩
    rw [h2, List.append_assoc]
    refine dropDigits_append h1 ?_
    intro c t e
    cases e
    exact h3 d y rfl

theorem ignoreExponent_cut {b s r' : Bytes} (h : ignoreExponent (b ++ s) = .ok r') :
    CutOff (ignoreExponent b) (b = [] ∨ Torn b) r' s := by
  have aux : ∀ {c : UInt8} {t : Bytes}, (if isDigit c then (.ok (dropDigits (t ++ s)) : Res Bytes) else .error .bad) = .ok r' →
      CutOff (if isDigit c then .ok (dropDigits t) else .error .bad) (b = [] ∨ Torn b) r' s := by
    intro c t h
    split at h
    · rename_i hd
      cases h
      rw [if_pos hd]
      rcases dropDigits_cut t s with h | ⟨u, d, y, -, h, h'⟩
      · exact .inr (.inr (.inl (by rw [h])))
      · exact .inr (.inr (.inr ⟨_, rfl, by rw [h, h']⟩))
    · cases h
  cases b with
  | nil => exact .inr (.inl ⟨rfl, .inl rfl⟩)
  | cons c t =>
    unfold ignoreExponent at h ⊢
    rw [List.cons_append] at h
    dsimp only at h ⊢
    by_cases hc : c = 43 ∨ c = 45
    · rw [if_pos hc] at h ⊢
      cases t with
      | nil => exact .inr (.inl ⟨rfl, .inr (.one (by grind))⟩)
      | cons d t => exact aux h
    · rw [if_neg hc] at h ⊢
      exact aux h

theorem ignoreE_cut {b s r' : Bytes} (h : ignoreE (b ++ s) = .ok r') : CutOff (ignoreE b) (Torn b) r' s := by
  cases b with
  | nil => exact .inr (.inr (.inl rfl))
  | cons c t =>
    rw [List.cons_append, ignoreE] at h
    rw [ignoreE]
    split at h
    · rename_i hc
      rw [if_pos hc]
      refine (ignoreExponent_cut h).imp ?_
      rintro (rfl | ht)
      · exact .one (by grind)
      · exact ht.cons c
    · rename_i hc
      rw [if_neg hc]
      cases h
      exact .inr (.inr (.inr ⟨_, rfl, rfl⟩))

theorem ignoreFraction_cut {b s r' : Bytes} (h : ignoreFraction (b ++ s) = .ok r') :
    CutOff (ignoreFraction b) (Torn b) r' s := by
  cases b with
  | nil => exact .inr (.inr (.inl rfl))
  | cons c t =>
    rw [List.cons_append, ignoreFraction.eq_def] at h
    rw [ignoreFraction.eq_def]
    dsimp only at h ⊢
    by_cases hc : c = 46
    · rw [if_pos hc] at h ⊢
      cases t with
      | nil => exact .inr (.inl ⟨rfl, .one (by grind)⟩)
      | cons d t =>
        rw [List.cons_append] at h
        dsimp only at h ⊢
        split at h
        · rename_i hd
          rw [if_pos hd]
          rcases dropDigits_cut t s with hx | ⟨u, e, y, ht, hx, hy⟩
          · rw [hx]; exact .inr (.inr (.inl rfl))
          · rw [hy] at h
            rw [hx]
            refine (ignoreE_cut h).imp fun h => ?_
            rw [ht]
            exact h.append (c :: d :: u)
        · cases h
    · rw [if_neg hc] at h ⊢
      rw [← List.cons_append] at h
      exact ignoreE_cut h

theorem ignoreInteger_cut {b s r' : Bytes} (h : ignoreInteger (b ++ s) = .ok r') :
    CutOff (ignoreInteger b) (b = [] ∨ Torn b) r' s := by
  cases b with
  | nil => exact .inr (.inl ⟨rfl, .inl rfl⟩)
  | cons c t =>
    rw [List.cons_append, ignoreInteger.eq_def] at h
    rw [ignoreInteger.eq_def]
    dsimp only at h ⊢
    split at h
    · rename_i hc
      rw [if_pos hc]
      cases t with
      | nil => exact .inr (.inr (.inl rfl))
      | cons d t =>
        rw [List.cons_append] at h
        dsimp only at h ⊢
        split at h
        · cases h
        · rename_i hd
          rw [if_neg hd]
          rw [← List.cons_append] at h
          exact (ignoreFraction_cut h).imp fun h => .inr (h.cons c)
    · rename_i hc
      rw [if_neg hc]
      split at h
      · rename_i hd
        rw [if_pos hd]
        rcases dropDigits_cut t s with hx | ⟨u, e, y, ht, hx, hy⟩
        · rw [hx]; exact .inr (.inr (.inl rfl))
        · rw [hy] at h
          rw [hx]
          refine (ignoreFraction_cut h).imp fun h => .inr ?_
          rw [ht]
          exact h.append (c :: u)
      · cases h

theorem cutOff_of {x : Res Bytes} {p : Prop} {r' s : Bytes} (h : x = .error .eof ∨ ∃ r, x = .ok r ∧ r' = r ++ s) :
    CutOff x p r' s := by
  rcases h with h | h
  · exact .inl h
  · exact .inr (.inr (.inr h))

theorem ignoreScalar_cut {c : UInt8} {b s r' : Bytes} (h : ignoreScalar c (b ++ s) = .ok r') :
    CutOff (ignoreScalar c b) (Torn (c :: b)) r' s := by
  unfold ignoreScalar at h ⊢
  by_cases h1 : c = 110
  · rw [if_pos h1] at h ⊢
    exact cutOff_of (ident_cut h)
  rw [if_neg h1] at h ⊢
  by_cases h2 : c = 116
  · rw [if_pos h2] at h ⊢
    exact cutOff_of (ident_cut h)
  rw [if_neg h2] at h ⊢
  by_cases h3 : c = 102
  · rw [if_pos h3] at h ⊢
    exact cutOff_of (ident_cut h)
  rw [if_neg h3] at h ⊢
  by_cases h4 : c = 45
  · rw [if_pos h4] at h ⊢
    refine (ignoreInteger_cut h).imp ?_
    rintro (rfl | ht)
    · exact .one (by grind)
    · exact ht.cons c
  rw [if_neg h4] at h ⊢
  by_cases h5 : isDigit c = true
  · rw [if_pos h5] at h ⊢
    rw [← List.cons_append] at h
    refine (ignoreInteger_cut h).imp ?_
    rintro (h | ht)
    · cases h
    · exact ht
  rw [if_neg h5] at h ⊢
  by_cases h6 : c = 34
  · rw [if_pos h6] at h ⊢
    exact cutOff_of (ignoreStr_cut h)
  rw [if_neg h6] at h
  cases h

theorem colon_cut {b s r' : Bytes} (h : colon (b ++ s) = .ok r') :
    colon b = .error .eof ∨ ∃ u r, colon b = .ok r ∧ r' = r ++ s ∧ b = u ++ r := by
  unfold colon at h ⊢
  split at h
  · cases h
  · rename_i c t ht
    split at h
    · rename_i hc
      cases h
      rcases skip_cut ht with hs | ⟨u, hs, rfl⟩
      · exact .inl (by rw [hs])
      · obtain ⟨w, -, hw⟩ := skip_spec b
        refine .inr ⟨w ++ [c], u, ?_, rfl, ?_⟩
        · rw [hs]
          dsimp only
          rw [if_pos hc]
        · rw [hs] at hw
          rw [List.append_assoc]
          exact hw
    · cases h

theorem ignoreStr_suffix {b r : Bytes} (h : ignoreStr b = .ok r) : ∃ u, b = u ++ r := by
  obtain ⟨s, -, hs⟩ := ignoreStr_sound h
  exact ⟨s ++ [34], by simp [hs]⟩

theorem ignoreName_eq (b : Bytes) : ignoreName 123 b =
    match skip b with
    | [] => .error .eof
    | c :: r =>
      if c = 34 then
        match ignoreStr r with
        | .error e => .error e
        | .ok r => colon r
      else .error .bad := by
  rw [ignoreName, if_pos rfl]
  rfl

theorem ignoreName_cut {f : UInt8} {b s r' : Bytes} (h : ignoreName f (b ++ s) = .ok r') :
    ignoreName f b = .error .eof ∨ ∃ u r, ignoreName f b = .ok r ∧ r' = r ++ s ∧ b = u ++ r := by
  by_cases hf : f = 123
  · subst hf
    rw [ignoreName_eq] at h ⊢
    split at h
    · cases h
    · rename_i c t ht
      split at h
      · rename_i hc
        rcases skip_cut ht with hs | ⟨u, hs, rfl⟩
        · exact .inl (by rw [hs])
        · obtain ⟨w, -, hw⟩ := skip_spec b
          rw [hs] at hw ⊢
          dsimp only
          rw [if_pos hc]
          split at h
          · cases h
          · rename_i q hq
            rcases ignoreStr_cut hq with hi | ⟨v, hi, rfl⟩
            · exact .inl (by rw [hi])
            · rw [hi]
              dsimp only
              rcases colon_cut h with hk | ⟨a, r, hk, hr, ha⟩
              · exact .inl hk
              · obtain ⟨z, hz⟩ := ignoreStr_suffix hi
                exact .inr ⟨w ++ c :: (z ++ a), r, hk, hr, by rw [hw, hz, ha]; simp⟩
      · cases h
  · rw [ignoreName, if_neg hf] at h
    rw [ignoreName, if_neg hf]
    cases h
    exact .inr ⟨[], b, rfl, rfl, rfl⟩

theorem ignoreScalar_suffix {c : UInt8} {b r : Bytes} (h : ignoreScalar c b = .ok r) : ∃ u, c :: b = u ++ r := by
  have hi : ∀ {b r : Bytes}, ignoreInteger b = .ok r → ∃ u, b = u ++ r := by
    intro b r h
    obtain ⟨w, f, e, h, -⟩ := ignoreInteger_sound h
    exact ⟨w ++ (f ++ e), by simp [h]⟩
  have hc : ∀ {b : Bytes}, (∃ u, b = u ++ r) → ∃ u, c :: b = u ++ r := by
    rintro b ⟨u, rfl⟩
    exact ⟨c :: u, rfl⟩
  unfold ignoreScalar at h
  repeat' split at h
  all_goals first
    | exact hc ⟨_, ident_ok.mp h⟩
    | exact hc (hi h)
    | exact hi h
    | exact hc (ignoreStr_suffix h)
    | cases h

theorem ignore_cut (s : Bytes) (n : Nat) :
    (∀ fs b r', b.length ≤ n → ignoreValue fs (b ++ s) = .ok r' → CutOff (ignoreValue fs b) (Torn b) r' s) ∧
    (∀ comma fs b r', b.length ≤ n → ignoreClose comma fs (b ++ s) = .ok r' → CutOff (ignoreClose comma fs b) (Torn b) r' s) := by
  induction n using Nat.strong_induction_on with
  | _ n ih =>
    have hv : ∀ fs b r', b.length ≤ n → ignoreValue fs (b ++ s) = .ok r' → CutOff (ignoreValue fs b) (Torn b) r' s := by
      intro fs b r' hb h
      rw [ignoreValue_eq] at h ⊢
      split at h
      · cases h
      · rename_i c t ht
        rcases skip_cut ht with hs | ⟨u, hs, rfl⟩
        · exact .inl (by rw [hs])
        obtain ⟨w, -, hw⟩ := skip_spec b
        rw [hs] at hw ⊢
        have hl : u.length < n := by
          rw [hw] at hb; simp at hb; omega
        dsimp only
        split at h
        · rename_i hc
          rw [if_pos hc]
          refine ((ih _ hl).2 _ _ _ _ (Nat.le_refl _) h).imp fun h => ?_
          rw [hw]
          exact (h.cons c).append w
        · rename_i hc
          rw [if_neg hc]
          split at h
          · cases h
          · rename_i q hq
            rcases ignoreScalar_cut hq with h1 | ⟨h1, h2⟩ | h1 | ⟨r, h1, rfl⟩
            · exact .inl (by rw [h1])
            · refine .inr (.inl ⟨by rw [h1], ?_⟩)
              rw [hw]
              exact h2.append w
            · rw [h1]
              dsimp only
              cases fs with
              | nil => rw [ignoreClose_nil]; exact .inr (.inr (.inl rfl))
              | cons f fs => rw [ignoreClose_cons]; exact .inl rfl
            · rw [h1]
              dsimp only
              have hr := ignoreScalar_length h1
              refine ((ih r.length (by omega)).2 _ _ _ _ (Nat.le_refl _) h).imp fun h => ?_
              obtain ⟨z, hz⟩ := ignoreScalar_suffix h1
              rw [hw, hz]
              exact (h.append z).append w
    refine ⟨hv, ?_⟩
    intro comma fs b r' hb h
    cases fs with
    | nil =>
      rw [ignoreClose_nil] at h ⊢
      cases h
      exact .inr (.inr (.inr ⟨b, rfl, rfl⟩))
    | cons f fs =>
      have name : ∀ {b r'}, b.length ≤ n → (match ignoreName f (b ++ s) with
          | .error e => (.error e : Res Bytes)
          | .ok t => ignoreValue (f :: fs) t) = .ok r' →
          CutOff (match ignoreName f b with
            | .error e => .error e
            | .ok t => ignoreValue (f :: fs) t) (Torn b) r' s := by
        intro b r' hb h
        split at h
        · cases h
        · rename_i q hq
          rcases ignoreName_cut hq with h1 | ⟨u, r, h1, rfl, h2⟩
          · exact .inl (by rw [h1])
          · rw [h1]
            dsimp only
            refine (hv _ _ _ ?_ h).imp fun h => ?_
            · rw [h2] at hb; simp at hb; omega
            · rw [h2]; exact h.append u
      rw [ignoreClose_cons] at h ⊢
      split at h
      · cases h
      · rename_i c t ht
        rcases skip_cut ht with hs | ⟨u, hs, rfl⟩
        · exact .inl (by rw [hs])
        obtain ⟨w, -, hw⟩ := skip_spec b
        rw [hs] at hw ⊢
        have hl : u.length < n := by
          rw [hw] at hb; simp at hb; omega
        dsimp only
        by_cases h1 : c = 44 ∧ comma = true
        · rw [if_pos h1] at h ⊢
          refine (name (by omega) h).imp fun h => ?_
          rw [hw]
          exact (h.cons c).append w
        rw [if_neg h1] at h ⊢
        by_cases h2 : c = 93 ∧ f = 91 ∨ c = 125 ∧ f = 123
        · rw [if_pos h2] at h ⊢
          refine ((ih _ hl).2 _ _ _ _ (Nat.le_refl _) h).imp fun h => ?_
          rw [hw]
          exact (h.cons c).append w
        rw [if_neg h2] at h ⊢
        by_cases h3 : comma = true
        · rw [if_pos h3] at h
          cases h
        rw [if_neg h3] at h ⊢
        rw [← List.cons_append] at h
        refine (name (by simp; omega) h).imp fun h => ?_
        rw [hw]
        exact h.append w

theorem ignoreValue_cut {fs b s r' : Bytes} (h : ignoreValue fs (b ++ s) = .ok r') :
    CutOff (ignoreValue fs b) (Torn b) r' s := (ignore_cut s _).1 _ _ _ (Nat.le_refl _) h

theorem field_lo (f : Field) : f.lo ≤ 0 ∧ 0 ≤ f.hi := by cases f <;> decide

theorem nextKey_cut {first : Bool} {b s : Bytes} {o : Option Bytes} (h : nextKey first (b ++ s) = .ok o) :
    nextKey first b = .error .eof ∨ (o = none ∧ nextKey first b = .ok none ∧ skip b ≠ []) ∨
      ∃ u r, nextKey first b = .ok (some r) ∧ o = some (r ++ s) ∧ b = u ++ r := by
  unfold nextKey at h ⊢
  split at h
  · cases h
  · rename_i c t ht
    rcases skip_cut ht with hs | ⟨u, hs, rfl⟩
    · exact .inl (by rw [hs])
    obtain ⟨w, -, hw⟩ := skip_spec b
    rw [hs] at hw ⊢
    dsimp only
    by_cases h1 : c = 125
    · rw [if_pos h1] at h ⊢
      cases h
      exact .inr (.inl ⟨rfl, rfl, by simp⟩)
    rw [if_neg h1] at h ⊢
    by_cases h2 : c = 44 ∧ first = false
    · rw [if_pos h2] at h ⊢
      split at h
      · cases h
      · rename_i d q hq
        rcases skip_cut hq with hs | ⟨v, hs, rfl⟩
        · exact .inl (by rw [hs])
        obtain ⟨w', -, hw'⟩ := skip_spec u
        rw [hs] at hw' ⊢
        dsimp only
        by_cases h3 : d = 34
        · rw [if_pos h3] at h ⊢
          cases h
          exact .inr (.inr ⟨w ++ c :: (w' ++ [d]), v, rfl, rfl, by rw [hw, hw']; simp⟩)
        · rw [if_neg h3] at h; cases h
    rw [if_neg h2] at h ⊢
    by_cases h3 : first = true
    · rw [if_pos h3] at h ⊢
      by_cases h4 : c = 34
      · rw [if_pos h4] at h ⊢
        cases h
        exact .inr (.inr ⟨w ++ [c], u, rfl, rfl, by rw [hw]; simp⟩)
      · rw [if_neg h4] at h; cases h
    · rw [if_neg h3] at h; cases h

theorem parseStr_suffix {b v r : Bytes} (h : parseStr b = .ok (v, r)) : ∃ u, b = u ++ r := by
  fun_induction parseStr b generalizing v <;> first
    | (cases h; done)
    | skip
  · cases h; exact ⟨[34], rfl⟩
  all_goals
    obtain ⟨t, ht, -⟩ := before_ok.mp h
    rename_i ih
    obtain ⟨u, hu⟩ := ih ht
    rw [hu]
    first
      | exact ⟨_ :: _ :: _ :: _ :: _ :: _ :: _ :: _ :: _ :: _ :: _ :: _ :: u, rfl⟩
      | exact ⟨_ :: _ :: _ :: _ :: _ :: _ :: u, rfl⟩
      | exact ⟨_ :: _ :: u, rfl⟩
      | exact ⟨_ :: u, rfl⟩

theorem key_suffix {b v r : Bytes} (h : key b = .ok (v, r)) : ∃ u, b = u ++ r := by
  unfold key at h
  split at h
  · cases h
  · rename_i hp
    split at h
    · cases h; exact parseStr_suffix hp
    · cases h

theorem member_suffix {a a' : Seen} {k b r : Bytes} (h : member a k b = .ok (a', r)) : ∃ u, b = u ++ r := by
  unfold member at h
  repeat' split at h
  all_goals first
    | (cases h; done)
    | skip
  · rename_i h1 _ _ h2
    cases h
    obtain ⟨w, -, h1⟩ := colon_ok h1
    obtain ⟨w', v, u, h2, -⟩ := ignoreValue_sound h2
    exact ⟨w ++ 58 :: (w' ++ u), by rw [h1, h2]; simp⟩
  · rename_i h1 _ _ _ h2
    cases h
    obtain ⟨w, -, h1⟩ := colon_ok h1
    obtain ⟨w', l, -, h2, -⟩ := number_sound h2
    exact ⟨w ++ 58 :: (w' ++ l), by rw [h1, h2]; simp⟩

theorem member_cut {a a' : Seen} {k b s r' : Bytes} (h : member a k (b ++ s) = .ok (a', r')) :
    member a k b = .error .eof ∨ (member a k b = .error .bad ∧ Torn b) ∨ (∃ a'', member a k b = .ok (a'', [])) ∨
      ∃ r, member a k b = .ok (a', r) ∧ r' = r ++ s := by
  unfold member at h ⊢
  cases hk : field k with
  | none =>
    rw [hk] at h
    dsimp only at h ⊢
    split at h
    · cases h
    · rename_i hc
      rcases colon_cut hc with h1 | ⟨u, r, h1, rfl, h2⟩
      · exact .inl (by rw [h1])
      · rw [h1]
        dsimp only
        split at h
        · cases h
        · rename_i hi
          cases h
          rcases ignoreValue_cut hi with h3 | ⟨h3, h4⟩ | h3 | ⟨q, h3, h4⟩
          · exact .inl (by rw [h3])
          · refine .inr (.inl ⟨by rw [h3], ?_⟩)
            rw [h2]
            exact h4.append u
          · exact .inr (.inr (.inl ⟨a, by rw [h3]⟩))
          · exact .inr (.inr (.inr ⟨q, by rw [h3], h4⟩))
  | some f =>
    rw [hk] at h
    dsimp only at h ⊢
    split at h
    · cases h
    · rename_i hf
      rw [if_neg hf]
      split at h
      · cases h
      · rename_i hc
        rcases colon_cut hc with h1 | ⟨u, r, h1, rfl, h2⟩
        · exact .inl (by rw [h1])
        · rw [h1]
          dsimp only
          split at h
          · cases h
          · rename_i hi
            cases h
            rcases number_cut hi (field_lo f).1 (field_lo f).2 with h3 | ⟨m, h3⟩ | ⟨q, h3, h4⟩
            · exact .inl (by rw [h3])
            · exact .inr (.inr (.inl ⟨_, by rw [h3]⟩))
            · exact .inr (.inr (.inr ⟨q, by rw [h3], h4⟩))

theorem members_cut {a a' : Seen} {first : Bool} {b s r' : Bytes} (h : members a first (b ++ s) = .ok (a', r')) :
    members a first b = .error .eof ∨ (members a first b = .error .bad ∧ Torn b) ∨
      ∃ r, members a first b = .ok (a', r) ∧ r' = r ++ s ∧ skip r ≠ [] := by
  induction hn : b.length using Nat.strong_induction_on generalizing a first b with
  | _ n ih =>
    rw [members_eq] at h ⊢
    split at h
    · cases h
    · rename_i hk
      cases h
      rcases nextKey_cut hk with h1 | ⟨-, h1, h2⟩ | ⟨u, r, -, h2, -⟩
      · exact .inl (by rw [h1])
      · rw [h1]
        exact .inr (.inr ⟨b, rfl, rfl, h2⟩)
      · cases h2
    · rename_i t hk
      rcases nextKey_cut hk with h1 | ⟨h1, -⟩ | ⟨u, r, h1, h2, h3⟩
      · exact .inl (by rw [h1])
      · cases h1
      · cases h2
        rw [h1]
        dsimp only
        split at h
        · cases h
        · rename_i k q hq
          rcases key_cut hq with h4 | ⟨v, h4, rfl⟩
          · exact .inl (by rw [h4])
          · rw [h4]
            dsimp only
            obtain ⟨z, hz⟩ := key_suffix h4
            split at h
            · cases h
            · rename_i c d hm
              rcases member_cut hm with h5 | ⟨h5, h6⟩ | ⟨e, h5⟩ | ⟨x, h5, rfl⟩
              · exact .inl (by rw [h5])
              · refine .inr (.inl ⟨by rw [h5], ?_⟩)
                rw [h3, hz]
                exact (h6.append z).append u
              · rw [h5]
                dsimp only
                rw [members_eq]
                exact .inl rfl
              · rw [h5]
                dsimp only
                have l1 := nextKey_length h1
                have l2 := key_length h4
                have l3 := member_length h5
                rcases ih x.length (by omega) h rfl with h7 | ⟨h7, h8⟩ | h7
                · exact .inl h7
                · refine .inr (.inl ⟨h7, ?_⟩)
                  obtain ⟨y, hy⟩ := member_suffix h5
                  rw [h3, hz, hy]
                  exact ((h8.append y).append z).append u
                · exact .inr (.inr h7)

theorem element_cut {first : Bool} {lo hi n : Int} {b s r' : Bytes} (h : element first lo hi (b ++ s) = .ok (some (n, r')))
    (h1 : lo ≤ 0) (h2 : 0 ≤ hi) :
    element first lo hi b = .error .eof ∨ (∃ m, element first lo hi b = .ok (some (m, []))) ∨
      ∃ r, element first lo hi b = .ok (some (n, r)) ∧ r' = r ++ s := by
  have num : ∀ {b : Bytes}, (match number lo hi (b ++ s) with
      | .error e => (.error e : Res (Option (Int × Bytes)))
      | .ok x => .ok (some x)) = .ok (some (n, r')) →
      (match number lo hi b with
        | .error e => (.error e : Res (Option (Int × Bytes)))
        | .ok x => .ok (some x)) = .error .eof ∨
      (∃ m, (match number lo hi b with
        | .error e => (.error e : Res (Option (Int × Bytes)))
        | .ok x => .ok (some x)) = .ok (some (m, []))) ∨
      ∃ r, (match number lo hi b with
        | .error e => (.error e : Res (Option (Int × Bytes)))
        | .ok x => .ok (some x)) = .ok (some (n, r)) ∧ r' = r ++ s := by
    intro b h
    split at h
    · cases h
    · rename_i x hx
      cases h
      rcases number_cut hx h1 h2 with h3 | ⟨m, h3⟩ | ⟨r, h3, h4⟩
      · exact .inl (by rw [h3])
      · exact .inr (.inl ⟨m, by rw [h3]⟩)
      · exact .inr (.inr ⟨r, by rw [h3], h4⟩)
  unfold element at h ⊢
  split at h
  · cases h
  · rename_i c t ht
    rcases skip_cut ht with hs | ⟨u, hs, rfl⟩
    · exact .inl (by rw [hs])
    rw [hs]
    dsimp only
    by_cases k1 : c = 93
    · rw [if_pos k1] at h; cases h
    rw [if_neg k1] at h ⊢
    by_cases k2 : c = 44 ∧ first = false
    · rw [if_pos k2] at h ⊢
      split at h
      · cases h
      · rename_i d q hq
        rcases skip_cut hq with hs | ⟨v, hs, rfl⟩
        · exact .inl (by rw [hs])
        rw [hs]
        dsimp only
        by_cases k3 : d = 93
        · rw [if_pos k3] at h; cases h
        rw [if_neg k3] at h ⊢
        rw [← List.cons_append] at h
        exact num h
    rw [if_neg k2] at h ⊢
    by_cases k3 : first = true
    · rw [if_pos k3] at h ⊢
      rw [← List.cons_append] at h
      exact num h
    · rw [if_neg k3] at h; cases h

theorem elements_cut {a a' : Seen} {first : Bool} {fs : List Field} {b s r' : Bytes}
    (h : elements a first fs (b ++ s) = .ok (a', r')) :
    elements a first fs b = .error .eof ∨ (∃ a'', elements a first fs b = .ok (a'', [])) ∨
      ∃ r, elements a first fs b = .ok (a', r) ∧ r' = r ++ s := by
  induction fs generalizing a first b with
  | nil =>
    rw [elements] at h
    cases h
    exact .inr (.inr ⟨b, by rw [elements], rfl⟩)
  | cons f fs ih =>
    rw [elements] at h ⊢
    split at h
    · cases h
    · cases h
    · rename_i n r he
      rcases element_cut he (field_lo f).1 (field_lo f).2 with h1 | ⟨m, h1⟩ | ⟨q, h1, rfl⟩
      · exact .inl (by rw [h1])
      · rw [h1]
        dsimp only
        cases fs with
        | nil => exact .inr (.inl ⟨_, by rw [elements]⟩)
        | cons g fs => exact .inl (by rw [elements]; rfl)
      · rw [h1]
        exact ih h

theorem elements_full {a a' : Seen} {first : Bool} {fs : List Field} {b r : Bytes}
    (h : elements a first fs b = .ok (a', r)) (f : Field) (hf : f ∈ fs ∨ (a f).isSome = true) : (a' f).isSome = true := by
  induction fs generalizing a first b with
  | nil =>
    rw [elements] at h
    cases h
    simpa using hf
  | cons g fs ih =>
    rw [elements] at h
    split at h
    · cases h
    · cases h
    · refine ih h ?_
      unfold Seen.set
      by_cases e : f = g
      · exact .inr (by rw [if_pos e]; rfl)
      · rw [if_neg e]
        simpa [e] using hf

theorem close_cut {c : UInt8} {b s r' : Bytes} (h : close c (b ++ s) = .ok r') :
    close c b = .error .eof ∨ ∃ r, close c b = .ok r ∧ r' = r ++ s := by
  unfold close at h ⊢
  split at h
  · cases h
  · rename_i x t ht
    rcases skip_cut ht with hs | ⟨u, hs, rfl⟩
    · exact .inl (by rw [hs])
    rw [hs]
    dsimp only
    split at h
    · rename_i hx
      rw [if_pos hx]
      cases h
      exact .inr ⟨u, rfl, rfl⟩
    · cases h

theorem position_full {a : Seen} (h : ∀ f, (a f).isSome = true) : ∃ p, position a = some p := by
  have hx := fun f => Option.isSome_iff_exists.mp (h f)
  obtain ⟨x, hx1⟩ := hx .x
  obtain ⟨y, hx2⟩ := hx .y
  obtain ⟨z, hx3⟩ := hx .z
  obtain ⟨u, hx4⟩ := hx .yaw
  obtain ⟨v, hx5⟩ := hx .pitch
  obtain ⟨w, hx6⟩ := hx .roll
  unfold position
  rw [hx1, hx2, hx3, hx4, hx5, hx6]
  exact ⟨_, rfl⟩

theorem body_cut {p : Position} {b s r' : Bytes} (h : body (b ++ s) = .ok (p, r')) :
    body b = .error .eof ∨ (body b = .error .bad ∧ Torn b) ∨ ∃ r, body b = .ok (p, r) ∧ r' = r ++ s := by
  unfold body at h ⊢
  split at h
  · cases h
  · rename_i c t ht
    rcases skip_cut ht with hs | ⟨u, hs, rfl⟩
    · exact .inl (by rw [hs])
    obtain ⟨w, -, hw⟩ := skip_spec b
    rw [hs] at hw ⊢
    dsimp only
    by_cases k1 : c = 91
    · rw [if_pos k1] at h ⊢
      split at h
      · cases h
      · rename_i a q he
        split at h
        · cases h
        · cases h
        · rename_i p' r hp hc
          cases h
          rcases elements_cut he with h1 | ⟨a'', h1⟩ | ⟨x, h1, rfl⟩
          · exact .inl (by rw [h1])
          · obtain ⟨p', hp'⟩ := position_full fun f => elements_full h1 f (.inl (by cases f <;> decide))
            rw [h1]
            dsimp only
            rw [hp']
            exact .inl rfl
          · rw [h1]
            dsimp only
            rw [hp]
            rcases close_cut hc with h2 | ⟨y, h2, h3⟩
            · exact .inl (by rw [h2])
            · exact .inr (.inr ⟨y, by rw [h2], h3⟩)
    rw [if_neg k1] at h ⊢
    by_cases k2 : c = 123
    · rw [if_pos k2] at h ⊢
      split at h
      · cases h
      · rename_i a q he
        split at h
        · cases h
        · cases h
        · rename_i p' r hp hc
          cases h
          rcases members_cut he with h1 | ⟨h1, h2⟩ | ⟨x, h1, rfl, -⟩
          · exact .inl (by rw [h1])
          · refine .inr (.inl ⟨by rw [h1], ?_⟩)
            rw [hw]
            exact (h2.cons c).append w
          · rw [h1]
            dsimp only
            rw [hp]
            rcases close_cut hc with h2 | ⟨y, h2, h3⟩
            · exact .inl (by rw [h2])
            · exact .inr (.inr ⟨y, by rw [h2], h3⟩)
    · rw [if_neg k2] at h
      cases h

/-- A body that is cut off ends early, or ends inside an ignored number, or has lost blanks only. -/
theorem parse_cut {p : Position} {b s : Bytes} (h : parse (b ++ s) = .ok p) :
    parse b = .eof ∨ (parse b = .bad ∧ Torn b) ∨ (parse b = .ok p ∧ Blank s) := by
  unfold parse at h ⊢
  split at h
  · cases h
  · cases h
  · rename_i q r hb
    split at h
    · rename_i hr
      cases h
      rcases body_cut hb with h1 | ⟨h1, h2⟩ | ⟨x, h1, rfl⟩
      · exact .inl (by rw [h1])
      · exact .inr (.inl ⟨by rw [h1], h2⟩)
      · have hbl := skip_nil_blank hr
        have hx : Blank x := fun c hc => hbl c (List.mem_append_left _ hc)
        have hsb : Blank s := fun c hc => hbl c (List.mem_append_right _ hc)
        refine .inr (.inr ⟨?_, hsb⟩)
        rw [h1]
        dsimp only
        rw [if_pos]
        have := skip_blank hx []
        rwa [List.append_nil] at this
    · cases h

end Pica.JsonBody
