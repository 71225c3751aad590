import Verif.Model.JsonBody
import Verif.Spec.JsonText
/-! The words of a JSON body: white space, strings and numbers as `serde_json` reads them and as the grammar has them. -/

namespace Pica.JsonBody
open Spec.JsonText

theorem skip_spec (b : Bytes) : ∃ w, Blank w ∧ b = w ++ skip b := by
  induction b with
  | nil => exact ⟨[], by simp [Blank], rfl⟩
  | cons c r ih =>
    rw [skip]
    split
    · rename_i h
      obtain ⟨w, hw, hr⟩ := ih
      refine ⟨c :: w, ?_, by rw [List.cons_append, ← hr]⟩
      intro x hx
      rcases List.mem_cons.mp hx with rfl | hx
      · rcases h with h | h | h | h <;> simp [h]
      · exact hw x hx
    · exact ⟨[], by simp [Blank], rfl⟩

theorem skip_blank {w : Bytes} (hw : Blank w) (b : Bytes) : skip (w ++ b) = skip b := by
  induction w with
  | nil => rfl
  | cons c w ih =>
    rw [List.cons_append, skip, if_pos, ih fun x hx => hw x (List.mem_cons_of_mem _ hx)]
    rcases hw c List.mem_cons_self with h | h | h | h <;> simp [h]

theorem skip_nil_blank {b : Bytes} (h : skip b = []) : Blank b := by
  obtain ⟨w, hw, hb⟩ := skip_spec b
  rw [h, List.append_nil] at hb
  rwa [hb]

/-- Not white space. -/
def Dark (c : UInt8) : Prop := ¬ (c = 32 ∨ c = 10 ∨ c = 9 ∨ c = 13)

instance (c : UInt8) : Decidable (Dark c) := inferInstanceAs (Decidable (¬ _))

theorem skip_dark {c : UInt8} (h : Dark c) (r : Bytes) : skip (c :: r) = c :: r := by rw [skip, if_neg h]

theorem dark_skip {b r : Bytes} {c : UInt8} (h : skip b = c :: r) : Dark c := by
  induction b with
  | nil => cases h
  | cons x b ih =>
    rw [skip] at h
    split at h
    · exact ih h
    · cases h; assumption

theorem skip_skip (b : Bytes) : skip (skip b) = skip b := by
  match h : skip b with
  | [] => rfl
  | c :: r => exact skip_dark (dark_skip h) r

theorem ident_ok {x b r : Bytes} : ident x b = .ok r ↔ b = x ++ r := by
  induction x generalizing b with
  | nil => simp [ident]
  | cons x xs ih =>
    cases b with
    | nil => simp [ident]
    | cons c t =>
      rw [ident]
      split
      · rename_i h; rw [ih, h]; simp
      · rename_i h; simp [h]

theorem isDigit_iff {c : UInt8} : isDigit c = true ↔ Digit c := by
  simp [isDigit, Digit]

theorem hexVal_hex {c : UInt8} (h : Hex c) : hexVal c = some (hexValue c) := by
  simp only [Hex, Digit, UInt8.le_iff_toNat_le, UInt8.reduceToNat] at h
  simp only [hexVal, hexValue, UInt8.le_iff_toNat_le, UInt8.reduceToNat]
  rcases h with h | h | h
  · rw [if_pos h, if_pos h.2]
  · rw [if_neg (by omega), if_pos h, if_neg (by omega), if_pos h.2]
  · rw [if_neg (by omega), if_neg (by omega), if_pos h, if_neg (by omega), if_neg (by omega)]

theorem hex_of_hexVal {c : UInt8} {n : Nat} (h : hexVal c = some n) : Hex c := by
  unfold hexVal at h
  split at h
  · exact .inl (by assumption)
  · split at h
    · exact .inr (.inl (by assumption))
    · split at h
      · exact .inr (.inr (by assumption))
      · cases h

theorem hex4_hex {a b c d : UInt8} (ha : Hex a) (hb : Hex b) (hc : Hex c) (hd : Hex d) :
    hex4 a b c d = some (hexValue4 a b c d) := by
  unfold hex4
  rw [hexVal_hex ha, hexVal_hex hb, hexVal_hex hc, hexVal_hex hd]
  simp only [hexValue4, Option.some.injEq]
  omega

theorem hex_of_hex4 {a b c d : UInt8} {n : Nat} (h : hex4 a b c d = some n) :
    Hex a ∧ Hex b ∧ Hex c ∧ Hex d ∧ n = hexValue4 a b c d := by
  have h' := h
  unfold hex4 at h
  split at h
  · rename_i ha hb hc hd
    have ha := hex_of_hexVal ha
    have hb := hex_of_hexVal hb
    have hc := hex_of_hexVal hc
    have hd := hex_of_hexVal hd
    rw [hex4_hex ha hb hc hd] at h'
    exact ⟨ha, hb, hc, hd, (Option.some.inj h').symm⟩
  · cases h

theorem simpleEscape_isSome {e : UInt8} : (simpleEscape e).isSome ↔ e ∈ [34, 92, 47, 98, 102, 110, 114, 116] := by
  unfold simpleEscape
  repeat' split
  all_goals simp_all
  rename_i h
  rcases h with h | h | h <;> simp [h]

theorem ignoreStr_sound {b r : Bytes} (h : ignoreStr b = .ok r) : ∃ s, Chars s ∧ b = s ++ 34 :: r := by
  fun_induction ignoreStr b <;> try (cases h; done)
  · cases h; exact ⟨[], .nil, by simp_all⟩
  · rename_i a b c d r' hx _ ih
    obtain ⟨s, hs, rfl⟩ := ih h
    obtain ⟨n, hn⟩ := Option.isSome_iff_exists.mp hx
    obtain ⟨ha, hb, hc, hd, -⟩ := hex_of_hex4 hn
    exact ⟨_, .unicode ha hb hc hd hs, by simp_all⟩
  · rename_i hx _ ih
    obtain ⟨s, hs, rfl⟩ := ih h
    exact ⟨_, .escape (simpleEscape_isSome.mp hx) hs, by simp_all⟩
  · rename_i c r' h1 h2 h3 ih
    obtain ⟨s, hs, rfl⟩ := ih h
    exact ⟨_, .plain (by simpa using h3) h1 h2 hs, rfl⟩

theorem ignoreStr_complete {s : Bytes} (h : Chars s) (r : Bytes) : ignoreStr (s ++ 34 :: r) = .ok r := by
  induction h with
  | nil => rw [List.nil_append, ignoreStr.eq_def]; rfl
  | plain h1 h2 h3 _ ih =>
    rw [List.cons_append, ignoreStr.eq_def]
    simp only
    rw [if_neg h2, if_neg h3, if_neg (by simpa using h1), ih]
  | escape h1 _ ih =>
    rw [List.cons_append, List.cons_append, ignoreStr.eq_def]
    simp only [if_neg (show ¬ (92 : UInt8) = 34 by decide), if_true]
    rw [if_neg (by rintro rfl; simp at h1), if_pos (simpleEscape_isSome.mpr h1), ih]
  | unicode ha hb hc hd _ ih =>
    simp only [List.cons_append]
    rw [ignoreStr.eq_def]
    simp only [if_neg (show ¬ (92 : UInt8) = 34 by decide), if_true]
    rw [hex4_hex ha hb hc hd, Option.isSome_some, if_pos rfl, ih]

/-- A byte that may come after a number. -/
def Stop (r : Bytes) : Prop := ∀ c t, r = c :: t → ¬ Dark c ∨ c = 44 ∨ c = 93 ∨ c = 125

theorem Stop.nil : Stop [] := by intro c t h; cases h

theorem Stop.cons {c : UInt8} {t : Bytes} (h : ¬ Dark c ∨ c = 44 ∨ c = 93 ∨ c = 125) : Stop (c :: t) := by
  intro c t e; cases e; exact h

theorem Stop.blank {w r : Bytes} (hw : Blank w) (hr : Stop r) : Stop (w ++ r) := by
  cases w with
  | nil => exact hr
  | cons c w =>
    refine Stop.cons (.inl ?_)
    have := hw c List.mem_cons_self
    simp only [Dark, not_not]
    tauto

theorem stop_not {c : UInt8} {t : Bytes} (h : Stop (c :: t)) : isDigit c = false ∧ c ≠ 46 ∧ c ≠ 101 ∧ c ≠ 69 := by
  have := h c t rfl
  simp only [Dark, not_not] at this
  rcases this with (rfl | rfl | rfl | rfl) | rfl | rfl | rfl <;> decide

/-- No digit comes next. -/
def NoDigit (r : Bytes) : Prop := ∀ c t, r = c :: t → isDigit c = false

theorem Stop.noDigit {r : Bytes} (h : Stop r) : NoDigit r := by
  intro c t e; subst e; exact (stop_not h).1

theorem dropDigits_spec (b : Bytes) : ∃ ds, (∀ c ∈ ds, Digit c) ∧ b = ds ++ dropDigits b ∧ NoDigit (dropDigits b) := by
  induction b with
  | nil => exact ⟨[], by simp, rfl, by intro c t h; cases h⟩
  | cons c r ih =>
    unfold dropDigits
    rw [List.dropWhile_cons]
    split
    · rename_i h
      obtain ⟨ds, h1, h2, h3⟩ := ih
      refine ⟨c :: ds, ?_, by rw [List.cons_append, ← dropDigits, ← h2], h3⟩
      intro x hx
      rcases List.mem_cons.mp hx with rfl | hx
      · exact isDigit_iff.mp h
      · exact h1 x hx
    · rename_i h
      exact ⟨[], by simp, rfl, by intro x t e; cases e; simpa using h⟩

theorem dropDigits_append {ds r : Bytes} (h : ∀ c ∈ ds, Digit c) (hr : NoDigit r) : dropDigits (ds ++ r) = r := by
  induction ds with
  | nil =>
    cases r with
    | nil => rfl
    | cons c t => simp only [dropDigits, List.nil_append, List.dropWhile_cons, hr c t rfl]; rfl
  | cons c ds ih =>
    unfold dropDigits
    rw [List.cons_append, List.dropWhile_cons, if_pos (isDigit_iff.mpr (h c List.mem_cons_self))]
    exact ih fun x hx => h x (List.mem_cons_of_mem _ hx)

theorem digits_spec (n : Nat) (b : Bytes) : ∃ ds, (∀ c ∈ ds, Digit c) ∧ b = ds ++ (digits n b).2 ∧ NoDigit (digits n b).2 ∧
    (digits n b).1 = ds.foldl (fun n c => 10 * n + (c.toNat - 48)) n := by
  induction b generalizing n with
  | nil => exact ⟨[], by simp, rfl, (show NoDigit [] from fun c t h => by cases h), rfl⟩
  | cons c r ih =>
    rw [digits]
    split
    · rename_i h
      obtain ⟨ds, h1, h2, h3, h4⟩ := ih (10 * n + (c.toNat - 48))
      refine ⟨c :: ds, ?_, by rw [List.cons_append, ← h2], h3, by rw [h4]; rfl⟩
      intro x hx
      rcases List.mem_cons.mp hx with rfl | hx
      · exact isDigit_iff.mp h
      · exact h1 x hx
    · rename_i h
      exact ⟨[], by simp, rfl, by intro x t e; cases e; simpa using h, rfl⟩

theorem digits_append {ds r : Bytes} (n : Nat) (h : ∀ c ∈ ds, Digit c) (hr : NoDigit r) :
    digits n (ds ++ r) = (ds.foldl (fun n c => 10 * n + (c.toNat - 48)) n, r) := by
  induction ds generalizing n with
  | nil =>
    cases r with
    | nil => rfl
    | cons c t => simp only [List.nil_append, digits, hr c t rfl, List.foldl_nil]; rfl
  | cons c ds ih =>
    rw [List.cons_append, digits, if_pos (isDigit_iff.mpr (h c List.mem_cons_self)),
      ih _ fun x hx => h x (List.mem_cons_of_mem _ hx)]
    rfl

theorem ignoreExponent_sound {b r : Bytes} (h : ignoreExponent b = .ok r) :
    ∃ s ds, b = s ++ (ds ++ r) ∧ (s = [] ∨ s = [43] ∨ s = [45]) ∧ Digits ds := by
  unfold ignoreExponent at h
  dsimp only at h
  split at h
  · cases h
  · rename_i c t ht
    split at h
    · rename_i hc
      obtain rfl := Except.ok.inj h
      obtain ⟨ds, h1, h2, -⟩ := dropDigits_spec t
      have hd : Digits (c :: ds) := by
        refine ⟨by simp, ?_⟩
        intro x hx
        rcases List.mem_cons.mp hx with rfl | hx
        · exact isDigit_iff.mp hc
        · exact h1 x hx
      split at ht
      · rename_i x u
        split at ht
        · rename_i hx
          refine ⟨[x], c :: ds, by rw [ht]; exact congrArg (x :: c :: ·) h2, ?_, hd⟩
          rcases hx with rfl | rfl <;> simp
        · exact ⟨[], c :: ds, by rw [ht, List.cons_append, ← h2]; rfl, .inl rfl, hd⟩
      · cases ht
    · cases h

theorem ignoreE_sound {b r : Bytes} (h : ignoreE b = .ok r) : ∃ e, b = e ++ r ∧ Exponent e := by
  unfold ignoreE at h
  split at h
  · obtain rfl := Except.ok.inj h; exact ⟨[], rfl, .inl rfl⟩
  · split at h
    · rename_i c t hc
      obtain ⟨s, ds, rfl, hs, hd⟩ := ignoreExponent_sound h
      exact ⟨c :: (s ++ ds), by simp, .inr ⟨c, s, ds, rfl, hc, hs, hd⟩⟩
    · obtain rfl := Except.ok.inj h; exact ⟨[], rfl, .inl rfl⟩

theorem ignoreFraction_sound {b r : Bytes} (h : ignoreFraction b = .ok r) :
    ∃ f e, b = f ++ (e ++ r) ∧ Fraction f ∧ Exponent e := by
  unfold ignoreFraction at h
  split at h
  · obtain rfl := Except.ok.inj h; exact ⟨[], [], rfl, .inl rfl, .inl rfl⟩
  · split at h
    · rename_i hc
      split at h
      · cases h
      · rename_i d t
        split at h
        · rename_i hd
          obtain ⟨e, he, hx⟩ := ignoreE_sound h
          obtain ⟨ds, h1, h2, -⟩ := dropDigits_spec t
          refine ⟨46 :: d :: ds, e, by rw [hc, h2, he]; simp, .inr ⟨d :: ds, rfl, by simp, ?_⟩, hx⟩
          intro x hx
          rcases List.mem_cons.mp hx with rfl | hx
          · exact isDigit_iff.mp hd
          · exact h1 x hx
        · cases h
    · obtain ⟨e, he, hx⟩ := ignoreE_sound h
      exact ⟨[], e, he, .inl rfl, hx⟩

theorem ignoreInteger_sound {b r : Bytes} (h : ignoreInteger b = .ok r) :
    ∃ w f e, b = w ++ (f ++ (e ++ r)) ∧ Whole w ∧ Fraction f ∧ Exponent e := by
  have h0 : Whole [48] := ⟨⟨by simp, by simp [Digit]⟩, fun _ => rfl⟩
  unfold ignoreInteger at h
  split at h
  · cases h
  · rename_i c t
    split at h
    · rename_i hc
      subst hc
      split at h
      · obtain rfl := Except.ok.inj h; exact ⟨[48], [], [], rfl, h0, .inl rfl, .inl rfl⟩
      · split at h
        · cases h
        · obtain ⟨f, e, hb, hf, he⟩ := ignoreFraction_sound h
          exact ⟨[48], f, e, by rw [hb]; rfl, h0, hf, he⟩
    · rename_i hc
      split at h
      · rename_i hd
        obtain ⟨f, e, hb, hf, he⟩ := ignoreFraction_sound h
        obtain ⟨ds, h1, h2, -⟩ := dropDigits_spec t
        refine ⟨c :: ds, f, e, by rw [h2, hb]; rfl, ⟨⟨by simp, ?_⟩, by simp [hc]⟩, hf, he⟩
        intro x hx
        rcases List.mem_cons.mp hx with rfl | hx
        · exact isDigit_iff.mp hd
        · exact h1 x hx
      · cases h

theorem digits_cons {ds : Bytes} (h : Digits ds) : ∃ c t, ds = c :: t ∧ isDigit c = true ∧ ∀ x ∈ t, Digit x := by
  obtain ⟨h1, h2⟩ := h
  cases ds with
  | nil => exact absurd rfl h1
  | cons c t => exact ⟨c, t, rfl, isDigit_iff.mpr (h2 c List.mem_cons_self), fun x hx => h2 x (List.mem_cons_of_mem _ hx)⟩

theorem digit_sign {c : UInt8} (h : isDigit c = true) : ¬ (c = 43 ∨ c = 45) := by
  rintro (rfl | rfl) <;> simp [isDigit] at h

theorem ignoreExponent_complete {s ds r : Bytes} (hs : s = [] ∨ s = [43] ∨ s = [45]) (hd : Digits ds) (hr : Stop r) :
    ignoreExponent (s ++ (ds ++ r)) = .ok r := by
  obtain ⟨c, t, rfl, hc, ht⟩ := digits_cons hd
  have := dropDigits_append ht hr.noDigit
  rcases hs with rfl | rfl | rfl <;>
    simp [ignoreExponent, digit_sign hc, hc, this]

theorem ignoreE_complete {e r : Bytes} (he : Exponent e) (hr : Stop r) : ignoreE (e ++ r) = .ok r := by
  rcases he with rfl | ⟨c, s, ds, rfl, hc, hs, hd⟩
  · cases r with
    | nil => rfl
    | cons c t =>
      have := stop_not hr
      rw [List.nil_append, ignoreE, if_neg (by tauto)]
  · rw [List.cons_append, ignoreE, if_pos hc, List.append_assoc, ignoreExponent_complete hs hd hr]

theorem exponent_noDigit {e r : Bytes} (he : Exponent e) (hr : Stop r) : NoDigit (e ++ r) := by
  rcases he with rfl | ⟨c, s, ds, rfl, hc, hs, hd⟩
  · exact hr.noDigit
  · intro x t h
    cases h
    rcases hc with rfl | rfl <;> decide

theorem ignoreFraction_complete {f e r : Bytes} (hf : Fraction f) (he : Exponent e) (hr : Stop r) :
    ignoreFraction (f ++ (e ++ r)) = .ok r := by
  rcases hf with rfl | ⟨ds, rfl, hd⟩
  · rw [List.nil_append]
    have h := ignoreE_complete he hr
    have h46 : ∀ c t, e ++ r = c :: t → c ≠ 46 := by
      intro c t h
      rcases he with rfl | ⟨c, s, ds, rfl, hc, -⟩
      · rw [List.nil_append] at h; subst h; exact (stop_not hr).2.1
      · cases h; rcases hc with rfl | rfl <;> decide
    match hx : e ++ r with
    | [] => rw [hx] at h; exact h
    | c :: t =>
      rw [ignoreFraction.eq_def]
      dsimp only
      rw [if_neg (h46 c t hx), ← hx, h]
  · obtain ⟨c, t, rfl, hc, ht⟩ := digits_cons hd
    simp only [List.cons_append]
    rw [ignoreFraction.eq_def]
    dsimp only
    rw [if_pos rfl, if_pos hc, dropDigits_append ht (exponent_noDigit he hr), ignoreE_complete he hr]

theorem fraction_noDigit {f e r : Bytes} (hf : Fraction f) (he : Exponent e) (hr : Stop r) : NoDigit (f ++ (e ++ r)) := by
  rcases hf with rfl | ⟨ds, rfl, hd⟩
  · rw [List.nil_append]; exact exponent_noDigit he hr
  · intro x t h
    cases h
    decide

theorem ignoreInteger_complete {w f e r : Bytes} (hw : Whole w) (hf : Fraction f) (he : Exponent e) (hr : Stop r) :
    ignoreInteger (w ++ (f ++ (e ++ r))) = .ok r := by
  obtain ⟨hd, h0⟩ := hw
  obtain ⟨c, t, rfl, hc, ht⟩ := digits_cons hd
  have hx := ignoreFraction_complete hf he hr
  have hn := fraction_noDigit hf he hr
  by_cases h48 : c = 48
  · subst h48
    obtain rfl : t = [] := by have := h0 rfl; simpa using this
    rw [List.singleton_append, ignoreInteger.eq_def]
    dsimp only
    rw [if_pos rfl]
    match hy : f ++ (e ++ r) with
    | [] => rw [hy] at hx; exact hx
    | d :: u =>
      dsimp only
      rw [hn d u hy, if_neg (by decide), ← hy, hx]
  · rw [List.cons_append, ignoreInteger.eq_def]
    dsimp only
    rw [if_neg h48, if_pos hc, dropDigits_append ht hn, hx]

theorem foldl_ge (ds : Bytes) (n : Nat) : n ≤ ds.foldl (fun n c => 10 * n + (c.toNat - 48)) n := by
  induction ds generalizing n with
  | nil => exact Nat.le_refl _
  | cons c ds ih => exact Nat.le_trans (by omega) (ih (10 * n + (c.toNat - 48)))

theorem whole_pos {w : Bytes} (hw : Whole w) (h : w ≠ [48]) : 0 < decimalValue w := by
  obtain ⟨hd, h0⟩ := hw
  obtain ⟨c, t, rfl, hc, -⟩ := digits_cons hd
  refine Nat.lt_of_lt_of_le ?_ (foldl_ge t _)
  have h48 : c ≠ 48 := fun e => h (h0 (by rw [e]; rfl))
  rw [isDigit_iff, Digit, UInt8.le_iff_toNat_le] at hc
  have := hc.1
  have h3 : c.toNat ≠ 48 := fun e => h48 (UInt8.toNat_inj.mp e)
  have h4 : 48 ≤ c.toNat := this
  show 0 < 10 * 0 + (c.toNat - 48)
  omega

theorem exponent_float {b r : Bytes} {x : Number} (h : exponent b = .ok (x, r)) : x = .float := by
  unfold exponent at h
  dsimp only at h
  split at h
  · cases h
  · split at h
    · cases h; rfl
    · cases h

theorem decimal_float {b r : Bytes} {x : Number} (h : decimal b = .ok (x, r)) : x = .float := by
  unfold decimal at h
  repeat' split at h
  all_goals first
    | cases h; done
    | cases h; rfl
    | exact exponent_float h

theorem parseNumber_int {p : Bool} {m : Nat} {b r : Bytes} {n : Int} (h : parseNumber p m b = .ok (.int n, r)) :
    b = r ∧ (p = true ∧ n = m ∨ p = false ∧ m ≠ 0 ∧ n = -m) := by
  have aux : ∀ t, (Except.ok (if p then Number.int m else if m = 0 then .float else .int (-m), t) : Res (Number × Bytes)) =
      .ok (.int n, r) → t = r ∧ (p = true ∧ n = m ∨ p = false ∧ m ≠ 0 ∧ n = -m) := by
    intro t ht
    simp only [Except.ok.injEq, Prod.mk.injEq] at ht
    refine ⟨ht.2, ?_⟩
    have h1 := ht.1
    split at h1
    · rename_i hp; cases h1; exact .inl ⟨hp, rfl⟩
    · split at h1
      · cases h1
      · rename_i hp h0; cases h1; exact .inr ⟨by simpa using hp, h0, rfl⟩
  unfold parseNumber at h
  split at h
  · exact aux _ h
  · split at h
    · exact absurd (decimal_float h) (by simp)
    · split at h
      · exact absurd (exponent_float h) (by simp)
      · exact aux _ h

theorem parseInteger_sound {p : Bool} {b r : Bytes} {n : Int} (h : parseInteger p b = .ok (.int n, r)) :
    ∃ w, b = w ++ r ∧ Whole w ∧ (p = true ∧ n = decimalValue w ∨ p = false ∧ w ≠ [48] ∧ n = -decimalValue w) := by
  have h0 : Whole [48] := ⟨⟨by simp, by simp [Digit]⟩, fun _ => rfl⟩
  unfold parseInteger at h
  split at h
  · cases h
  · rename_i c t
    split at h
    · rename_i hc
      subst hc
      split at h
      · obtain ⟨rfl, hx⟩ := parseNumber_int h
        refine ⟨[48], rfl, h0, ?_⟩
        rcases hx with ⟨hp, hn⟩ | ⟨-, h, -⟩
        · exact .inl ⟨hp, hn⟩
        · exact absurd rfl h
      · split at h
        · cases h
        · obtain ⟨rfl, hx⟩ := parseNumber_int h
          refine ⟨[48], rfl, h0, ?_⟩
          rcases hx with ⟨hp, hn⟩ | ⟨-, h, -⟩
          · exact .inl ⟨hp, hn⟩
          · exact absurd rfl h
    · rename_i hc
      split at h
      · rename_i hd
        obtain ⟨ds, h1, h2, -, h4⟩ := digits_spec (c.toNat - 48) t
        obtain ⟨h5, hx⟩ := parseNumber_int h
        have hw : Whole (c :: ds) := by
          refine ⟨⟨by simp, ?_⟩, by simp [hc]⟩
          intro x hx
          rcases List.mem_cons.mp hx with rfl | hx
          · exact isDigit_iff.mp hd
          · exact h1 x hx
        have hv : (digits (c.toNat - 48) t).1 = decimalValue (c :: ds) := by rw [h4]; simp [decimalValue]
        refine ⟨c :: ds, by rw [List.cons_append, ← h5, ← h2], hw, ?_⟩
        rw [hv] at hx
        rcases hx with hx | ⟨hp, -, hn⟩
        · exact .inl hx
        · exact .inr ⟨hp, by simp [hc], hn⟩
      · cases h

theorem parseNumber_stop (p : Bool) (m : Nat) {r : Bytes} (hr : Stop r) :
    parseNumber p m r = .ok (if p then .int m else if m = 0 then .float else .int (-m), r) := by
  cases r with
  | nil => rfl
  | cons c t =>
    have := stop_not hr
    rw [parseNumber.eq_def]
    dsimp only
    rw [if_neg this.2.1, if_neg (by tauto)]

theorem parseInteger_complete (p : Bool) {w r : Bytes} (hw : Whole w) (hr : Stop r) :
    parseInteger p (w ++ r) =
      .ok (if p then .int (decimalValue w) else if decimalValue w = 0 then .float else .int (-decimalValue w), r) := by
  obtain ⟨hd, h0⟩ := hw
  obtain ⟨c, t, rfl, hc, ht⟩ := digits_cons hd
  by_cases h48 : c = 48
  · subst h48
    obtain rfl : t = [] := by have := h0 rfl; simpa using this
    rw [List.singleton_append, parseInteger.eq_def]
    dsimp only
    rw [if_pos rfl]
    cases r with
    | nil => exact parseNumber_stop p 0 hr
    | cons d u =>
      dsimp only
      rw [hr.noDigit d u rfl, if_neg (by decide)]
      exact parseNumber_stop p 0 hr
  · rw [List.cons_append, parseInteger.eq_def]
    dsimp only
    rw [if_neg h48, if_pos hc, digits_append _ ht hr.noDigit, parseNumber_stop _ _ hr]
    simp [decimalValue]

theorem number_sound {lo hi n : Int} {b r : Bytes} (h : number lo hi b = .ok (n, r)) :
    ∃ w l, Blank w ∧ b = w ++ (l ++ r) ∧ Integer l n ∧ lo ≤ n ∧ n ≤ hi := by
  unfold number at h
  obtain ⟨w, hw, hb⟩ := skip_spec b
  split at h
  · cases h
  · rename_i c t ht
    rw [ht] at hb
    split at h
    · rename_i hc
      obtain ⟨h1, h2⟩ := visit_ok h
      obtain ⟨d, rfl, hd, ⟨h, -⟩ | ⟨-, h3, h4⟩⟩ := parseInteger_sound h1
      · cases h
      · exact ⟨w, 45 :: d, hw, by rw [hb, hc]; rfl, .inr ⟨d, rfl, hd, h3, h4⟩, h2⟩
    · split at h
      · obtain ⟨h1, h2⟩ := visit_ok h
        obtain ⟨d, h5, hd, ⟨-, h3⟩ | ⟨h, -⟩⟩ := parseInteger_sound h1
        · exact ⟨w, d, hw, by rw [hb, h5], .inl ⟨hd, h3⟩, h2⟩
        · cases h
      · cases h

theorem digit_dark {c : UInt8} (h : isDigit c = true) : Dark c := by
  rintro (rfl | rfl | rfl | rfl) <;> simp [isDigit] at h

theorem number_complete {lo hi n : Int} {w l r : Bytes} (hw : Blank w) (hl : Integer l n) (h1 : lo ≤ n) (h2 : n ≤ hi) (hr : Stop r) :
    number lo hi (w ++ (l ++ r)) = .ok (n, r) := by
  unfold number
  rw [skip_blank hw]
  rcases hl with ⟨hl, hn⟩ | ⟨d, rfl, hd, h0, hn⟩
  · have hx := parseInteger_complete true hl hr
    obtain ⟨c, t, rfl, hc, ht⟩ := digits_cons hl.1
    rw [List.cons_append, skip_dark (digit_dark hc)]
    dsimp only
    rw [if_neg (fun e => digit_sign hc (.inr e)), if_pos hc, ← List.cons_append, hx, if_pos rfl, visit, if_pos (by omega), hn]
  · rw [List.cons_append, skip_dark (by decide)]
    dsimp only
    have := whole_pos hd h0
    rw [if_pos rfl, parseInteger_complete false hd hr, if_neg (by decide), if_neg (by omega), visit, if_pos (by omega), hn]

theorem before_ok {u s r : Bytes} {x : Res (Bytes × Bytes)} : before u x = .ok (s, r) ↔ ∃ t, x = .ok (t, r) ∧ s = u ++ t := by
  unfold before
  split
  · simp only [Except.ok.injEq, Prod.mk.injEq]
    constructor
    · rintro ⟨rfl, rfl⟩; exact ⟨_, ⟨rfl, rfl⟩, rfl⟩
    · rintro ⟨t, ⟨rfl, rfl⟩, rfl⟩; exact ⟨rfl, rfl⟩
  · simp

theorem utf8_cases (c : Char) :
    c.toNat < 128 ∧ String.utf8EncodeChar c = [UInt8.ofNat c.toNat] ∨
      128 ≤ c.toNat ∧ String.utf8EncodeChar c ≠ [] ∧ ∀ x ∈ String.utf8EncodeChar c, 128 ≤ x.toNat := by
  have key : ∀ n, 128 ≤ n → n < 256 → 128 ≤ (UInt8.ofNat n).toNat := by
    intro n h1 h2
    rw [UInt8.toNat_ofNat_of_lt' (by exact h2)]
    exact h1
  have hn : c.toNat = c.val.toNat := rfl
  rw [hn]
  unfold String.utf8EncodeChar
  dsimp only
  generalize c.val.toNat = n
  split
  · exact .inl ⟨by omega, rfl⟩
  · refine .inr ⟨by omega, ?_⟩
    split
    · refine ⟨List.cons_ne_nil _ _, ?_⟩
      simp only [List.mem_cons, List.not_mem_nil, or_false]
      rintro x (rfl | rfl) <;> apply key <;> omega
    · split
      · refine ⟨List.cons_ne_nil _ _, ?_⟩
        simp only [List.mem_cons, List.not_mem_nil, or_false]
        rintro x (rfl | rfl | rfl) <;> apply key <;> omega
      · refine ⟨List.cons_ne_nil _ _, ?_⟩
        simp only [List.mem_cons, List.not_mem_nil, or_false]
        rintro x (rfl | rfl | rfl | rfl) <;> apply key <;> omega

theorem char_ofNat {n : Nat} (h : n < 128) : (Char.ofNat n).toNat = n := by
  have hv : n.isValidChar := .inl (by omega)
  rw [Char.ofNat, dif_pos hv]
  rfl

theorem utf8_ascii {c : UInt8} (h : c.toNat < 128) : String.utf8EncodeChar (Char.ofNat c.toNat) = [c] := by
  have h1 := char_ofNat h
  rcases utf8_cases (Char.ofNat c.toNat) with h2 | h2
  · rw [h2.2, h1, UInt8.ofNat_toNat]
  · omega

/-- The first byte of a character. -/
theorem utf8_head (c : Char) {x : UInt8} {t : Bytes} (h : String.utf8EncodeChar c = x :: t) (hx : x.toNat < 128) :
    c = Char.ofNat x.toNat ∧ t = [] := by
  rcases utf8_cases c with ⟨h1, h2⟩ | ⟨h1, -, h2⟩
  · rw [h2] at h
    obtain ⟨rfl, rfl⟩ := List.cons.inj h
    refine ⟨?_, rfl⟩
    rw [UInt8.toNat_ofNat_of_lt' (by show _ < 256; omega), Char.ofNat_toNat]
  · have := h2 x (by rw [h]; exact List.mem_cons_self)
    omega

/-- The bytes of a character that is not a quote, a backslash or a control character. -/
theorem utf8_plain {c : Char} (h1 : 32 ≤ c.toNat) (h2 : c ≠ '"') (h3 : c ≠ '\\') :
    ∀ x ∈ String.utf8EncodeChar c, ¬ x < 32 ∧ x ≠ 34 ∧ x ≠ 92 := by
  intro x hx
  have key : 32 ≤ x.toNat ∧ x.toNat ≠ 34 ∧ x.toNat ≠ 92 := by
    rcases utf8_cases c with ⟨h4, h5⟩ | ⟨-, -, h5⟩
    · rw [h5, List.mem_singleton] at hx
      subst hx
      rw [UInt8.toNat_ofNat_of_lt' (by show _ < 256; omega)]
      refine ⟨h1, fun e => h2 ?_, fun e => h3 ?_⟩
      · rw [← Char.ofNat_toNat c, e]
      · rw [← Char.ofNat_toNat c, e]
    · have := h5 x hx
      omega
  refine ⟨?_, ?_, ?_⟩
  · rw [UInt8.lt_iff_toNat_lt]; have := key.1; show ¬ x.toNat < 32; omega
  · rintro rfl; exact key.2.1 rfl
  · rintro rfl; exact key.2.2 rfl

/-- The bytes of a text. -/
def utf8 (cs : List Char) : Bytes := cs.flatMap String.utf8EncodeChar

theorem utf8_cons (c : Char) (cs : List Char) : utf8 (c :: cs) = String.utf8EncodeChar c ++ utf8 cs := rfl

theorem parseStr_plain {u : Bytes} (h : ∀ x ∈ u, ¬ x < 32 ∧ x ≠ 34 ∧ x ≠ 92) {b s r : Bytes} (hb : parseStr b = .ok (s, r)) :
    parseStr (u ++ b) = .ok (u ++ s, r) := by
  induction u with
  | nil => exact hb
  | cons x u ih =>
    obtain ⟨h1, h2, h3⟩ := h x List.mem_cons_self
    rw [List.cons_append, parseStr.eq_def]
    dsimp only
    rw [if_neg h2, if_neg h3, if_neg h1, ih fun y hy => h y (List.mem_cons_of_mem _ hy)]
    rfl

theorem parseStr_simple {e x : UInt8} (h : simpleEscape e = some x) {b s r : Bytes} (hb : parseStr b = .ok (s, r)) :
    parseStr (92 :: e :: b) = .ok (x :: s, r) := by
  have he : e ≠ 117 := by rintro rfl; simp [simpleEscape] at h
  rw [parseStr.eq_def]
  dsimp only
  rw [if_neg (by decide), if_pos rfl, if_neg he, h, hb]
  rfl

theorem parseStr_complete {k : Bytes} {cs : List Char} (h : Spells k cs) (r : Bytes) :
    parseStr (k ++ 34 :: r) = .ok (utf8 cs, r) := by
  induction h with
  | nil => rw [List.nil_append, parseStr.eq_def]; rfl
  | plain h1 h2 h3 _ ih => rw [List.append_assoc]; exact parseStr_plain (utf8_plain h1 h2 h3) ih
  | quote _ ih => exact parseStr_simple rfl ih
  | backslash _ ih => exact parseStr_simple rfl ih
  | slash _ ih => exact parseStr_simple rfl ih
  | backspace _ ih => exact parseStr_simple rfl ih
  | formFeed _ ih => exact parseStr_simple rfl ih
  | lineFeed _ ih => exact parseStr_simple rfl ih
  | «return» _ ih => exact parseStr_simple rfl ih
  | tab _ ih => exact parseStr_simple rfl ih
  | unicode ha hb hc hd hn _ ih =>
    simp only [List.cons_append]
    rw [parseStr.eq_def]
    dsimp only
    rw [if_neg (by decide), if_pos rfl, if_pos rfl, hex4_hex ha hb hc hd]
    dsimp only
    rw [if_neg (by omega), if_neg (by omega), ih]
    rfl
  | pair ha hb hc hd ha' hb' hc' hd' h1 h2 h3 h4 _ ih =>
    simp only [List.cons_append]
    rw [parseStr.eq_def]
    dsimp only
    rw [if_neg (by decide), if_pos rfl, if_pos rfl, hex4_hex ha hb hc hd]
    dsimp only
    rw [if_neg (by omega), if_pos (by omega), if_neg (by decide), if_neg (by decide), hex4_hex ha' hb' hc' hd']
    dsimp only
    rw [if_neg (by omega), ih, before, utf8_cons,
      show ∀ n m : Nat, (n - 55296) * 1024 + m + 65536 = 65536 + 1024 * (n - 55296) + m by intros; omega]

theorem key_complete {k : Bytes} {cs : List Char} (h : Spells k cs) (r : Bytes) : key (k ++ 34 :: r) = .ok (utf8 cs, r) := by
  unfold key
  rw [parseStr_complete h r]
  dsimp only
  rw [if_pos]
  rw [ByteArray.validateUTF8_eq_true_iff]
  exact ByteArray.isValidUTF8_utf8Encode

/-- Text of bytes below 128. -/
def ascii (s : Bytes) : List Char := s.map fun c => Char.ofNat c.toNat

theorem ascii_char {c : Char} {t : Bytes} (h : ∀ x ∈ String.utf8EncodeChar c ++ t, x.toNat < 128) :
    ascii (String.utf8EncodeChar c ++ t) = c :: ascii t ∧ ∀ x ∈ t, x.toNat < 128 := by
  refine ⟨?_, fun x hx => h x (List.mem_append_right _ hx)⟩
  match he : String.utf8EncodeChar c with
  | [] =>
    rcases utf8_cases c with ⟨-, h2⟩ | ⟨-, h2, -⟩
    · rw [h2] at he; cases he
    · exact absurd he h2
  | x :: u =>
    obtain ⟨h1, rfl⟩ := utf8_head c he (h x (by rw [he]; simp))
    rw [List.singleton_append, ascii, List.map_cons, ← ascii, ← h1]

theorem ascii_cons {c : UInt8} {t : Bytes} (h : ∀ x ∈ [c] ++ t, x.toNat < 128) :
    ascii ([c] ++ t) = Char.ofNat c.toNat :: ascii t ∧ ∀ x ∈ t, x.toNat < 128 :=
  ⟨rfl, fun x hx => h x (List.mem_append_right _ hx)⟩

theorem spells_simple {e x : UInt8} (h : simpleEscape e = some x) {k : Bytes} {cs : List Char} (hk : Spells k cs) :
    Spells (92 :: e :: k) (Char.ofNat x.toNat :: cs) := by
  unfold simpleEscape at h
  split at h
  · rename_i he
    cases h
    rcases he with rfl | rfl | rfl
    · exact .quote hk
    · exact .backslash hk
    · exact .slash hk
  · split at h
    · rename_i he; subst he; cases h; exact .backspace hk
    · split at h
      · rename_i he; subst he; cases h; exact .formFeed hk
      · split at h
        · rename_i he; subst he; cases h; exact .lineFeed hk
        · split at h
          · rename_i he; subst he; cases h; exact .return hk
          · split at h
            · rename_i he; subst he; cases h; exact .tab hk
            · cases h

theorem parseStr_sound {b s r : Bytes} (h : parseStr b = .ok (s, r)) :
    ∃ k, Chars k ∧ b = k ++ 34 :: r ∧ ((∀ c ∈ s, c.toNat < 128) → Spells k (ascii s)) := by
  fun_induction parseStr b generalizing s <;> try (cases h; done)
  · cases h; exact ⟨[], .nil, by simp_all, fun _ => .nil⟩
  · rename_i a b c d n hn h1 h2 x hx y hy a' b' c' d' r' m hm h3 h4 ih
    obtain rfl := not_not.mp hx
    obtain rfl := not_not.mp hy
    generalize hq : Char.ofNat ((n - 55296) * 1024 + (m - 56320) + 65536) = q at h
    obtain ⟨t, ht, rfl⟩ := before_ok.mp h
    obtain ⟨k, hk, rfl, hs⟩ := ih ht
    obtain ⟨ha, hb, hc, hd, rfl⟩ := hex_of_hex4 hn
    obtain ⟨ha', hb', hc', hd', rfl⟩ := hex_of_hex4 hm
    refine ⟨_, .unicode ha hb hc hd (.unicode ha' hb' hc' hd' hk), rfl, fun hx => ?_⟩
    obtain ⟨h5, h6⟩ := ascii_char hx
    rw [h5, ← hq, show ∀ n m : Nat, (n - 55296) * 1024 + m + 65536 = 65536 + 1024 * (n - 55296) + m by intros; omega]
    exact .pair ha hb hc hd ha' hb' hc' hd' (by omega) (by omega) (by omega) (by omega) (hs h6)
  · rename_i hn h1 h2 _ ih
    obtain ⟨t, ht, rfl⟩ := before_ok.mp h
    obtain ⟨k, hk, rfl, hs⟩ := ih ht
    obtain ⟨ha, hb, hc, hd, rfl⟩ := hex_of_hex4 hn
    refine ⟨_, .unicode ha hb hc hd hk, rfl, fun hx => ?_⟩
    obtain ⟨h5, h6⟩ := ascii_char hx
    rw [h5]
    exact .unicode ha hb hc hd (by omega) (hs h6)
  · rename_i he _ ih
    obtain ⟨t, ht, rfl⟩ := before_ok.mp h
    obtain ⟨k, hk, rfl, hs⟩ := ih ht
    refine ⟨_, .escape (simpleEscape_isSome.mp (by rw [he]; rfl)) hk, rfl, fun hx => ?_⟩
    obtain ⟨h5, h6⟩ := ascii_cons hx
    rw [h5]
    exact spells_simple he (hs h6)
  · rename_i c _ h1 h2 h3 ih
    obtain ⟨t, ht, rfl⟩ := before_ok.mp h
    obtain ⟨k, hk, rfl, hs⟩ := ih ht
    refine ⟨c :: k, .plain (by simpa using h3) h1 h2 hk, rfl, fun hx => ?_⟩
    obtain ⟨h5, h6⟩ := ascii_cons hx
    have h7 := hx c (by simp)
    rw [h5]
    have h8 := utf8_ascii h7
    have h9 : c :: k = String.utf8EncodeChar (Char.ofNat c.toNat) ++ k := by rw [h8]; rfl
    rw [h9]
    have h10 := char_ofNat h7
    refine .plain ?_ (fun e => h1 ?_) (fun e => h2 ?_) (hs h6)
    · rw [h10]
      rw [UInt8.lt_iff_toNat_lt] at h3
      exact Nat.le_of_not_lt h3
    · rw [e] at h8; exact (List.cons.inj h8).1.symm
    · rw [e] at h8; exact (List.cons.inj h8).1.symm

theorem key_sound {b s r : Bytes} (h : key b = .ok (s, r)) :
    ∃ k, Chars k ∧ b = k ++ 34 :: r ∧ ((∀ c ∈ s, c.toNat < 128) → Spells k (ascii s)) ∧ ∀ cs, Spells k cs → s = utf8 cs := by
  unfold key at h
  split at h
  · cases h
  · rename_i s' r' hp
    split at h
    · cases h
      obtain ⟨k, h1, h2, h3⟩ := parseStr_sound hp
      refine ⟨k, h1, h2, h3, fun cs hc => ?_⟩
      rw [h2, parseStr_complete hc] at hp
      cases hp
      rfl
    · cases h

/-- The name of a field as the specification has it. -/
def Field.text : Field → String
  | .x => "x"
  | .y => "y"
  | .z => "z"
  | .yaw => "yaw"
  | .pitch => "pitch"
  | .roll => "roll"

theorem name_utf8 (f : Field) : utf8 f.text.toList = f.name := by cases f <;> rfl

theorem name_ascii (f : Field) : ascii f.name = f.text.toList ∧ ∀ c ∈ f.name, c.toNat < 128 := by
  cases f <;> exact ⟨by decide, by decide⟩

theorem field_eq {s : Bytes} {f : Field} : field s = some f ↔ s = f.name := by
  constructor
  · intro h
    unfold field at h
    repeat' split at h
    all_goals first
      | (cases h; assumption)
      | cases h
  · rintro rfl
    cases f <;> decide

/-- The field that a name stands for. -/
theorem key_field {b s r : Bytes} (h : key b = .ok (s, r)) :
    ∃ k, Chars k ∧ b = k ++ 34 :: r ∧ ∀ f, field s = some f ↔ Spells k f.text.toList := by
  obtain ⟨k, h1, h2, h3, h4⟩ := key_sound h
  refine ⟨k, h1, h2, fun f => ?_⟩
  rw [field_eq]
  constructor
  · rintro rfl
    have := name_ascii f
    rw [← this.1]
    exact h3 this.2
  · intro hf
    rw [h4 _ hf, name_utf8]

end Pica.JsonBody
