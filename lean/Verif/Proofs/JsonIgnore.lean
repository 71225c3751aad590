import Verif.Proofs.JsonLex
/-! The values that `serde_json` passes over are those of the grammar. -/

namespace Pica.JsonBody
open Spec.JsonText

/-- The text that closes the given frames. -/
inductive Closes : List UInt8 → Bytes → Prop where
  | nil : Closes [] []
  | arr {w fs c} : Blank w → Closes fs c → Closes (91 :: fs) (w ++ 93 :: c)
  | elements {w vs e fs c} : Blank w → IsElements vs e → Closes fs c → Closes (91 :: fs) (w ++ 44 :: (e ++ 93 :: c))
  | obj {w fs c} : Blank w → Closes fs c → Closes (123 :: fs) (w ++ 125 :: c)
  | members {w ms e fs c} : Blank w → IsMembers ms e → Closes fs c → Closes (123 :: fs) (w ++ 44 :: (e ++ 125 :: c))

theorem closes_arr {w u c : Bytes} {v : Value} {fs : List UInt8} (hw : Blank w) (hu : IsValue v u) (h : Closes (91 :: fs) c) :
    ∃ vs e c', w ++ (u ++ c) = e ++ 93 :: c' ∧ IsElements vs e ∧ Closes fs c' := by
  cases h with
  | arr h1 h2 => exact ⟨_, _, _, by simp, .one hw hu h1, h2⟩
  | elements h1 h2 h3 => exact ⟨_, _, _, by simp, .cons hw hu h1 h2, h3⟩

/-- The text of a name with its colon. -/
def IsName (k n : Bytes) : Prop := ∃ w w', n = w ++ 34 :: (k ++ 34 :: (w' ++ [58])) ∧ Blank w ∧ Chars k ∧ Blank w'

theorem closes_obj {n k w u c : Bytes} {v : Value} {fs : List UInt8} (hn : IsName k n) (hw : Blank w) (hu : IsValue v u)
    (h : Closes (123 :: fs) c) : ∃ ms e c', n ++ (w ++ (u ++ c)) = e ++ 125 :: c' ∧ IsMembers ms e ∧ Closes fs c' := by
  obtain ⟨w1, w2, rfl, h1, h2, h3⟩ := hn
  cases h with
  | obj h4 h5 => exact ⟨_, _, _, by simp, .one (.mk h1 h2 h3 hw hu h4), h5⟩
  | members h4 h5 h6 => exact ⟨_, _, _, by simp, .cons (.mk h1 h2 h3 hw hu h4) h5, h6⟩

theorem ignoreName_obj {b t : Bytes} (h : ignoreName 123 b = .ok t) : ∃ k n, IsName k n ∧ b = n ++ t := by
  unfold ignoreName at h
  rw [if_pos rfl] at h
  obtain ⟨w, hw, hb⟩ := skip_spec b
  split at h
  · cases h
  · rename_i c r hr
    rw [hr] at hb
    split at h
    · rename_i hc
      subst hc
      split at h
      · cases h
      · rename_i u hu
        obtain ⟨k, hk, rfl⟩ := ignoreStr_sound hu
        obtain ⟨w', hw', hb'⟩ := skip_spec u
        split at h
        · cases h
        · rename_i c' r' hr'
          rw [hr'] at hb'
          split at h
          · rename_i hc
            subst hc
            cases h
            exact ⟨k, _, ⟨w, w', rfl, hw, hk, hw'⟩, by rw [hb, hb']; simp⟩
          · cases h
    · cases h

theorem ignoreName_arr (b : Bytes) : ignoreName 91 b = .ok b := by
  unfold ignoreName
  rw [if_neg (by decide)]

theorem ignoreScalar_sound {c : UInt8} {b r : Bytes} (h : ignoreScalar c b = .ok r) :
    ∃ v u, IsValue v u ∧ c :: b = u ++ r := by
  unfold ignoreScalar at h
  split at h
  · rename_i hc; subst hc; exact ⟨_, _, .null, by rw [ident_ok.mp h]; rfl⟩
  · split at h
    · rename_i hc; subst hc; exact ⟨_, _, .true, by rw [ident_ok.mp h]; rfl⟩
    · split at h
      · rename_i hc; subst hc; exact ⟨_, _, .false, by rw [ident_ok.mp h]; rfl⟩
      · split at h
        · rename_i hc
          subst hc
          obtain ⟨w, f, e, rfl, h1, h2, h3⟩ := ignoreInteger_sound h
          exact ⟨_, _, .num ⟨[45], w, f, e, rfl, .inr rfl, h1, h2, h3⟩, by simp⟩
        · split at h
          · obtain ⟨w, f, e, hb, h1, h2, h3⟩ := ignoreInteger_sound h
            exact ⟨_, _, .num ⟨[], w, f, e, rfl, .inl rfl, h1, h2, h3⟩, by rw [hb]; simp⟩
          · split at h
            · rename_i hc
              subst hc
              obtain ⟨s, hs, rfl⟩ := ignoreStr_sound h
              exact ⟨_, _, .str hs, by simp⟩
            · cases h

theorem ignore_sound (n : Nat) :
    (∀ fs b r, b.length ≤ n → (∀ f ∈ fs, f = 91 ∨ f = 123) → ignoreValue fs b = .ok r →
      ∃ w v u c, b = w ++ (u ++ (c ++ r)) ∧ Blank w ∧ IsValue v u ∧ Closes fs c) ∧
    (∀ fs b r, b.length ≤ n → (∀ f ∈ fs, f = 91 ∨ f = 123) → ignoreClose true fs b = .ok r →
      ∃ c, b = c ++ r ∧ Closes fs c) ∧
    (∀ f fs b r, b.length ≤ n → (∀ g ∈ f :: fs, g = 91 ∨ g = 123) → ignoreClose false (f :: fs) b = .ok r →
      ∃ v u c, b = u ++ (c ++ r) ∧ IsValue v (f :: u) ∧ Closes fs c) := by
  induction n using Nat.strongRecOn with
  | ind n ih =>
    have hv : ∀ fs b r, b.length ≤ n → (∀ f ∈ fs, f = 91 ∨ f = 123) → ignoreValue fs b = .ok r →
        ∃ w v u c, b = w ++ (u ++ (c ++ r)) ∧ Blank w ∧ IsValue v u ∧ Closes fs c := by
      intro fs b r hb hf h
      rw [ignoreValue_eq] at h
      obtain ⟨w, hw, hs⟩ := skip_spec b
      split at h
      · cases h
      · rename_i c t ht
        rw [ht] at hs
        have hl := skip_length b
        rw [ht, List.length_cons] at hl
        split at h
        · rename_i hc
          obtain ⟨v, u, c', h1, h2, h3⟩ := (ih t.length (by omega)).2.2 c fs t r (Nat.le_refl _)
            (by simpa using ⟨hc, hf⟩) h
          exact ⟨w, v, c :: u, c', by rw [hs, h1]; rfl, hw, h2, h3⟩
        · split at h
          · cases h
          · rename_i t' ht'
            have h0 := ignoreScalar_length ht'
            obtain ⟨v, u, h1, h2⟩ := ignoreScalar_sound ht'
            obtain ⟨c', h3, h4⟩ := (ih t'.length (by omega)).2.1 fs t' r (Nat.le_refl _) hf h
            exact ⟨w, v, u, c', by rw [hs, h2, h3], hw, h1, h4⟩
    refine ⟨hv, ?_, ?_⟩
    · intro fs b r hb hf h
      cases fs with
      | nil => rw [ignoreClose_nil] at h; cases h; exact ⟨[], rfl, .nil⟩
      | cons f fs =>
        rw [ignoreClose_cons] at h
        obtain ⟨w, hw, hs⟩ := skip_spec b
        split at h
        · cases h
        · rename_i c t ht
          rw [ht] at hs
          have hl := skip_length b
          rw [ht, List.length_cons] at hl
          split at h
          · rename_i hc
            obtain rfl := hc.1
            split at h
            · cases h
            · rename_i t' ht'
              have h0 := ignoreName_length ht'
              obtain ⟨w', v, u, c', h1, h2, h3, h4⟩ := hv (f :: fs) t' r (by omega) hf h
              rcases hf f List.mem_cons_self with rfl | rfl
              · rw [ignoreName_arr] at ht'
                cases ht'
                obtain ⟨vs, e, c2, h5, h6, h7⟩ := closes_arr h2 h3 h4
                refine ⟨_, ?_, .elements hw h6 h7⟩
                rw [hs, h1, List.append_assoc w, List.cons_append, ← h5]
                simp
              · obtain ⟨k, nm, h8, h9⟩ := ignoreName_obj ht'
                obtain ⟨ms, e, c2, h5, h6, h7⟩ := closes_obj h8 h2 h3 h4
                refine ⟨_, ?_, .members hw h6 h7⟩
                rw [hs, h9, h1, List.append_assoc w, List.cons_append, ← h5]
                simp
          · split at h
            · rename_i hc
              obtain ⟨c', h1, h2⟩ := (ih t.length (by omega)).2.1 fs t r (Nat.le_refl _)
                (fun g hg => hf g (List.mem_cons_of_mem _ hg)) h
              rcases hc with ⟨rfl, rfl⟩ | ⟨rfl, rfl⟩
              · exact ⟨_, by rw [hs, h1]; simp, .arr hw h2⟩
              · exact ⟨_, by rw [hs, h1]; simp, .obj hw h2⟩
            · rw [if_pos rfl] at h
              cases h
    · intro f fs b r hb hf h
      rw [ignoreClose_cons] at h
      obtain ⟨w, hw, hs⟩ := skip_spec b
      split at h
      · cases h
      · rename_i c t ht
        rw [ht] at hs
        have hl := skip_length b
        rw [ht, List.length_cons] at hl
        rw [if_neg (by simp)] at h
        split at h
        · rename_i hc
          obtain ⟨c', h1, h2⟩ := (ih t.length (by omega)).2.1 fs t r (Nat.le_refl _)
            (fun g hg => hf g (List.mem_cons_of_mem _ hg)) h
          rcases hc with ⟨rfl, rfl⟩ | ⟨rfl, rfl⟩
          · exact ⟨_, w ++ [93], c', by rw [hs, h1]; simp, .none hw, h2⟩
          · exact ⟨_, w ++ [125], c', by rw [hs, h1]; simp, .empty hw, h2⟩
        · rw [if_neg (by decide)] at h
          split at h
          · cases h
          · rename_i t' ht'
            have h0 := ignoreName_length ht'
            rw [List.length_cons] at h0
            obtain ⟨w', v, u, c', h1, h2, h3, h4⟩ := hv (f :: fs) t' r (by omega) hf h
            rcases hf f List.mem_cons_self with rfl | rfl
            · rw [ignoreName_arr] at ht'
              cases ht'
              have hw2 : Blank (w ++ w') := by
                intro x hx
                rcases List.mem_append.mp hx with hx | hx
                · exact hw x hx
                · exact h2 x hx
              obtain ⟨vs, e, c2, h5, h6, h7⟩ := closes_arr hw2 h3 h4
              refine ⟨_, e ++ [93], c2, ?_, .arr h6, h7⟩
              have h8 : e ++ [93] ++ (c2 ++ r) = (e ++ 93 :: c2) ++ r := by simp
              rw [hs, h1, h8, ← h5]
              simp
            · obtain ⟨k, nm, h8, h9⟩ := ignoreName_obj ht'
              obtain ⟨w1, w2, rfl, ha, hk, hb⟩ := h8
              have hn : IsName k (w ++ (w1 ++ 34 :: (k ++ 34 :: (w2 ++ [58])))) := by
                refine ⟨w ++ w1, w2, by simp, ?_, hk, hb⟩
                intro x hx
                rcases List.mem_append.mp hx with hx | hx
                · exact hw x hx
                · exact ha x hx
              obtain ⟨ms, e, c2, h5, h6, h7⟩ := closes_obj hn h2 h3 h4
              refine ⟨_, e ++ [125], c2, ?_, .obj h6, h7⟩
              have h8 : e ++ [125] ++ (c2 ++ r) = (e ++ 125 :: c2) ++ r := by simp
              rw [hs, h9, h1, h8, ← h5]
              simp

theorem ignoreValue_sound {b r : Bytes} (h : ignoreValue [] b = .ok r) :
    ∃ w v u, b = w ++ (u ++ r) ∧ Blank w ∧ IsValue v u := by
  obtain ⟨w, v, u, c, h1, h2, h3, h4⟩ := (ignore_sound b.length).1 [] b r (Nat.le_refl _) (by simp) h
  cases h4
  exact ⟨w, v, u, h1, h2, h3⟩

theorem ignoreValue_skip (fs : List UInt8) (b : Bytes) : ignoreValue fs (skip b) = ignoreValue fs b := by
  rw [ignoreValue_eq, ignoreValue_eq fs b, skip_skip]

theorem ignoreValue_blank {w : Bytes} (hw : Blank w) (fs : List UInt8) (b : Bytes) :
    ignoreValue fs (w ++ b) = ignoreValue fs b := by
  rw [← ignoreValue_skip, skip_blank hw, ignoreValue_skip]

theorem ignoreClose_blank {w : Bytes} (hw : Blank w) (comma : Bool) (f : UInt8) (fs : List UInt8) (b : Bytes) :
    ignoreClose comma (f :: fs) (w ++ b) = ignoreClose comma (f :: fs) b := by
  rw [ignoreClose_cons, ignoreClose_cons, skip_blank hw]

theorem ignoreValue_scalar {fs : List UInt8} {c : UInt8} {t r : Bytes} (hc : Dark c) (h : ¬ (c = 91 ∨ c = 123))
    (hs : ignoreScalar c t = .ok r) : ignoreValue fs (c :: t) = ignoreClose true fs r := by
  rw [ignoreValue_eq, skip_dark hc]
  dsimp only
  rw [if_neg h, hs]

theorem isDigit_ne {c : UInt8} (h : isDigit c = true) : c ≠ 110 ∧ c ≠ 116 ∧ c ≠ 102 ∧ c ≠ 45 ∧ c ≠ 91 ∧ c ≠ 123 ∧ c ≠ 93 ∧ c ≠ 125 := by
  refine ⟨?_, ?_, ?_, ?_, ?_, ?_, ?_, ?_⟩ <;> (rintro rfl; simp [isDigit] at h)

/-- The first byte of a value. -/
theorem value_head {v : Value} {u : Bytes} (h : IsValue v u) : ∃ c t, u = c :: t ∧ Dark c ∧ c ≠ 93 ∧ c ≠ 125 := by
  cases h with
  | null => exact ⟨_, _, rfl, by decide, by decide, by decide⟩
  | true => exact ⟨_, _, rfl, by decide, by decide, by decide⟩
  | false => exact ⟨_, _, rfl, by decide, by decide, by decide⟩
  | str => exact ⟨_, _, rfl, by decide, by decide, by decide⟩
  | none => exact ⟨_, _, rfl, by decide, by decide, by decide⟩
  | arr => exact ⟨_, _, rfl, by decide, by decide, by decide⟩
  | empty => exact ⟨_, _, rfl, by decide, by decide, by decide⟩
  | obj => exact ⟨_, _, rfl, by decide, by decide, by decide⟩
  | num h =>
    obtain ⟨s, w, f, e, rfl, hs, hw, -⟩ := h
    obtain ⟨c, t, rfl, hc, -⟩ := digits_cons hw.1
    have := isDigit_ne hc
    rcases hs with rfl | rfl
    · exact ⟨c, _, rfl, digit_dark hc, this.2.2.2.2.2.2.1, this.2.2.2.2.2.2.2⟩
    · exact ⟨45, _, rfl, by decide, by decide, by decide⟩

theorem ignore_number {l : Bytes} (h : Spec.JsonText.Number l) (fs : List UInt8) {r : Bytes} (hr : Stop r) :
    ignoreValue fs (l ++ r) = ignoreClose true fs r := by
  obtain ⟨s, w, f, e, rfl, hs, hw, hf, he⟩ := h
  have hx := ignoreInteger_complete hw hf he hr
  rcases hs with rfl | rfl
  · obtain ⟨c, t, rfl, hc, -⟩ := digits_cons hw.1
    have hn := isDigit_ne hc
    simp only [List.nil_append, List.append_assoc, List.cons_append] at hx ⊢
    refine ignoreValue_scalar (digit_dark hc) (by tauto) ?_
    rw [ignoreScalar, if_neg hn.1, if_neg hn.2.1, if_neg hn.2.2.1, if_neg hn.2.2.2.1, if_pos hc, hx]
  · simp only [List.append_assoc, List.cons_append, List.nil_append]
    refine ignoreValue_scalar (by decide) (by decide) ?_
    rw [ignoreScalar, if_neg (by decide), if_neg (by decide), if_neg (by decide), if_pos rfl, hx]

theorem ignoreName_complete {w k w' : Bytes} (hw : Blank w) (hk : Chars k) (hw' : Blank w') (r : Bytes) :
    ignoreName 123 (w ++ 34 :: (k ++ 34 :: (w' ++ 58 :: r))) = .ok r := by
  unfold ignoreName
  rw [if_pos rfl, skip_blank hw, skip_dark (by decide)]
  dsimp only
  rw [if_pos rfl, ignoreStr_complete hk]
  dsimp only
  rw [skip_blank hw', skip_dark (by decide)]
  dsimp only
  rw [if_pos rfl]

theorem ignoreName_skip (b : Bytes) : ignoreName 123 (skip b) = ignoreName 123 b := by
  unfold ignoreName
  rw [if_pos rfl, if_pos rfl, skip_skip]

mutual
theorem ignore_value : ∀ {v u}, IsValue v u → ∀ (fs : List UInt8) {r : Bytes}, Stop r →
    ignoreValue fs (u ++ r) = ignoreClose true fs r
  | _, _, .null, fs, r, _ => ignoreValue_scalar (c := 110) (t := [117, 108, 108] ++ r) (by decide) (by decide) rfl
  | _, _, .true, fs, r, _ => ignoreValue_scalar (c := 116) (t := [114, 117, 101] ++ r) (by decide) (by decide) rfl
  | _, _, .false, fs, r, _ => ignoreValue_scalar (c := 102) (t := [97, 108, 115, 101] ++ r) (by decide) (by decide) rfl
  | _, _, .num h, fs, r, hr => ignore_number h fs hr
  | _, _, .str h, fs, r, _ => by
    rw [List.cons_append, List.append_assoc]
    exact ignoreValue_scalar (by decide) (by decide) (ignoreStr_complete h r)
  | _, _, .none hw, fs, r, _ => by
    rw [List.cons_append, List.append_assoc, ignoreValue_eq, skip_dark (by decide)]
    dsimp only
    rw [if_pos (.inl rfl), ignoreClose_cons, skip_blank hw, List.singleton_append, skip_dark (by decide)]
    dsimp only
    rw [if_neg (by decide), if_pos (.inl ⟨rfl, rfl⟩)]
  | _, _, .empty hw, fs, r, _ => by
    rw [List.cons_append, List.append_assoc, ignoreValue_eq, skip_dark (by decide)]
    dsimp only
    rw [if_pos (.inr rfl), ignoreClose_cons, skip_blank hw, List.singleton_append, skip_dark (by decide)]
    dsimp only
    rw [if_neg (by decide), if_pos (.inr ⟨rfl, rfl⟩)]
  | _, _, .arr h, fs, r, _ => by
    obtain ⟨h1, c, t, h2, h3⟩ := ignore_elements h fs r
    rw [List.cons_append, List.append_assoc, ignoreValue_eq, skip_dark (by decide)]
    dsimp only
    rw [if_pos (.inl rfl), ignoreClose_cons, List.singleton_append, h2]
    dsimp only
    rw [if_neg (by simp), if_neg (by simp [h3]), if_neg (by decide), ignoreName_arr]
    dsimp only
    rw [← h2, ignoreValue_skip, h1]
  | _, _, .obj h, fs, r, _ => by
    obtain ⟨b, h1, h1', c, t, h2, h3⟩ := ignore_members h fs r
    rw [List.cons_append, List.append_assoc, ignoreValue_eq, skip_dark (by decide)]
    dsimp only
    rw [if_pos (.inr rfl), ignoreClose_cons, List.singleton_append, h2]
    dsimp only
    rw [if_neg (by simp), if_neg (by simp [h3]), if_neg (by decide), ← h2]
    rw [ignoreName_skip, h1]
    exact h1'

theorem ignore_elements : ∀ {vs b}, IsElements vs b → ∀ (fs : List UInt8) (r : Bytes),
    ignoreValue (91 :: fs) (b ++ 93 :: r) = ignoreClose true fs r ∧ ∃ c t, skip (b ++ 93 :: r) = c :: t ∧ c ≠ 93
  | _, _, .one hw hv hw', fs, r => by
    obtain ⟨c, t, hu, hc, h93, -⟩ := value_head hv
    refine ⟨?_, ?_⟩
    · rw [List.append_assoc, ignoreValue_blank hw, List.append_assoc,
        ignore_value hv (91 :: fs) (.blank hw' (.cons (by simp))), ignoreClose_blank hw', ignoreClose_cons, skip_dark (by decide)]
      dsimp only
      rw [if_neg (by decide), if_pos (.inl ⟨rfl, rfl⟩)]
    · rw [List.append_assoc, skip_blank hw, hu]
      exact ⟨c, _, skip_dark hc _, h93⟩
  | _, _, .cons (r := e) hw hv hw' he, fs, r => by
    obtain ⟨c, t, hu, hc, h93, -⟩ := value_head hv
    refine ⟨?_, ?_⟩
    · rw [List.append_assoc, ignoreValue_blank hw, List.append_assoc, List.append_assoc, List.cons_append,
        ignore_value hv (91 :: fs) (.blank hw' (.cons (by simp))), ignoreClose_blank hw', ignoreClose_cons,
        skip_dark (by decide)]
      dsimp only
      rw [if_pos (by decide), ignoreName_arr]
      exact (ignore_elements he fs r).1
    · rw [List.append_assoc, skip_blank hw, hu]
      exact ⟨c, _, skip_dark hc _, h93⟩

theorem ignore_members : ∀ {ms b}, IsMembers ms b → ∀ (fs : List UInt8) (r : Bytes),
    ∃ t, ignoreName 123 (b ++ 125 :: r) = .ok t ∧ ignoreValue (123 :: fs) t = ignoreClose true fs r ∧
      ∃ c t, skip (b ++ 125 :: r) = c :: t ∧ c ≠ 125
  | _, _, .one h, fs, r => by
    obtain ⟨t, h1, h2, h3⟩ := ignore_member h fs (r := 125 :: r) (.cons (by simp))
    refine ⟨t, h1, ?_, h3⟩
    rw [h2, ignoreClose_cons, skip_dark (by decide)]
    dsimp only
    rw [if_neg (by decide), if_pos (.inr ⟨rfl, rfl⟩)]
  | _, _, .cons (r := e) h he, fs, r => by
    obtain ⟨t, h1, h2, h3⟩ := ignore_member h fs (r := 44 :: (e ++ 125 :: r)) (.cons (by simp))
    rw [List.append_assoc, List.cons_append]
    refine ⟨t, h1, ?_, h3⟩
    rw [h2, ignoreClose_cons, skip_dark (by decide)]
    dsimp only
    obtain ⟨t', h4, h5, -⟩ := ignore_members he fs r
    rw [if_pos (by decide), h4]
    exact h5

theorem ignore_member : ∀ {m b}, IsMember m b → ∀ (fs : List UInt8) {r : Bytes}, Stop r →
    ∃ t, ignoreName 123 (b ++ r) = .ok t ∧ ignoreValue (123 :: fs) t = ignoreClose true (123 :: fs) r ∧
      ∃ c t, skip (b ++ r) = c :: t ∧ c ≠ 125
  | _, _, .mk (u := u) (b := b) (u' := u') hw hk hw' hu hv hu', fs, r, hr => by
    refine ⟨u ++ (b ++ (u' ++ r)), ?_, ?_, ?_⟩
    · rw [← ignoreName_complete hw hk hw']
      simp
    · rw [ignoreValue_blank hu, ignore_value hv (123 :: fs) (.blank hu' hr), ignoreClose_blank hu']
    · rw [List.append_assoc, skip_blank hw, List.cons_append, skip_dark (by decide)]
      exact ⟨_, _, rfl, by decide⟩
end

theorem ignoreValue_complete {v : Value} {w u r : Bytes} (hw : Blank w) (h : IsValue v u) (hr : Stop r) :
    ignoreValue [] (w ++ (u ++ r)) = .ok r := by
  rw [ignoreValue_blank hw, ignore_value h [] hr, ignoreClose_nil]

end Pica.JsonBody
