import Verif.Proofs.JsonBody
/-! Complete documents never look cut off. -/

namespace Pica.JsonBody
open Pica.Spec.JsonText

/-- Refused, or read up to `r`. -/
def Whole {α : Type} (x : Res (α × Bytes)) (r : Bytes) : Prop := x = .error .bad ∨ ∃ a, x = .ok (a, r)

theorem before_whole {u r : Bytes} {x : Res (Bytes × Bytes)} (h : Whole x r) : Whole (before u x) r := by
  rcases h with rfl | ⟨a, rfl⟩
  · exact .inl rfl
  · exact .inr ⟨_, rfl⟩

theorem parseStr_whole {k : Bytes} (h : Chars k) (r : Bytes) : Whole (parseStr (k ++ 34 :: r)) r := by
  induction hn : k.length using Nat.strongRecOn generalizing k with
  | _ n ih =>
  subst hn
  cases h with
  | nil => exact .inr ⟨[], by rw [List.nil_append, parseStr.eq_def]; rfl⟩
  | @plain c k h1 h2 h3 h4 =>
    rw [List.cons_append, parseStr.eq_def]
    dsimp only
    rw [if_neg h2, if_neg h3, if_neg (by simpa using h1)]
    exact before_whole (ih _ (by simp) h4 rfl)
  | @escape e k h1 h2 =>
    rw [List.cons_append, List.cons_append, parseStr.eq_def]
    dsimp only
    have he : e ≠ 117 := by rintro rfl; simp at h1
    rw [if_neg (by decide), if_pos rfl, if_neg he]
    obtain ⟨x, hx⟩ := Option.isSome_iff_exists.mp (simpleEscape_isSome.mpr h1)
    rw [hx]
    exact before_whole (ih _ (by simp) h2 rfl)
  | @unicode a b c d k ha hb hc hd h5 =>
    simp only [List.cons_append]
    rw [parseStr.eq_def]
    dsimp only
    rw [if_neg (by decide), if_pos rfl, if_pos rfl, hex4_hex ha hb hc hd]
    dsimp only
    split
    · exact .inl rfl
    · split
      · have h5' := h5
        cases h5 with
        | nil =>
          rw [List.nil_append]
          dsimp only
          exact .inl (if_pos (by decide))
        | plain _ _ h3 _ =>
          rw [List.cons_append]
          dsimp only
          exact .inl (if_pos h3)
        | @escape e k h1 _ =>
          rw [List.cons_append, List.cons_append]
          dsimp only
          have he : e ≠ 117 := by rintro rfl; simp at h1
          rw [if_neg (by decide), if_pos he]
          exact .inl rfl
        | unicode ha hb hc hd h6 =>
          simp only [List.cons_append]
          rw [if_neg (by decide), if_neg (by decide), hex4_hex ha hb hc hd]
          dsimp only
          split
          · exact .inl rfl
          · exact before_whole (ih _ (by simp; omega) h6 rfl)
      · exact before_whole (ih _ (by simp; omega) h5 rfl)

theorem key_whole {k : Bytes} (h : Chars k) (r : Bytes) : Whole (key (k ++ 34 :: r)) r := by
  unfold key
  rcases parseStr_whole h r with h | ⟨a, h⟩
  · rw [h]; exact .inl rfl
  · rw [h]
    dsimp only
    split
    · exact .inr ⟨_, rfl⟩
    · exact .inl rfl

theorem exponent_whole {s ds r : Bytes} (hs : s = [] ∨ s = [43] ∨ s = [45]) (hd : Digits ds) (hr : Stop r) :
    Whole (exponent (s ++ (ds ++ r))) r := by
  obtain ⟨c, t, rfl, hc, ht⟩ := digits_cons hd
  have := dropDigits_append ht hr.noDigit
  refine .inr ⟨.float, ?_⟩
  rcases hs with rfl | rfl | rfl <;>
    simp [exponent, digit_sign hc, hc, this]

theorem parseNumber_whole (p : Bool) (m : Nat) {f e r : Bytes} (hf : Fraction f) (he : Exponent e) (hr : Stop r) :
    Whole (parseNumber p m (f ++ (e ++ r))) r := by
  rcases hf with rfl | ⟨ds, rfl, hd⟩
  · rcases he with rfl | ⟨c, s, ds, rfl, hc, hs, hd⟩
    · exact .inr ⟨_, parseNumber_stop p m hr⟩
    · rw [List.nil_append, List.cons_append, parseNumber.eq_def]
      dsimp only
      rw [if_neg (by rcases hc with rfl | rfl <;> decide), if_pos hc, List.append_assoc]
      exact exponent_whole hs hd hr
  · rw [List.cons_append, parseNumber.eq_def]
    dsimp only
    rw [if_pos rfl]
    obtain ⟨c, t, rfl, hc, ht⟩ := digits_cons hd
    rw [List.cons_append, decimal.eq_def]
    dsimp only
    rw [if_pos hc, dropDigits_append ht (exponent_noDigit he hr)]
    rcases he with rfl | ⟨c, s, ds, rfl, hc, hs, hd⟩
    · rw [List.nil_append]
      cases r with
      | nil => exact .inr ⟨_, rfl⟩
      | cons x t =>
        have := stop_not hr
        dsimp only
        rw [if_neg (by tauto)]
        exact .inr ⟨_, rfl⟩
    · rw [List.cons_append]
      dsimp only
      rw [if_pos hc, List.append_assoc]
      exact exponent_whole hs hd hr

theorem parseInteger_whole (p : Bool) {w f e r : Bytes} (hw : Spec.JsonText.Whole w) (hf : Fraction f) (he : Exponent e) (hr : Stop r) :
    Whole (parseInteger p (w ++ (f ++ (e ++ r)))) r := by
  obtain ⟨hd, h0⟩ := hw
  obtain ⟨c, t, rfl, hc, ht⟩ := digits_cons hd
  have hn := fraction_noDigit hf he hr
  by_cases h48 : c = 48
  · subst h48
    obtain rfl : t = [] := by have := h0 rfl; simpa using this
    have hx := parseNumber_whole p 0 hf he hr
    rw [List.singleton_append, parseInteger.eq_def]
    dsimp only
    rw [if_pos rfl]
    match hy : f ++ (e ++ r) with
    | [] => rw [hy] at hx; exact hx
    | d :: u =>
      dsimp only
      rw [hn d u hy, if_neg (by decide), ← hy]
      exact hx
  · rw [List.cons_append, parseInteger.eq_def]
    dsimp only
    rw [if_neg h48, if_pos hc, digits_append _ ht hn]
    exact parseNumber_whole p _ hf he hr

theorem visit_whole {lo hi : Int} {x : Res (Number × Bytes)} {r : Bytes} (h : Whole x r) : Whole (visit lo hi x) r := by
  rcases h with rfl | ⟨_ | _, rfl⟩
  · exact .inl rfl
  · rw [visit]
    split
    · exact .inr ⟨_, rfl⟩
    · exact .inl rfl
  · exact .inl rfl

theorem invalid_whole {α : Type} {x : Res (α × Bytes)} {r : Bytes} (h : Whole x r) : invalid x = .bad := by
  rcases h with rfl | ⟨_, rfl⟩ <;> rfl

/-- A number is read from any value, or it is refused. -/
theorem number_whole (lo hi : Int) {w b r : Bytes} {v : Value} (hw : Blank w) (hv : IsValue v b) (hr : Stop r) :
    Whole (number lo hi (w ++ (b ++ r))) r := by
  unfold number
  rw [skip_blank hw]
  cases hv with
  | null => exact .inl rfl
  | true => exact .inl rfl
  | false => exact .inl rfl
  | num h =>
    obtain ⟨s, w, f, e, rfl, hs, hw, hf, he⟩ := h
    have hx : ∀ p, Whole (parseInteger p (w ++ (f ++ (e ++ r)))) r := fun p => parseInteger_whole p hw hf he hr
    rcases hs with rfl | rfl
    · obtain ⟨c, t, rfl, hc, ht⟩ := digits_cons hw.1
      have hx := hx true
      simp only [List.nil_append, List.append_assoc, List.cons_append] at hx ⊢
      rw [skip_dark (digit_dark hc)]
      dsimp only
      rw [if_neg (fun e => digit_sign hc (.inr e)), if_pos hc]
      exact visit_whole hx
    · simp only [List.append_assoc, List.cons_append, List.nil_append]
      rw [skip_dark (by decide)]
      dsimp only
      rw [if_pos rfl]
      exact visit_whole (hx false)
  | str h =>
    rw [List.cons_append, skip_dark (by decide), List.append_assoc]
    have := invalid_whole (key_whole h r)
    refine .inl ?_
    show Except.error (invalid (key _)) = _
    exact congrArg _ this
  | none _ => exact .inl rfl
  | arr _ => exact .inl rfl
  | empty _ => exact .inl rfl
  | obj _ => exact .inl rfl

theorem value_start {v : Value} {b : Bytes} (h : IsValue v b) : ∃ c t, b = c :: t ∧ Dark c ∧ c ≠ 93 ∧ c ≠ 44 := by
  cases h with
  | num h =>
    obtain ⟨s, w, f, e, rfl, hs, hw, hf, he⟩ := h
    rcases hs with rfl | rfl
    · obtain ⟨c, t, rfl, hc, ht⟩ := digits_cons hw.1
      refine ⟨c, _, rfl, digit_dark hc, ?_, ?_⟩ <;> (rintro rfl; simp [isDigit] at hc)
    · exact ⟨_, _, rfl, by decide, by decide, by decide⟩
  | _ => exact ⟨_, _, rfl, by decide, by decide, by decide⟩

/-- Only an integer is read as one. -/
theorem number_value {lo hi n : Int} {w b r r' : Bytes} {v : Value} (hw : Blank w) (hv : IsValue v b) (hr : Stop r)
    (h : number lo hi (w ++ (b ++ r)) = .ok (n, r')) : r' = r ∧ v = .num b ∧ Integer b n ∧ lo ≤ n ∧ n ≤ hi := by
  obtain rfl : r' = r := by
    rcases number_whole lo hi hw hv hr with h' | ⟨a, h'⟩ <;> rw [h'] at h <;> cases h
    rfl
  obtain ⟨w', l, hw', h1, h2, h3⟩ := number_sound h
  have hs := congrArg skip h1
  rw [skip_blank hw, skip_blank hw'] at hs
  obtain ⟨c, t, rfl, hc, -⟩ := integer_head h2
  obtain ⟨d, u, rfl, hd, -⟩ := value_start hv
  rw [List.cons_append, List.cons_append, skip_dark hc, skip_dark hd, ← List.cons_append, ← List.cons_append] at hs
  have hs := List.append_cancel_right hs
  rw [hs] at hv ⊢
  refine ⟨rfl, ?_, h2, h3⟩
  have hh : c = 45 ∨ isDigit c = true := by
    rcases h2 with ⟨h2, -⟩ | ⟨d, h2, -⟩
    · exact .inr (isDigit_iff.mpr (h2.1.2 c List.mem_cons_self))
    · exact .inl (List.cons.inj h2).1
  generalize hb : c :: t = b at hv
  cases hv with
  | num _ => rfl
  | _ =>
    cases hb
    rcases hh with h | h <;> exact absurd h (by decide)

/-- Refused, or read as the member is. -/
theorem member_whole {s : Seen} {k n : Bytes} (hn : ∀ f, field n = some f ↔ Spells k f.text.toList) {w u b r : Bytes} {v : Value}
    (hw : Blank w) (hu : Blank u) (hv : IsValue v b) (hr : Stop r) :
    member s n (w ++ 58 :: (u ++ (b ++ r))) = .error .bad ∨
      ∃ s2, member s n (w ++ 58 :: (u ++ (b ++ r))) = .ok (s2, r) ∧ ∀ ms s', Reads ms s2 s' → Reads ((k, v) :: ms) s s' := by
  unfold member
  rw [colon_complete hw]
  dsimp only
  rw [ignoreValue_complete hu hv hr]
  split
  · rename_i hx
    refine .inr ⟨_, rfl, fun ms s' h => .other (fun f hf => ?_) h⟩
    rw [(hn f).mpr hf] at hx
    cases hx
  · rename_i f hf
    split
    · exact .inl rfl
    · rename_i hs
      rcases number_whole f.lo f.hi hu hv hr with h | ⟨a, h⟩ <;> rw [h]
      · exact .inl rfl
      · obtain ⟨-, rfl, h2, h3, h4⟩ := number_value hu hv hr h
        exact .inr ⟨_, rfl, fun ms s' h => .known f ((hn f).mp hf) (by simpa using hs) h2 h3 h4 h⟩

/-- Refused, or read as the members are, up to the closing brace. -/
def Bounded (ms : List (Bytes × Value)) (s : Seen) (x : Res (Seen × Bytes)) (t : Bytes) : Prop :=
  x = .error .bad ∨ ∃ s' r, x = .ok (s', r) ∧ skip r = 125 :: t ∧ Reads ms s s'

theorem members_next {first : Bool} {s : Seen} {b k w u v' r t : Bytes} {v : Value} {ms : List (Bytes × Value)}
    (h1 : nextKey first b = .ok (some (k ++ 34 :: (w ++ 58 :: (u ++ (v' ++ r)))))) (hk : Chars k) (hw : Blank w) (hu : Blank u)
    (hv : IsValue v v') (hr : Stop r) (h : ∀ s, Bounded ms s (members s false r) t) :
    Bounded ((k, v) :: ms) s (members s first b) t := by
  rw [members_eq, h1]
  dsimp only
  rcases key_whole hk (w ++ 58 :: (u ++ (v' ++ r))) with h2 | ⟨n, h2⟩
  · rw [h2]; exact .inl rfl
  · obtain ⟨k', -, h4, h5⟩ := key_field h2
    obtain rfl := List.append_cancel_right h4
    rw [h2]
    dsimp only
    rcases member_whole (s := s) h5 hw hu hv hr with h3 | ⟨s', h3, h6⟩ <;> rw [h3]
    · exact .inl rfl
    · rcases h s' with h | ⟨s2, r2, h7, h8, h9⟩
      · exact .inl h
      · exact .inr ⟨s2, r2, h7, h8, h6 _ _ h9⟩

theorem members_whole {ms : List (Bytes × Value)} {e : Bytes} (he : IsMembers ms e) (t : Bytes) (s : Seen) :
    Bounded ms s (members s true (e ++ 125 :: t)) t ∧
      ∀ w, Blank w → Bounded ms s (members s false (w ++ 44 :: (e ++ 125 :: t))) t := by
  induction ms generalizing e s with
  | nil => cases he
  | cons m ms ih =>
    cases he with
    | one hm =>
      cases hm with
      | @mk w k w' u v b u' hw hk hw' hu hv hu' =>
        have hend : ∀ s, Bounded [] s (members s false (u' ++ 125 :: t)) t := by
          intro s
          obtain ⟨r, h3, h4⟩ := members_end hu' s false t
          exact .inr ⟨_, _, h3, h4, .nil⟩
        have hst : Stop (u' ++ 125 :: t) := .blank hu' (.cons (by simp))
        refine ⟨members_next ?_ hk hw' hu hv hst hend, fun w0 hw0 => members_next ?_ hk hw' hu hv hst hend⟩
        · rw [← nextKey_first hw]; simp
        · rw [← nextKey_more hw0 hw]; simp
    | @cons _ mb _ rest hm he =>
      cases hm with
      | @mk w k w' u v b u' hw hk hw' hu hv hu' =>
        have hend : ∀ s, Bounded ms s (members s false (u' ++ 44 :: (rest ++ 125 :: t))) t := fun s => (ih he s).2 u' hu'
        have hst : Stop (u' ++ 44 :: (rest ++ 125 :: t)) := .blank hu' (.cons (by simp))
        refine ⟨members_next ?_ hk hw' hu hv hst hend, fun w0 hw0 => members_next ?_ hk hw' hu hv hst hend⟩
        · rw [← nextKey_first hw]; simp
        · rw [← nextKey_more hw0 hw]; simp

/-- Refused, or one more element. -/
def Next (lo hi : Int) (v : Value) (x : Res (Option (Int × Bytes))) (r : Bytes) : Prop :=
  x = .error .bad ∨ ∃ n l, x = .ok (some (n, r)) ∧ v = .num l ∧ Integer l n ∧ lo ≤ n ∧ n ≤ hi

theorem next_whole (lo hi : Int) {b r : Bytes} {v : Value} (hv : IsValue v b) (hr : Stop r) :
    Next lo hi v (match number lo hi (b ++ r) with | .error e => .error e | .ok x => .ok (some x)) r := by
  rcases number_whole (w := []) lo hi (by simp [Blank]) hv hr with h | ⟨a, h⟩ <;> rw [List.nil_append] at h <;> rw [h]
  · exact .inl rfl
  · obtain ⟨-, h1, h2, h3, h4⟩ := number_value (w := []) (by simp [Blank]) hv hr h
    exact .inr ⟨_, _, rfl, h1, h2, h3, h4⟩

theorem element_first_whole (lo hi : Int) {w b r : Bytes} {v : Value} (hw : Blank w) (hv : IsValue v b) (hr : Stop r) :
    Next lo hi v (element true lo hi (w ++ (b ++ r))) r := by
  have hx := next_whole lo hi hv hr
  obtain ⟨c, t, rfl, hc, h93, -⟩ := value_start hv
  unfold element
  rw [skip_blank hw, List.cons_append, skip_dark hc]
  dsimp only
  rw [if_neg h93, if_neg (by simp), if_pos rfl]
  exact hx

theorem element_more_whole (lo hi : Int) {w w' b r : Bytes} {v : Value} (hw : Blank w) (hw' : Blank w') (hv : IsValue v b) (hr : Stop r) :
    Next lo hi v (element false lo hi (w ++ 44 :: (w' ++ (b ++ r)))) r := by
  have hx := next_whole lo hi hv hr
  obtain ⟨c, t, rfl, hc, h93, -⟩ := value_start hv
  unfold element
  rw [skip_blank hw, skip_dark (by decide)]
  dsimp only
  rw [if_neg (by decide), if_pos ⟨rfl, rfl⟩, skip_blank hw', List.cons_append, skip_dark hc]
  dsimp only
  rw [if_neg h93]
  exact hx

/-- Refused, or read as the elements are, up to something that does not look cut off. -/
def Shuts (fs : List Field) (vs : List Value) (s : Seen) (t : Bytes) (x : Res (Seen × Bytes)) : Prop :=
  x = .error .bad ∨
    ∃ s' r, x = .ok (s', r) ∧ (close 93 r = .error .bad ∨ close 93 r = .ok t ∧ Fills fs vs s s')

theorem close_more {w : Bytes} (hw : Blank w) (t : Bytes) : close 93 (w ++ 44 :: t) = .error .bad := by
  unfold close
  rw [skip_blank hw, skip_dark (by decide)]
  dsimp only
  rw [if_neg (by decide)]

theorem elements_at_end {w : Bytes} (hw : Blank w) (fs : List Field) (t : Bytes) (s : Seen) (first : Bool) :
    Shuts fs [] s t (elements s first fs (w ++ 93 :: t)) := by
  cases fs with
  | nil => exact .inr ⟨_, _, rfl, .inr ⟨close_complete hw (by decide) t, .nil⟩⟩
  | cons f fs =>
    refine .inl ?_
    rw [elements]
    have : element first f.lo f.hi (w ++ 93 :: t) = .ok none := by
      unfold element
      rw [skip_blank hw, skip_dark (by decide)]
      rfl
    rw [this]

theorem elements_next {first : Bool} {f : Field} {fs : List Field} {s : Seen} {b r t : Bytes} {v : Value} {vs : List Value}
    (h1 : Next f.lo f.hi v (element first f.lo f.hi b) r) (h : ∀ s, Shuts fs vs s t (elements s false fs r)) :
    Shuts (f :: fs) (v :: vs) s t (elements s first (f :: fs) b) := by
  rw [elements]
  rcases h1 with h1 | ⟨n, l, h1, rfl, h2, h3, h4⟩ <;> rw [h1]
  · exact .inl rfl
  · rcases h (s.set f n) with h | ⟨s', r', h5, h6 | ⟨h6, h7⟩⟩
    · exact .inl h
    · exact .inr ⟨s', r', h5, .inl h6⟩
    · exact .inr ⟨s', r', h5, .inr ⟨h6, .cons h2 h3 h4 h7⟩⟩

theorem elements_whole {vs : List Value} {fs : List Field} {e : Bytes} (he : IsElements vs e) (t : Bytes) (s : Seen) :
    (fs ≠ [] → Shuts fs vs s t (elements s true fs (e ++ 93 :: t))) ∧
      ∀ w, Blank w → Shuts fs vs s t (elements s false fs (w ++ 44 :: (e ++ 93 :: t))) := by
  induction vs generalizing e s fs with
  | nil => cases he
  | cons v vs ih =>
    cases fs with
    | nil => exact ⟨fun h => absurd rfl h, fun w hw => .inr ⟨_, _, rfl, .inl (close_more hw _)⟩⟩
    | cons f fs =>
    cases he with
    | @one w _ b w' hw hv hw' =>
      have hst : Stop (w' ++ 93 :: t) := .blank hw' (.cons (by simp))
      refine ⟨fun _ => ?_, fun w0 hw0 => ?_⟩
      · rw [List.append_assoc, List.append_assoc]
        exact elements_next (element_first_whole _ _ hw hv hst) fun s => elements_at_end hw' ..
      · rw [List.append_assoc, List.append_assoc]
        exact elements_next (element_more_whole _ _ hw0 hw hv hst) fun s => elements_at_end hw' ..
    | @cons w _ b w' _ rest hw hv hw' he =>
      have hst : Stop (w' ++ 44 :: (rest ++ 93 :: t)) := .blank hw' (.cons (by simp))
      refine ⟨fun _ => ?_, fun w0 hw0 => ?_⟩
      · rw [List.append_assoc, List.append_assoc, List.append_assoc, List.cons_append]
        exact elements_next (element_first_whole _ _ hw hv hst) fun s => (ih he s).2 w' hw'
      · rw [List.append_assoc, List.append_assoc, List.append_assoc, List.cons_append]
        exact elements_next (element_more_whole _ _ hw0 hw hv hst) fun s => (ih he s).2 w' hw'

theorem fills_describes {vs : List Value} {s : Seen} {p : Position} (hf : Fills allFields vs (fun _ => none) s)
    (hp : position s = some p) : Describes (.arr vs) p := by
  obtain ⟨x1, x2, x3, x4, x5, x6, rfl, ⟨n1, i1, s1, r1⟩, ⟨n2, i2, s2, r2⟩, ⟨n3, i3, s3, r3⟩, ⟨n4, i4, s4, r4⟩,
    ⟨n5, i5, s5, r5⟩, ⟨n6, i6, s6, r6⟩⟩ := fills_all hf
  have key := position_some hp (by
    intro f n hn
    cases f
    · rw [s1] at hn; cases hn; exact r1
    · rw [s2] at hn; cases hn; exact r2
    · rw [s3] at hn; cases hn; exact r3
    · rw [s4] at hn; cases hn; exact r4
    · rw [s5] at hn; cases hn; exact r5
    · rw [s6] at hn; cases hn; exact r6)
  have k1 := key .x; rw [s1] at k1; cases k1
  have k2 := key .y; rw [s2] at k2; cases k2
  have k3 := key .z; rw [s3] at k3; cases k3
  have k4 := key .yaw; rw [s4] at k4; cases k4
  have k5 := key .pitch; rw [s5] at k5; cases k5
  have k6 := key .roll; rw [s6] at k6; cases k6
  exact ⟨i1, i2, i3, i4, i5, i6⟩

theorem reads_describes {ms : List (Bytes × Value)} {s : Seen} {p : Position} (hf : Reads ms (fun _ => none) s)
    (hp : position s = some p) : Describes (.obj ms) p := by
  have key := position_some hp (fun f n hn => ((reads_spec hf f).2 n rfl hn).2)
  have hh : ∀ f : Field, Has ms f.text (value p f) := fun f => ((reads_spec hf f).2 _ rfl (key f)).1
  exact ⟨hh .x, hh .y, hh .z, hh .yaw, hh .pitch, hh .roll⟩

/-- The array, once its elements are read. -/
theorem array_whole {vs : List Value} {t r : Bytes} (h : Shuts allFields vs (fun _ => none) t (elements (fun _ => none) true allFields r)) :
    (match elements (fun _ => none) true [.x, .y, .z, .yaw, .pitch, .roll] r with
      | .error e => .error e
      | .ok (s, r) =>
        match position s, close 93 r with
        | none, _ => .error .bad
        | some _, .error e => .error e
        | some p, .ok r => .ok (p, r) : Res (Position × Bytes)) = .error .bad ∨
    ∃ p, (match elements (fun _ => none) true [.x, .y, .z, .yaw, .pitch, .roll] r with
      | .error e => .error e
      | .ok (s, r) =>
        match position s, close 93 r with
        | none, _ => .error .bad
        | some _, .error e => .error e
        | some p, .ok r => .ok (p, r) : Res (Position × Bytes)) = .ok (p, t) ∧ Describes (.arr vs) p := by
  unfold allFields at h
  rcases h with h | ⟨s, r', h, h2⟩ <;> (rw [h]; dsimp only)
  · exact .inl rfl
  · cases hp : position s with
    | none => exact .inl rfl
    | some p =>
      rcases h2 with h2 | ⟨h2, h3⟩ <;> rw [h2]
      · exact .inl rfl
      · exact .inr ⟨p, rfl, fills_describes h3 hp⟩

/-- A complete document is read for what it is, or refused. -/
theorem parse_whole {b : Bytes} {v : Value} (hd : Document v b) : parse b = .bad ∨ ∃ p, parse b = .ok p ∧ Describes v p := by
  obtain ⟨w, t, w', rfl, hw, ht, hw'⟩ := hd
  suffices hb : body (w ++ (t ++ w')) = .error .bad ∨ ∃ p, body (w ++ (t ++ w')) = .ok (p, w') ∧ Describes v p by
    unfold parse
    have hend : skip w' = [] := by
      have := skip_blank hw' []
      rwa [List.append_nil] at this
    rcases hb with hb | ⟨p, hb, hp⟩ <;> rw [hb]
    · exact .inl rfl
    · exact .inr ⟨p, if_pos hend, hp⟩
  have hst : Stop w' := by simpa using Stop.blank hw' Stop.nil
  unfold body
  rw [skip_blank hw]
  cases ht with
  | none hb =>
    rw [List.cons_append, skip_dark (by decide), List.append_assoc, List.singleton_append]
    dsimp only
    rw [if_pos rfl]
    exact array_whole (elements_at_end hb allFields w' (fun _ => none) true)
  | arr he =>
    rw [List.cons_append, skip_dark (by decide), List.append_assoc, List.singleton_append]
    dsimp only
    rw [if_pos rfl]
    exact array_whole ((elements_whole (fs := allFields) he w' (fun _ => none)).1 (by unfold allFields; nofun))
  | empty hb =>
    rw [List.cons_append, skip_dark (by decide), List.append_assoc, List.singleton_append]
    dsimp only
    rw [if_neg (by decide), if_pos rfl]
    obtain ⟨r, h, h2⟩ := members_end hb (fun _ => Option.none) true w'
    rw [h]
    exact .inl rfl
  | obj he =>
    rw [List.cons_append, skip_dark (by decide), List.append_assoc, List.singleton_append]
    dsimp only
    rw [if_neg (by decide), if_pos rfl]
    rcases (members_whole he w' (fun _ => none)).1 with h | ⟨s, r, h, h2, h3⟩ <;> (rw [h]; dsimp only)
    · exact .inl rfl
    · have : close 125 r = .ok w' := by
        unfold close
        rw [h2]
        rfl
      rw [this]
      cases hp : position s with
      | none => exact .inl rfl
      | some p => exact .inr ⟨p, rfl, reads_describes h3 hp⟩
  | num h =>
    obtain ⟨s, w1, f, e, rfl, hs, hw1, hf, he⟩ := h
    have hx : ∀ p, Whole (parseInteger p (w1 ++ (f ++ (e ++ w')))) w' := fun p => parseInteger_whole p hw1 hf he hst
    rcases hs with rfl | rfl
    · obtain ⟨c, t, rfl, hc, ht⟩ := digits_cons hw1.1
      have hx := hx true
      simp only [List.nil_append, List.append_assoc, List.cons_append] at hx ⊢
      rw [skip_dark (digit_dark hc)]
      have hne : ∀ x : UInt8, isDigit x = false → c ≠ x := by
        rintro x hx rfl
        rw [hc] at hx
        cases hx
      dsimp only
      rw [if_neg (hne 91 rfl), if_neg (hne 123 rfl), invalidType, if_neg (hne 110 rfl), if_neg (hne 116 rfl), if_neg (hne 102 rfl),
        if_neg (hne 45 rfl), if_pos hc, invalid_whole hx]
      exact .inl rfl
    · simp only [List.append_assoc, List.cons_append, List.nil_append]
      rw [skip_dark (by decide)]
      exact .inl (congrArg Except.error (invalid_whole (hx false)))
  | str h =>
    have := invalid_whole (key_whole h w')
    rw [List.cons_append, skip_dark (by decide), List.append_assoc]
    exact .inl (congrArg Except.error this)
  | null => exact .inl rfl
  | true => exact .inl rfl
  | false => exact .inl rfl

end Pica.JsonBody
