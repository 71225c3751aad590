import Verif.Proofs.CommandLine
import Verif.Spec.PyInt
/-! Python's `int`. -/

namespace Pica.Console
open Spec Spec.PyInt

theorem isSpace_iff (c : Char) : isSpace c = true ↔ c ∈ blanks := by
  have hc : ∀ d : Char, c = d ↔ c.toNat = d.toNat := fun d => ⟨fun h => by rw [h], fun h => Char.toNat_inj.mp h⟩
  simp only [blanks, gaps, List.mem_append, List.mem_cons, List.not_mem_nil, or_false, hc]
  unfold isSpace
  simp only [Bool.or_eq_true, Bool.and_eq_true, decide_eq_true_eq, beq_iff_eq, Char.reduceToNat]
  omega

theorem isGap_iff (c : Char) : isGap c = true ↔ c ∈ gaps := by
  have hc : ∀ d : Char, c = d ↔ c.toNat = d.toNat := fun d => ⟨fun h => by rw [h], fun h => Char.toNat_inj.mp h⟩
  simp only [gaps, List.mem_cons, List.not_mem_nil, or_false, hc]
  unfold isGap isSpace
  simp only [Bool.or_eq_true, Bool.and_eq_true, decide_eq_true_eq, beq_iff_eq, Char.reduceToNat, Bool.not_eq_true',
    Bool.and_eq_false_iff, decide_eq_false_iff_not]
  omega

theorem digit?_iff {base : Nat} (hb : base ≤ 16) (c : Char) (d : Nat) : digit? base c = some d ↔ IsHex c d ∧ d < base := by
  have key : digit? base c = some d ↔ digit? 16 c = some d ∧ d < base := by
    unfold digit?
    generalize (if '0' ≤ c ∧ c ≤ '9' then some (c.toNat - 48) else if 'a' ≤ c ∧ c ≤ 'z' then some (c.toNat - 87)
      else if 'A' ≤ c ∧ c ≤ 'Z' then some (c.toNat - 55) else none : Option Nat) = v
    cases v with
    | none => simp
    | some v =>
      simp only [Option.filter_some, decide_eq_true_eq]
      constructor
      · intro h
        split at h
        · cases h
          rename_i h
          exact ⟨by rw [if_pos (by omega)], h⟩
        · cases h
      · rintro ⟨h, h1⟩
        split at h
        · cases h
          rw [if_pos h1]
        · cases h
  rw [key]
  refine and_congr_left fun _ => ?_
  constructor
  · intro h
    have hn : c.toNat < 128 := by
      by_contra hn
      have h9 : ¬ ('0' ≤ c ∧ c ≤ '9') := fun h => hn (show c.toNat < 128 from lt_of_le_of_lt (show c.toNat ≤ 57 from h.2) (by decide))
      have hz : ¬ ('a' ≤ c ∧ c ≤ 'z') := fun h => hn (show c.toNat < 128 from lt_of_le_of_lt (show c.toNat ≤ 122 from h.2) (by decide))
      have hZ : ¬ ('A' ≤ c ∧ c ≤ 'Z') := fun h => hn (show c.toNat < 128 from lt_of_le_of_lt (show c.toNat ≤ 90 from h.2) (by decide))
      unfold digit? at h
      simp only [if_neg h9, if_neg hz, if_neg hZ, Option.filter_none, reduceCtorEq] at h
    have all : ∀ n : Fin 128, (match digit? 16 (Char.ofNat n) with
        | some d => decide ((Char.ofNat n, d) ∈ hexTable)
        | none => true) = true := by decide +kernel
    have := all ⟨c.toNat, hn⟩
    simp only [Char.ofNat_toNat, h, decide_eq_true_eq] at this
    exact this
  · intro h
    have all : ∀ x ∈ hexTable, digit? 16 x.1 = some x.2 := by decide +kernel
    exact all _ h

theorem isHex_under {d : Nat} : ¬ IsHex '_' d := by
  intro h
  have : ∀ x ∈ hexTable, x.1 ≠ '_' := by decide
  exact this _ h rfl

theorem loop_iff {base : Nat} (hb : base ≤ 16) (s : Text) (n k v l : Nat) :
    (digitsLoop base s false n k = some (v, l) ↔
      ∃ ds, Digits base s ds ∧ v = ds.foldl (fun n d => base * n + d) n ∧ l = k + ds.length) ∧
    (digitsLoop base s true n k = some (v, l) ↔ (s = [] ∧ v = n ∧ l = k) ∨
      ∃ ds, (Digits base s ds ∨ ∃ t, s = '_' :: t ∧ Digits base t ds) ∧ v = ds.foldl (fun n d => base * n + d) n ∧ l = k + ds.length) := by
  induction s generalizing n k with
  | nil =>
    have h0 : ∀ ds, ¬ Digits base [] ds := by intro ds h; cases h
    constructor
    · constructor
      · intro h; cases h
      · rintro ⟨ds, h, -⟩; exact (h0 _ h).elim
    · constructor
      · intro h
        have := Option.some.inj h
        exact .inl ⟨rfl, (congrArg Prod.fst this).symm, (congrArg Prod.snd this).symm⟩
      · rintro (⟨-, rfl, rfl⟩ | ⟨ds, h | ⟨t, h, -⟩, -⟩)
        · rfl
        · exact (h0 _ h).elim
        · cases h
  | cons c r ih =>
    by_cases hc : c = '_'
    · subst hc
      have h0 : ∀ ds, ¬ Digits base ('_' :: r) ds := by
        intro ds h
        cases h with
        | one h => exact isHex_under h
        | next h => exact isHex_under h
        | under h => exact isHex_under h
      constructor
      · rw [digitsLoop, if_pos rfl, if_neg (by decide)]
        constructor
        · intro h; cases h
        · rintro ⟨ds, h, -⟩; exact (h0 _ h).elim
      · rw [digitsLoop, if_pos rfl, if_pos rfl, (ih n k).1]
        constructor
        · rintro ⟨ds, h, e⟩; exact .inr ⟨ds, .inr ⟨r, rfl, h⟩, e⟩
        · rintro (⟨h, -⟩ | ⟨ds, h | ⟨t, h, h'⟩, e⟩)
          · cases h
          · exact (h0 _ h).elim
          · cases h; exact ⟨ds, h', e⟩
    · have main : (digitsLoop base (c :: r) true n k = some (v, l) ↔
          ∃ ds, Digits base (c :: r) ds ∧ v = ds.foldl (fun n d => base * n + d) n ∧ l = k + ds.length) := by
        rw [digitsLoop, if_neg hc]
        cases hd : digit? base c with
        | none =>
          dsimp only
          constructor
          · intro h; cases h
          · rintro ⟨ds, h, -⟩
            have no : ∀ d, IsHex c d → d < base → False := by
              intro d h1 h2
              have := (digit?_iff hb c d).mpr ⟨h1, h2⟩
              rw [hd] at this
              cases this
            cases h with
            | one h1 h2 => exact (no _ h1 h2).elim
            | next h1 h2 => exact (no _ h1 h2).elim
            | under h1 h2 => exact (no _ h1 h2).elim
        | some d =>
          dsimp only
          obtain ⟨h1, h2⟩ := (digit?_iff hb c d).mp hd
          have uniq : ∀ d', IsHex c d' → d' < base → d' = d := by
            intro d' h3 h4
            have := (digit?_iff hb c d').mpr ⟨h3, h4⟩
            rw [hd] at this
            exact (Option.some.inj this).symm
          rw [(ih _ _).2]
          constructor
          · rintro (⟨rfl, rfl, rfl⟩ | ⟨ds, h | ⟨t, rfl, h⟩, rfl, rfl⟩)
            · exact ⟨[d], .one h1 h2, rfl, rfl⟩
            · exact ⟨d :: ds, .next h1 h2 h, rfl, by rw [List.length_cons]; omega⟩
            · exact ⟨d :: ds, .under h1 h2 h, rfl, by rw [List.length_cons]; omega⟩
          · rintro ⟨ds, h, rfl, rfl⟩
            cases h with
            | one h3 h4 => cases uniq _ h3 h4; exact .inl ⟨rfl, rfl, rfl⟩
            | next h3 h4 h => cases uniq _ h3 h4; exact .inr ⟨_, .inl h, rfl, by rw [List.length_cons]; omega⟩
            | under h3 h4 h => cases uniq _ h3 h4; exact .inr ⟨_, .inr ⟨_, rfl, h⟩, rfl, by rw [List.length_cons]; omega⟩
      constructor
      · rw [← main, digitsLoop, digitsLoop, if_neg hc, if_neg hc]
      · rw [main]
        constructor
        · rintro ⟨ds, h, e⟩; exact .inr ⟨ds, .inl h, e⟩
        · rintro (⟨h, -⟩ | ⟨ds, h | ⟨t, h, -⟩, e⟩)
          · cases h
          · exact ⟨ds, h, e⟩
          · cases h; exact (hc rfl).elim

theorem loop_start {base : Nat} (hb : base ≤ 16) (s : Text) (v l : Nat) :
    digitsLoop base s false 0 0 = some (v, l) ↔ ∃ ds, Digits base s ds ∧ v = value base ds ∧ l = ds.length := by
  rw [(loop_iff hb s 0 0 v l).1]
  simp only [Nat.zero_add]
  rfl

theorem takeWhile_all {p : Char → Bool} {l : Text} {c : Char} (h : c ∈ l.takeWhile p) : p c = true := by
  induction l with
  | nil => cases h
  | cons x l ih =>
    by_cases hx : p x = true
    · rw [List.takeWhile_cons_of_pos hx] at h
      rcases List.mem_cons.mp h with rfl | h
      exacts [hx, ih h]
    · rw [List.takeWhile_cons_of_neg hx] at h
      cases h

/-- The middle of a text: the rest is white space. -/
theorem strip_split (s : Text) : ∃ a b, s = a ++ strip s ++ b ∧ (∀ c ∈ a, c ∈ gaps) ∧ ∀ c ∈ b, c ∈ gaps := by
  have mem : ∀ (l : Text) c, c ∈ l.takeWhile isGap → c ∈ gaps := fun l c h => (isGap_iff c).mp (takeWhile_all h)
  refine ⟨s.takeWhile isGap, ((s.dropWhile isGap).reverse.takeWhile isGap).reverse, ?_, mem _, fun c hc => mem _ c (List.mem_reverse.mp hc)⟩
  unfold strip
  rw [List.append_assoc, ← List.reverse_append, List.takeWhile_append_dropWhile, List.reverse_reverse, List.takeWhile_append_dropWhile]

theorem hexTable_solid : ∀ x ∈ hexTable, isGap x.1 = false ∧ x.1 ≠ '-' ∧ x.1 ≠ '+' ∧ x.1 ≠ '_' := by decide +kernel

theorem isHex_solid {c : Char} {d : Nat} (h : IsHex c d) : isGap c = false ∧ c ≠ '-' ∧ c ≠ '+' ∧ c ≠ '_' := hexTable_solid (c, d) h

theorem digits_solid {base : Nat} {t : Text} {ds : List Nat} (h : Digits base t ds) :
    t ≠ [] ∧ (∀ c ∈ t, isGap c = false) ∧ t.head? ≠ some '-' ∧ t.head? ≠ some '+' ∧ t.head? ≠ some '_' := by
  have hex : ∀ {c d}, IsHex c d → isGap c = false ∧ c ≠ '-' ∧ c ≠ '+' ∧ c ≠ '_' := fun h => isHex_solid h
  have hd : t ≠ [] ∧ t.head? ≠ some '-' ∧ t.head? ≠ some '+' ∧ t.head? ≠ some '_' := by
    cases h with
    | one h | next h | under h => exact ⟨by simp, by simpa using (hex h).2.1, by simpa using (hex h).2.2.1, by simpa using (hex h).2.2.2⟩
  refine ⟨hd.1, ?_, hd.2⟩
  clear hd
  induction h with
  | one h => intro x hx; rw [List.mem_singleton.mp hx]; exact (hex h).1
  | next h _ _ ih =>
    intro x hx
    rcases List.mem_cons.mp hx with rfl | hx
    exacts [(hex h).1, ih x hx]
  | under h _ _ ih =>
    intro x hx
    rcases List.mem_cons.mp hx with rfl | hx
    · exact (hex h).1
    · rcases List.mem_cons.mp hx with rfl | hx
      exacts [by decide, ih x hx]

theorem signed_split (s : Text) : ∃ sg, s = sg ++ (signed s).2 ∧
    ((sg = [] ∨ sg = ['+']) ∧ (signed s).1 = false ∨ sg = ['-'] ∧ (signed s).1 = true) := by
  unfold signed
  split
  · exact ⟨['-'], rfl, .inr ⟨rfl, rfl⟩⟩
  · exact ⟨['+'], rfl, .inl ⟨.inr rfl, rfl⟩⟩
  · exact ⟨[], rfl, .inl ⟨.inl rfl, rfl⟩⟩

theorem signed_of {sg u : Text} (hu : u.head? ≠ some '-' ∧ u.head? ≠ some '+') {v : Nat} {n : Int} (h : Signed sg v n) :
    (signed (sg ++ u)).2 = u ∧ n = if (signed (sg ++ u)).1 then -(v : Int) else v := by
  rcases h with ⟨rfl | rfl, rfl⟩ | ⟨rfl, rfl⟩
  · have : signed u = (false, u) := by
      unfold signed
      split
      · exact absurd rfl hu.1
      · exact absurd rfl hu.2
      · rfl
    rw [List.nil_append, this]
    exact ⟨rfl, rfl⟩
  · exact ⟨rfl, rfl⟩
  · exact ⟨rfl, rfl⟩

theorem sign_solid {sg : Text} {v : Nat} {n : Int} (h : Signed sg v n) : ∀ c ∈ sg, isGap c = false := by
  rcases h with ⟨rfl | rfl, -⟩ | ⟨rfl, -⟩ <;> decide

theorem int?_iff (t : Text) (n : Int) : int? t = some n ↔ Decimal t n := by
  constructor
  · intro h
    obtain ⟨a, b, e, ha, hb⟩ := strip_split t
    obtain ⟨sg, e1, hs⟩ := signed_split (strip t)
    unfold int? at h
    dsimp only at h
    cases hl : digitsLoop 10 (signed (strip t)).2 false 0 0 with
    | none => rw [hl] at h; cases h
    | some x =>
      obtain ⟨v, l⟩ := x
      rw [hl] at h
      dsimp only at h
      obtain ⟨ds, hd, rfl, rfl⟩ := (loop_start (by decide) _ _ _).mp hl
      split at h
      · rename_i hle
        refine ⟨a, sg, _, b, ds, by rw [← e1]; exact e, ha, hb, hd, hle, ?_⟩
        rcases hs with ⟨hs, e2⟩ | ⟨hs, e2⟩
        · rw [e2] at h; exact .inl ⟨hs, (Option.some.inj h).symm⟩
        · rw [e2] at h; exact .inr ⟨hs, (Option.some.inj h).symm⟩
      · cases h
  · rintro ⟨a, s, u, b, ds, rfl, ha, hb, hd, hle, hs⟩
    obtain ⟨d1, d2, d3, d4, -⟩ := digits_solid hd
    obtain ⟨s1, s2⟩ := signed_of ⟨d3, d4⟩ hs
    unfold int?
    rw [strip_ends (fun c hc => (isGap_iff c).mpr (ha c hc)) (fun c hc => (isGap_iff c).mpr (hb c hc)) (by simp [d1])
      (fun c hc => (List.mem_append.mp hc).elim (sign_solid hs c) (d2 c))]
    dsimp only
    rw [s1, (loop_start (by decide) _ _ _).mpr ⟨ds, hd, rfl, rfl⟩]
    dsimp only
    rw [if_pos hle, s2]

/-- The text after the prefix of a hexadecimal number. -/
def unprefixed (s : Text) : Text :=
  match s with
  | '0' :: 'x' :: '_' :: r => r
  | '0' :: 'X' :: '_' :: r => r
  | '0' :: 'x' :: r => r
  | '0' :: 'X' :: r => r
  | s => s

theorem unprefixed_split (s : Text) : ∃ p ∈ [[], ['0', 'x'], ['0', 'X'], ['0', 'x', '_'], ['0', 'X', '_']], s = p ++ unprefixed s := by
  unfold unprefixed
  split
  · exact ⟨['0', 'x', '_'], by simp, rfl⟩
  · exact ⟨['0', 'X', '_'], by simp, rfl⟩
  · exact ⟨['0', 'x'], by simp, rfl⟩
  · exact ⟨['0', 'X'], by simp, rfl⟩
  · exact ⟨[], by simp, rfl⟩

theorem hexTable_x : ∀ x ∈ hexTable, x.1 ≠ 'x' ∧ x.1 ≠ 'X' := by decide +kernel

theorem digits_x {base : Nat} {t : Text} {ds : List Nat} (h : Digits base t ds) : 'x' ∉ t ∧ 'X' ∉ t := by
  have hex : ∀ {c : Char} {d : Nat}, IsHex c d → c ≠ 'x' ∧ c ≠ 'X' := fun {c d} h => hexTable_x (c, d) h
  induction h with
  | one h => simp [(hex h).1.symm, (hex h).2.symm]
  | next h _ _ ih => simp [(hex h).1.symm, (hex h).2.symm, ih.1, ih.2]
  | under h _ _ ih => simp [(hex h).1.symm, (hex h).2.symm, ih.1, ih.2]

theorem unprefixed_of {p u : Text} {ds : List Nat} (hu : Digits 16 u ds)
    (hp : p ∈ [[], ['0', 'x'], ['0', 'X'], ['0', 'x', '_'], ['0', 'X', '_']]) : unprefixed (p ++ u) = u := by
  obtain ⟨x1, x2⟩ := digits_x hu
  obtain ⟨-, -, -, -, hd⟩ := digits_solid hu
  simp only [List.mem_cons, List.not_mem_nil, or_false] at hp
  rcases hp with rfl | rfl | rfl | rfl | rfl
  · rw [List.nil_append]
    unfold unprefixed
    split
    · exact absurd (by simp) x1
    · exact absurd (by simp) x2
    · exact absurd (by simp) x1
    · exact absurd (by simp) x2
    · rfl
  · show unprefixed ('0' :: 'x' :: u) = u
    unfold unprefixed
    split
    · rename_i r e
      cases e
      exact absurd rfl hd
    · rename_i e; simp at e
    · rename_i r _ e; cases e; rfl
    · rename_i e; simp at e
    · rename_i h _; exact (h u rfl).elim
  · show unprefixed ('0' :: 'X' :: u) = u
    unfold unprefixed
    split
    · rename_i e; simp at e
    · rename_i r e
      cases e
      exact absurd rfl hd
    · rename_i e; simp at e
    · rename_i r _ e; cases e; rfl
    · rename_i h; exact (h u rfl).elim
  · rfl
  · rfl

theorem prefix_solid : ∀ p ∈ [[], ['0', 'x'], ['0', 'X'], ['0', 'x', '_'], ['0', 'X', '_']],
    (∀ c ∈ p, isGap c = false) ∧ p.head? ≠ some '-' ∧ p.head? ≠ some '+' := by decide +kernel

theorem hex?_unfold (t : Text) : hex? t =
    (digitsLoop 16 (unprefixed (signed (strip t)).2) false 0 0).map fun x => if (signed (strip t)).1 then -(x.1 : Int) else x.1 := rfl

theorem hex?_iff (t : Text) (n : Int) : hex? t = some n ↔ Hexadecimal t n := by
  rw [hex?_unfold]
  constructor
  · intro h
    obtain ⟨a, b, e, ha, hb⟩ := strip_split t
    obtain ⟨sg, e1, hs⟩ := signed_split (strip t)
    obtain ⟨p, hp, e2⟩ := unprefixed_split (signed (strip t)).2
    rw [Option.map_eq_some_iff] at h
    obtain ⟨⟨v, l⟩, hl, h⟩ := h
    obtain ⟨ds, hd, rfl, rfl⟩ := (loop_start (by decide) _ _ _).mp hl
    refine ⟨a, sg, p, _, b, ds, by rw [← e2, ← e1]; exact e, ha, hb, hp, hd, ?_⟩
    rcases hs with ⟨hs, e3⟩ | ⟨hs, e3⟩
    · rw [e3] at h; exact .inl ⟨hs, h.symm⟩
    · rw [e3] at h; exact .inr ⟨hs, h.symm⟩
  · rintro ⟨a, s, p, u, b, ds, rfl, ha, hb, hp, hd, hs⟩
    obtain ⟨d1, d2, d3, d4, -⟩ := digits_solid hd
    obtain ⟨p1, p2, p3⟩ := prefix_solid p hp
    have hh : (p ++ u).head? ≠ some '-' ∧ (p ++ u).head? ≠ some '+' := by
      cases p with
      | nil => exact ⟨d3, d4⟩
      | cons c p => exact ⟨p2, p3⟩
    obtain ⟨s1, s2⟩ := signed_of hh hs
    rw [strip_ends (fun c hc => (isGap_iff c).mpr (ha c hc)) (fun c hc => (isGap_iff c).mpr (hb c hc)) (by simp [d1])
      (fun c hc => (List.mem_append.mp hc).elim (sign_solid hs c) fun hc => (List.mem_append.mp hc).elim (p1 c) (d2 c)),
      s1, unprefixed_of hd hp, (loop_start (by decide) _ _ _).mpr ⟨ds, hd, rfl, rfl⟩, s2]
    rfl

theorem byte?_iff (t : Text) (b : UInt8) : byte? t = some b ↔ Hexadecimal t (b.toNat : Int) := by
  rw [← hex?_iff]
  unfold byte?
  constructor
  · intro h
    split at h
    · rename_i n hn
      split at h
      · rename_i hlt
        rw [hn, ← Option.some.inj h, UInt8.toNat_ofNat_of_lt' hlt]
        rfl
      · cases h
    · cases h
  · intro h
    rw [h]
    show (if b.toNat < 256 then some (UInt8.ofNat b.toNat) else none) = some b
    rw [if_pos b.toNat_lt, UInt8.ofNat_toNat]

theorem colon_gap : ':' ∉ gaps := by decide +kernel
theorem hexTable_colon : ∀ x ∈ hexTable, x.1 ≠ ':' := by decide +kernel
theorem prefix_colon : ∀ p ∈ [[], ['0', 'x'], ['0', 'X'], ['0', 'x', '_'], ['0', 'X', '_']], ':' ∉ p := by decide +kernel

theorem digits_colon {base : Nat} {t : Text} {ds : List Nat} (h : Digits base t ds) : ':' ∉ t := by
  have hex : ∀ {c : Char} {d : Nat}, IsHex c d → c ≠ ':' := fun {c d} h => hexTable_colon (c, d) h
  induction h with
  | one h => simp [(hex h).symm]
  | next h _ _ ih => simp [(hex h).symm, ih]
  | under h _ _ ih => simp [(hex h).symm, ih]

theorem hexadecimal_colon {t : Text} {n : Int} (h : Hexadecimal t n) : ':' ∉ t := by
  obtain ⟨a, s, p, u, b, ds, rfl, ha, hb, hp, hd, hs⟩ := h
  have h1 : ':' ∉ a := fun h => colon_gap (ha _ h)
  have h2 : ':' ∉ b := fun h => colon_gap (hb _ h)
  have h3 := prefix_colon p hp
  have h4 := digits_colon hd
  have h5 : ':' ∉ s := by rcases hs with ⟨rfl | rfl, -⟩ | ⟨rfl, -⟩ <;> simp
  simp [h1, h2, h3, h4, h5]

theorem macAddress?_iff (t : Text) (bs : Bytes) : macAddress? t = some bs ↔ Octets t bs := by
  unfold macAddress?
  constructor
  · generalize hp : splitOn ':' t = ps
    intro h
    induction ps generalizing t bs with
    | nil => exact absurd hp (Props.splitOn_ne_nil _ _)
    | cons p ps ih =>
      obtain ⟨-, hj⟩ := Props.splitOn_join hp
      rw [List.mapM_cons] at h
      cases hb : byte? p with
      | none => rw [hb] at h; cases h
      | some b =>
        cases hm : ps.mapM byte? with
        | none => rw [hb, hm] at h; cases h
        | some bs' =>
          rw [hb, hm] at h
          obtain rfl := Option.some.inj h
          have hb := (byte?_iff _ _).mp hb
          rcases hj with ⟨rfl, rfl⟩ | ⟨r, rfl, hr⟩
          · obtain rfl : bs' = [] := (Option.some.inj hm).symm
            exact .one hb
          · exact .cons hb (ih _ _ hr hm)
  · intro h
    induction h with
    | one h =>
      rw [Props.splitOn_none (hexadecimal_colon h), List.mapM_cons, (byte?_iff _ _).mpr h]
      rfl
    | cons h _ ih =>
      rw [Props.splitOn_first (hexadecimal_colon h), List.mapM_cons, (byte?_iff _ _).mpr h, ih]
      rfl

theorem nat?_iff (t : Text) (n : Nat) : nat? t = some n ↔ Decimal t n := by
  rw [← int?_iff]
  unfold nat?
  constructor
  · intro h
    split at h
    · rename_i m hm
      rw [hm, Option.some.inj h]
      rfl
    · cases h
  · intro h
    rw [h]

/-- A line of a command and one word that does not end in white space. -/
theorem rstrip_word {a t s : Text} (ht : t ≠ []) (hl : ∀ c, t.getLast? = some c → c ∉ blanks) (hs : ∀ c ∈ s, c ∈ blanks) :
    rstrip (a ++ t ++ s) = a ++ t := by
  unfold rstrip
  have drop : ∀ l r : Text, (∀ c ∈ l, isSpace c = true) → (l ++ r).dropWhile isSpace = r.dropWhile isSpace := by
    intro l r hl
    induction l with
    | nil => rfl
    | cons c l ih =>
      rw [List.cons_append, List.dropWhile_cons_of_pos (hl c List.mem_cons_self)]
      exact ih fun x hx => hl x (List.mem_cons_of_mem _ hx)
  rw [List.reverse_append, drop _ _ (fun c hc => (isSpace_iff c).mpr (hs c (List.mem_reverse.mp hc)))]
  have : (a ++ t).reverse.dropWhile isSpace = (a ++ t).reverse := by
    rw [List.reverse_append]
    match h : t.reverse with
    | [] => exact absurd (List.reverse_eq_nil_iff.mp h) ht
    | c :: l =>
      have : t.getLast? = some c := by rw [← List.head?_reverse, h]; rfl
      have h1 := hl c this
      rw [← isSpace_iff] at h1
      exact List.dropWhile_cons_of_neg h1
  rw [this, List.reverse_reverse]

end Pica.Console
