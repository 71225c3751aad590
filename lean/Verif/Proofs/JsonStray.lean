import Verif.Proofs.JsonCut
/-! What becomes of a body with a control character in it. -/

namespace Pica.JsonBody
open Spec.JsonText

/-- A control character that is no blank, and at least three bytes after it. -/
def Stray (z : Bytes) : Prop := ∃ c x y w s, z = c :: x :: y :: w :: s ∧ c < 32 ∧ c ≠ 9 ∧ c ≠ 10 ∧ c ≠ 13

/-- What becomes of a result when such a text follows: there is no early end. -/
def onward (z : Bytes) : Res Bytes → Res Bytes
  | .ok r => .ok (r ++ z)
  | .error _ => .error .bad

def onward₂ {α : Type} (z : Bytes) : Res (α × Bytes) → Res (α × Bytes)
  | .ok (x, r) => .ok (x, r ++ z)
  | .error _ => .error .bad

variable {z : Bytes}

theorem ctl_ne {c : UInt8} (h : c < 32) (d : UInt8) (hd : 32 ≤ d) : c ≠ d := by
  rintro rfl
  simp only [UInt8.lt_iff_toNat_lt, UInt8.le_iff_toNat_le] at h hd
  omega

theorem ctl_digit {c : UInt8} (h : c < 32) : isDigit c = false := by
  simp only [isDigit, Bool.and_eq_false_iff, decide_eq_false_iff_not, UInt8.not_le, UInt8.lt_iff_toNat_lt] at h ⊢
  left
  exact Nat.lt_trans h (by decide)

theorem ctl_hex {c : UInt8} (h : c < 32) : hexVal c = none := by
  have : ∀ d : UInt8, 32 ≤ d → ¬ d ≤ c := by
    intro d hd hc
    simp only [UInt8.lt_iff_toNat_lt, UInt8.le_iff_toNat_le] at h hd hc
    omega
  unfold hexVal
  rw [if_neg fun h => this 48 (by decide) h.1, if_neg fun h => this 65 (by decide) h.1,
    if_neg fun h => this 97 (by decide) h.1]

theorem ctl_escape {c : UInt8} (h : c < 32) : simpleEscape c = none := by
  have k := ctl_ne h
  unfold simpleEscape
  simp only [k 34 (by decide), k 92 (by decide), k 47 (by decide), k 98 (by decide), k 102 (by decide), k 110 (by decide),
    k 114 (by decide), k 116 (by decide), or_self, if_false]

theorem skip_on (hz : Stray z) (b : Bytes) : skip (b ++ z) = skip b ++ z := by
  match hs : skip b with
  | c :: t => rw [skip_append hs]; rfl
  | [] =>
    have hb := skip_nil_blank hs
    rw [skip_blank hb]
    obtain ⟨c, x, y, w, s, rfl, h1, h2, h3, h4⟩ := hz
    rw [skip, if_neg]
    · rfl
    · simp only [not_or]
      exact ⟨ctl_ne h1 32 (by decide), h3, h2, h4⟩

theorem ident_on (hz : Stray z) (x : Bytes) (hx : ∀ d ∈ x, 32 ≤ d) (b : Bytes) : ident x (b ++ z) = onward z (ident x b) := by
  induction x generalizing b with
  | nil => rfl
  | cons d xs ih =>
    cases b with
    | nil =>
      obtain ⟨c, x, y, w, s, rfl, h1, -⟩ := hz
      show (if c = d then _ else _) = _
      rw [if_neg (ctl_ne h1 d (hx d (by simp)))]
      rfl
    | cons e b =>
      rw [List.cons_append, ident, ident]
      split
      · exact ih (fun d hd => hx d (List.mem_cons_of_mem _ hd)) b
      · rfl

theorem hex4_on {a b c d : UInt8} (h : hexVal a = none ∨ hexVal b = none ∨ hexVal c = none ∨ hexVal d = none) :
    hex4 a b c d = none := by
  unfold hex4
  split
  · rename_i h1 h2 h3 h4
    rw [h1, h2, h3, h4] at h
    simp at h
  · rfl

/-- Where four bytes are wanted and there are fewer. -/
theorem four_on (hz : Stray z) (r : Bytes) (hr : ∀ a b c d t, r ≠ a :: b :: c :: d :: t) :
    ∃ a b c d t, r ++ z = a :: b :: c :: d :: t ∧ hex4 a b c d = none := by
  obtain ⟨c, x, y, w, s, rfl, h1, -⟩ := hz
  have := ctl_hex h1
  match r, hr with
  | [], _ => exact ⟨_, _, _, _, _, rfl, hex4_on (.inl this)⟩
  | [_], _ => exact ⟨_, _, _, _, _, rfl, hex4_on (.inr (.inl this))⟩
  | [_, _], _ => exact ⟨_, _, _, _, _, rfl, hex4_on (.inr (.inr (.inl this)))⟩
  | [_, _, _], _ => exact ⟨_, _, _, _, _, rfl, hex4_on (.inr (.inr (.inr this)))⟩
  | _ :: _ :: _ :: _ :: _, hr => exact absurd rfl (hr _ _ _ _ _)

theorem ignoreStr_on (hz : Stray z) (b : Bytes) : ignoreStr (b ++ z) = onward z (ignoreStr b) := by
  fun_induction ignoreStr b
  · obtain ⟨c, x, y, w, s, rfl, h1, -⟩ := hz
    rw [List.nil_append, ignoreStr.eq_def]
    dsimp only
    rw [if_neg (ctl_ne h1 34 (by decide)), if_neg (ctl_ne h1 92 (by decide)), if_pos h1]
    rfl
  · rw [List.cons_append, ignoreStr.eq_def]
    rfl
  · obtain ⟨c, x, y, w, s, rfl, h1, -⟩ := hz
    rw [List.cons_append, List.nil_append, ignoreStr.eq_def]
    dsimp only
    rw [if_neg (by decide), if_pos rfl, if_neg (ctl_ne h1 117 (by decide)), if_neg (by rw [ctl_escape h1]; decide)]
    rfl
  · rename_i hx _ ih
    simp only [List.cons_append]
    rw [ignoreStr.eq_def]
    dsimp only
    rw [if_neg (by decide), if_pos rfl, if_pos rfl, if_pos hx]
    exact ih
  · rename_i hx _
    simp only [List.cons_append]
    rw [ignoreStr.eq_def]
    dsimp only
    rw [if_neg (by decide), if_pos rfl, if_pos rfl, if_neg hx]
    rfl
  · rename_i r hr _
    obtain ⟨a, b, c, d, t, e, h⟩ := four_on hz r (fun a b c d t e => hr a b c d t e)
    simp only [List.cons_append]
    rw [e, ignoreStr.eq_def]
    dsimp only
    rw [if_neg (by decide), if_pos rfl, if_pos rfl, if_neg (by rw [h]; decide)]
    rfl
  · rename_i h1 h2 _ ih
    simp only [List.cons_append]
    rw [ignoreStr.eq_def]
    dsimp only
    rw [if_neg (by decide), if_pos rfl, if_neg h1, if_pos h2]
    exact ih
  · rename_i h1 h2 _
    simp only [List.cons_append]
    rw [ignoreStr.eq_def]
    dsimp only
    rw [if_neg (by decide), if_pos rfl, if_neg h1, if_neg h2]
    rfl
  · rename_i h1 h2 h3
    rw [List.cons_append, ignoreStr.eq_def]
    dsimp only
    rw [if_neg h1, if_neg h2, if_pos h3]
    rfl
  · rename_i h1 h2 h3 ih
    rw [List.cons_append, ignoreStr.eq_def]
    dsimp only
    rw [if_neg h1, if_neg h2, if_neg h3]
    exact ih

theorem before_on (u : Bytes) (x : Res (Bytes × Bytes)) : before u (onward₂ z x) = onward₂ z (before u x) := by
  match x with
  | .ok (s, r) => rfl
  | .error e => rfl

theorem parseStr_on (hz : Stray z) (b : Bytes) : parseStr (b ++ z) = onward₂ z (parseStr b) := by
  fun_induction parseStr b
  case case1 =>
    obtain ⟨c, x, y, w, s, rfl, h1, -⟩ := hz
    rw [List.nil_append, parseStr.eq_def]
    dsimp only
    rw [if_neg (ctl_ne h1 34 (by decide)), if_neg (ctl_ne h1 92 (by decide)), if_pos h1]
    rfl
  case case3 =>
    obtain ⟨c, x, y, w, s, rfl, h1, -⟩ := hz
    rw [List.cons_append, List.nil_append, parseStr.eq_def]
    dsimp only
    rw [if_neg (by decide), if_pos rfl, if_neg (ctl_ne h1 117 (by decide)), ctl_escape h1]
    rfl
  case case6 hm h1 h2 _ =>
    obtain ⟨c, x, y, w, s, rfl, h, -⟩ := hz
    simp only [List.cons_append, List.nil_append]
    rw [parseStr.eq_def]
    dsimp only
    rw [if_neg (by decide), if_pos rfl, if_pos rfl, hm]
    dsimp only
    rw [if_neg h1, if_pos h2, if_pos (ctl_ne h 92 (by decide))]
    rfl
  case case8 hm h1 h2 _ h3 _ =>
    obtain ⟨c, x, y, w, s, rfl, h, -⟩ := hz
    simp only [List.cons_append, List.nil_append]
    rw [parseStr.eq_def]
    dsimp only
    rw [if_neg (by decide), if_pos rfl, if_pos rfl, hm]
    dsimp only
    rw [if_neg h1, if_pos h2, if_neg h3, if_pos (ctl_ne h 117 (by decide))]
    rfl
  case case13 hm h1 h2 _ h3 _ r h4 hr _ =>
    obtain ⟨a, b, c, d, t, e, h⟩ := four_on hz r (fun a b c d t e => hr a b c d t e)
    simp only [List.cons_append]
    rw [e, parseStr.eq_def]
    dsimp only
    rw [if_neg (by decide), if_pos rfl, if_pos rfl, hm]
    dsimp only
    rw [if_neg h1, if_pos h2, if_neg h3, if_neg h4, h]
    rfl
  case case15 r hr _ =>
    obtain ⟨a, b, c, d, t, e, h⟩ := four_on hz r (fun a b c d t e => hr a b c d t e)
    simp only [List.cons_append]
    rw [e, parseStr.eq_def]
    dsimp only
    rw [if_neg (by decide), if_pos rfl, if_pos rfl, h]
    rfl
  case case12 hm h1 h2 _ h3 _ h4 _ _ _ _ _ _ hm' h5 _ ih =>
    simp only [List.cons_append]
    rw [parseStr.eq_def]
    dsimp only
    rw [if_neg (by decide), if_pos rfl, if_pos rfl, hm]
    dsimp only
    rw [if_neg h1, if_pos h2, if_neg h3, if_neg h4, hm']
    dsimp only
    rw [if_neg h5, ih, before_on]
  case case14 hm h1 h2 _ ih =>
    simp only [List.cons_append]
    rw [parseStr.eq_def]
    dsimp only
    rw [if_neg (by decide), if_pos rfl, if_pos rfl, hm]
    dsimp only
    rw [if_neg h1, if_neg h2, ih, before_on]
  case case16 h1 _ h2 _ ih =>
    simp only [List.cons_append]
    rw [parseStr.eq_def]
    dsimp only
    rw [if_neg (by decide), if_pos rfl, if_neg h1, h2]
    dsimp only
    rw [ih, before_on]
  case case19 h1 h2 h3 ih =>
    rw [List.cons_append, parseStr.eq_def]
    dsimp only
    rw [if_neg h1, if_neg h2, if_neg h3, ih, before_on]
  all_goals simp only [List.cons_append]
  all_goals rw [parseStr.eq_def]
  all_goals dsimp only
  all_goals simp_all [onward₂]

theorem key_on (hz : Stray z) (b : Bytes) : key (b ++ z) = onward₂ z (key b) := by
  unfold key
  rw [parseStr_on hz]
  match parseStr b with
  | .error e => rfl
  | .ok (s, r) =>
    show (if _ then _ else _) = onward₂ z (if _ then _ else _)
    split <;> rfl

theorem digits_on (hz : Stray z) (n : Nat) (b : Bytes) : digits n (b ++ z) = ((digits n b).1, (digits n b).2 ++ z) := by
  induction b generalizing n with
  | nil =>
    obtain ⟨c, x, y, w, s, rfl, h, -⟩ := hz
    show (if isDigit c = true then _ else _) = _
    rw [ctl_digit h]
    rfl
  | cons c b ih =>
    rw [List.cons_append, digits, digits]
    split
    · exact ih _
    · rfl

theorem dropDigits_on (hz : Stray z) (b : Bytes) : dropDigits (b ++ z) = dropDigits b ++ z := by
  unfold dropDigits
  induction b with
  | nil =>
    obtain ⟨c, x, y, w, s, rfl, h, -⟩ := hz
    rw [List.nil_append, List.dropWhile_cons, if_neg (by rw [ctl_digit h]; decide)]
    rfl
  | cons c b ih =>
    rw [List.cons_append, List.dropWhile_cons, List.dropWhile_cons]
    split
    · exact ih
    · rfl

/-- The bytes after a sign. -/
def signed : Bytes → Bytes
  | c :: r => if c = 43 ∨ c = 45 then r else c :: r
  | [] => []

theorem signed_on (hz : Stray z) (b : Bytes) : signed (b ++ z) = signed b ++ z := by
  cases b with
  | nil =>
    obtain ⟨c, x, y, w, s, rfl, h, -⟩ := hz
    rw [List.nil_append, signed, if_neg]
    · rfl
    · simp only [not_or]
      exact ⟨ctl_ne h 43 (by decide), ctl_ne h 45 (by decide)⟩
  | cons c b =>
    rw [List.cons_append, signed, signed]
    split <;> rfl

theorem exponent_signed (b : Bytes) : exponent b = match signed b with
    | [] => .error .eof
    | c :: r => if isDigit c then .ok (.float, dropDigits r) else .error .bad := by cases b <;> rfl

theorem exponent_on (hz : Stray z) (b : Bytes) : exponent (b ++ z) = onward₂ z (exponent b) := by
  rw [exponent_signed, exponent_signed, signed_on hz]
  match signed b with
  | [] =>
    obtain ⟨c, x, y, w, s, rfl, h, -⟩ := hz
    rw [List.nil_append]
    dsimp only
    rw [ctl_digit h]
    rfl
  | c :: b =>
    rw [List.cons_append]
    dsimp only
    rw [dropDigits_on hz]
    split <;> rfl

theorem decimal_on (hz : Stray z) (b : Bytes) : decimal (b ++ z) = onward₂ z (decimal b) := by
  cases b with
  | nil =>
    obtain ⟨c, x, y, w, s, rfl, h, -⟩ := hz
    show (if isDigit c = true then _ else _) = _
    rw [ctl_digit h]
    rfl
  | cons c b =>
    rw [List.cons_append, decimal, decimal]
    split
    · rw [dropDigits_on hz]
      match dropDigits b with
      | [] =>
        obtain ⟨c, x, y, w, s, rfl, h, -⟩ := hz
        show (if c = 101 ∨ c = 69 then _ else _) = _
        rw [if_neg]
        · rfl
        · simp only [not_or]
          exact ⟨ctl_ne h 101 (by decide), ctl_ne h 69 (by decide)⟩
      | e :: t =>
        show (if e = 101 ∨ e = 69 then _ else _) = onward₂ z (if e = 101 ∨ e = 69 then _ else _)
        split
        · exact exponent_on hz t
        · rfl
    · rfl

theorem parseNumber_on (hz : Stray z) (p : Bool) (n : Nat) (b : Bytes) :
    parseNumber p n (b ++ z) = onward₂ z (parseNumber p n b) := by
  cases b with
  | nil =>
    obtain ⟨c, x, y, w, s, rfl, h, -⟩ := hz
    show (if c = 46 then _ else if c = 101 ∨ c = 69 then _ else _) = _
    rw [if_neg (ctl_ne h 46 (by decide)), if_neg]
    · rfl
    · simp only [not_or]
      exact ⟨ctl_ne h 101 (by decide), ctl_ne h 69 (by decide)⟩
  | cons c b =>
    rw [List.cons_append, parseNumber, parseNumber]
    split
    · exact decimal_on hz b
    · split
      · exact exponent_on hz b
      · rfl

theorem parseInteger_on (hz : Stray z) (p : Bool) (b : Bytes) : parseInteger p (b ++ z) = onward₂ z (parseInteger p b) := by
  cases b with
  | nil =>
    obtain ⟨c, x, y, w, s, rfl, h, -⟩ := hz
    rw [List.nil_append, parseInteger.eq_def]
    dsimp only
    rw [if_neg (ctl_ne h 48 (by decide)), if_neg (by rw [ctl_digit h]; decide)]
    rfl
  | cons c b =>
    rw [List.cons_append, parseInteger.eq_def, parseInteger.eq_def]
    dsimp only
    split
    · cases b with
      | nil =>
        have := parseNumber_on hz p 0 []
        obtain ⟨c, x, y, w, s, rfl, h, -⟩ := hz
        rw [List.nil_append] at this ⊢
        dsimp only
        rw [if_neg (by rw [ctl_digit h]; decide)]
        exact this
      | cons d b =>
        rw [List.cons_append]
        dsimp only
        split
        · rfl
        · exact parseNumber_on hz p 0 (d :: b)
    · split
      · rw [digits_on hz]
        exact parseNumber_on hz p _ _
      · rfl

theorem invalid_on (x : Res Bytes) : invalid (onward z x) = .bad := by
  match x with
  | .ok _ => rfl
  | .error _ => rfl

theorem invalid_on₂ {α : Type} (x : Res (α × Bytes)) : invalid (onward₂ z x) = .bad := by
  match x with
  | .ok (_, _) => rfl
  | .error _ => rfl

theorem invalidType_on (hz : Stray z) (c : UInt8) (r : Bytes) : invalidType c (r ++ z) = .bad := by
  unfold invalidType
  rw [ident_on hz _ (by decide), ident_on hz _ (by decide), ident_on hz _ (by decide), parseInteger_on hz, key_on hz,
    ← List.cons_append, parseInteger_on hz]
  repeat' split
  all_goals first
    | exact invalid_on _
    | exact invalid_on₂ _
    | rfl

theorem invalidType_stray {c x y w : UInt8} {s : Bytes} (h : c < 32) : invalidType c (x :: y :: w :: s) = .bad := by
  have k := ctl_ne h
  unfold invalidType
  simp only [k 110 (by decide), k 116 (by decide), k 102 (by decide), k 45 (by decide), k 34 (by decide), ctl_digit h, if_false,
    Bool.false_eq_true]

theorem visit_on (lo hi : Int) (x : Res (Number × Bytes)) : visit lo hi (onward₂ z x) = onward₂ z (visit lo hi x) := by
  match x with
  | .error e => rfl
  | .ok (.float, _) => rfl
  | .ok (.int n, r) =>
    show (if _ then _ else _) = onward₂ z (if _ then _ else _)
    split <;> rfl

theorem number_on (hz : Stray z) (lo hi : Int) (b : Bytes) : number lo hi (b ++ z) = onward₂ z (number lo hi b) := by
  unfold number
  rw [skip_on hz]
  match skip b with
  | [] =>
    obtain ⟨c, x, y, w, s, rfl, h, -⟩ := hz
    dsimp only [List.nil_append]
    rw [if_neg (ctl_ne h 45 (by decide)), if_neg (by rw [ctl_digit h]; decide), invalidType_stray h]
    rfl
  | c :: r =>
    rw [List.cons_append]
    dsimp only
    split
    · rw [parseInteger_on hz, visit_on]
    · split
      · rw [← List.cons_append, parseInteger_on hz, visit_on]
      · rw [invalidType_on hz]
        rfl

theorem ignoreExponent_signed (b : Bytes) : ignoreExponent b = match signed b with
    | [] => .error .bad
    | c :: r => if isDigit c then .ok (dropDigits r) else .error .bad := by cases b <;> rfl

theorem ignoreExponent_on (hz : Stray z) (b : Bytes) : ignoreExponent (b ++ z) = onward z (ignoreExponent b) := by
  rw [ignoreExponent_signed, ignoreExponent_signed, signed_on hz]
  match signed b with
  | [] =>
    obtain ⟨c, x, y, w, s, rfl, h, -⟩ := hz
    rw [List.nil_append]
    dsimp only
    rw [ctl_digit h]
    rfl
  | c :: b =>
    rw [List.cons_append]
    dsimp only
    rw [dropDigits_on hz]
    split <;> rfl

theorem ignoreE_on (hz : Stray z) (b : Bytes) : ignoreE (b ++ z) = onward z (ignoreE b) := by
  cases b with
  | nil =>
    obtain ⟨c, x, y, w, s, rfl, h, -⟩ := hz
    show (if c = 101 ∨ c = 69 then _ else _) = _
    rw [if_neg]
    · rfl
    · simp only [not_or]
      exact ⟨ctl_ne h 101 (by decide), ctl_ne h 69 (by decide)⟩
  | cons c b =>
    show (if c = 101 ∨ c = 69 then _ else _) = onward z (if c = 101 ∨ c = 69 then _ else _)
    split
    · exact ignoreExponent_on hz b
    · rfl

theorem ignoreFraction_on (hz : Stray z) (b : Bytes) : ignoreFraction (b ++ z) = onward z (ignoreFraction b) := by
  cases b with
  | nil =>
    have := ignoreE_on hz []
    obtain ⟨c, x, y, w, s, rfl, h, -⟩ := hz
    show (if c = 46 then _ else _) = _
    rw [if_neg (ctl_ne h 46 (by decide))]
    exact this
  | cons c b =>
    rw [List.cons_append, ignoreFraction.eq_def, ignoreFraction.eq_def]
    dsimp only
    split
    · cases b with
      | nil =>
        obtain ⟨c, x, y, w, s, rfl, h, -⟩ := hz
        show (if isDigit c = true then _ else _) = _
        rw [ctl_digit h]
        rfl
      | cons d b =>
        rw [List.cons_append]
        dsimp only
        split
        · rw [dropDigits_on hz]
          exact ignoreE_on hz _
        · rfl
    · exact ignoreE_on hz (c :: b)

theorem ignoreInteger_on (hz : Stray z) (b : Bytes) : ignoreInteger (b ++ z) = onward z (ignoreInteger b) := by
  cases b with
  | nil =>
    obtain ⟨c, x, y, w, s, rfl, h, -⟩ := hz
    rw [List.nil_append, ignoreInteger.eq_def]
    dsimp only
    rw [if_neg (ctl_ne h 48 (by decide)), if_neg (by rw [ctl_digit h]; decide)]
    rfl
  | cons c b =>
    rw [List.cons_append, ignoreInteger.eq_def, ignoreInteger.eq_def]
    dsimp only
    split
    · cases b with
      | nil =>
        have := ignoreFraction_on hz []
        obtain ⟨c, x, y, w, s, rfl, h, -⟩ := hz
        rw [List.nil_append] at this ⊢
        dsimp only
        rw [if_neg (by rw [ctl_digit h]; decide)]
        exact this
      | cons d b =>
        rw [List.cons_append]
        dsimp only
        split
        · rfl
        · exact ignoreFraction_on hz (d :: b)
    · split
      · rw [dropDigits_on hz]
        exact ignoreFraction_on hz _
      · rfl

theorem ignoreScalar_on (hz : Stray z) (c : UInt8) (r : Bytes) : ignoreScalar c (r ++ z) = onward z (ignoreScalar c r) := by
  unfold ignoreScalar
  rw [ident_on hz _ (by decide), ident_on hz _ (by decide), ident_on hz _ (by decide), ignoreInteger_on hz, ignoreStr_on hz,
    ← List.cons_append, ignoreInteger_on hz]
  repeat' split
  all_goals rfl

theorem ignoreScalar_stray {c x y w : UInt8} {s : Bytes} (h : c < 32) : ignoreScalar c (x :: y :: w :: s) = .error .bad := by
  have k := ctl_ne h
  unfold ignoreScalar
  simp only [k 110 (by decide), k 116 (by decide), k 102 (by decide), k 45 (by decide), k 34 (by decide), ctl_digit h, if_false,
    Bool.false_eq_true]

theorem colon_on (hz : Stray z) (b : Bytes) : colon (b ++ z) = onward z (colon b) := by
  unfold colon
  rw [skip_on hz]
  match skip b with
  | [] =>
    obtain ⟨c, x, y, w, s, rfl, h, -⟩ := hz
    show (if c = 58 then _ else _) = _
    rw [if_neg (ctl_ne h 58 (by decide))]
    rfl
  | c :: r =>
    show (if c = 58 then _ else _) = onward z (if c = 58 then _ else _)
    split <;> rfl

theorem ignoreName_on (hz : Stray z) (f : UInt8) (b : Bytes) : ignoreName f (b ++ z) = onward z (ignoreName f b) := by
  unfold ignoreName
  split
  · rw [skip_on hz]
    match skip b with
    | [] =>
      obtain ⟨c, x, y, w, s, rfl, h, -⟩ := hz
      show (if c = 34 then _ else _) = _
      rw [if_neg (ctl_ne h 34 (by decide))]
      rfl
    | c :: r =>
      rw [List.cons_append]
      dsimp only
      split
      · rw [ignoreStr_on hz]
        match ignoreStr r with
        | .error e => rfl
        | .ok r =>
          dsimp only [onward]
          have := colon_on hz r
          unfold colon at this
          exact this
      · rfl
  · rfl

theorem ignore_on (hz : Stray z) (n : Nat) :
    (∀ fs b, b.length ≤ n → ignoreValue fs (b ++ z) = onward z (ignoreValue fs b)) ∧
    (∀ comma fs b, b.length ≤ n → ignoreClose comma fs (b ++ z) = onward z (ignoreClose comma fs b)) := by
  induction n using Nat.strong_induction_on with
  | _ n ih =>
    have hv : ∀ fs b, b.length ≤ n → ignoreValue fs (b ++ z) = onward z (ignoreValue fs b) := by
      intro fs b hb
      rw [ignoreValue_eq, ignoreValue_eq, skip_on hz]
      match hs : skip b with
      | [] =>
        obtain ⟨c, x, y, w, s, rfl, h, -⟩ := hz
        rw [List.nil_append]
        dsimp only
        rw [if_neg, ignoreScalar_stray h]
        · rfl
        · simp only [not_or]
          exact ⟨ctl_ne h 91 (by decide), ctl_ne h 123 (by decide)⟩
      | c :: r =>
        have hl := skip_length b
        rw [hs, List.length_cons] at hl
        rw [List.cons_append]
        dsimp only
        split
        · exact (ih r.length (by omega)).2 _ _ _ (Nat.le_refl _)
        · rw [ignoreScalar_on hz]
          match hq : ignoreScalar c r with
          | .error e => rfl
          | .ok t =>
            have := ignoreScalar_length hq
            exact (ih t.length (by omega)).2 _ _ _ (Nat.le_refl _)
    refine ⟨hv, ?_⟩
    intro comma fs b hb
    cases fs with
    | nil => rw [ignoreClose_nil, ignoreClose_nil]; rfl
    | cons f fs =>
      have name : ∀ {b}, b.length ≤ n → (match ignoreName f (b ++ z) with
          | .error e => (.error e : Res Bytes)
          | .ok t => ignoreValue (f :: fs) t) = onward z (match ignoreName f b with
            | .error e => .error e
            | .ok t => ignoreValue (f :: fs) t) := by
        intro b hb
        rw [ignoreName_on hz]
        match hq : ignoreName f b with
        | .error e => rfl
        | .ok t => exact hv _ _ (Nat.le_trans (ignoreName_length hq) hb)
      rw [ignoreClose_cons, ignoreClose_cons, skip_on hz]
      match hs : skip b with
      | [] =>
        have h0 := name (b := []) (Nat.zero_le _)
        have he : (match ignoreName f [] with
            | .error e => (.error e : Res Bytes)
            | .ok t => ignoreValue (f :: fs) t) = .error .eof := by
          unfold ignoreName
          by_cases hf : f = 123
          · rw [if_pos hf]; rfl
          · rw [if_neg hf]
            dsimp only
            rw [ignoreValue_eq]
            rfl
        rw [he] at h0
        obtain ⟨c, x, y, w, s, rfl, h, -⟩ := hz
        rw [List.nil_append] at h0 ⊢
        dsimp only
        rw [if_neg fun e => ctl_ne h 44 (by decide) e.1, if_neg]
        · split
          · rfl
          · exact h0
        · rintro (e | e)
          · exact ctl_ne h 93 (by decide) e.1
          · exact ctl_ne h 125 (by decide) e.1
      | c :: r =>
        have hl := skip_length b
        rw [hs, List.length_cons] at hl
        rw [List.cons_append]
        dsimp only
        split
        · exact name (by omega)
        · split
          · exact (ih r.length (by omega)).2 _ _ _ (Nat.le_refl _)
          · split
            · rfl
            · rw [← List.cons_append]
              exact name (by simp; omega)

theorem ignoreValue_on (hz : Stray z) (fs b : Bytes) : ignoreValue fs (b ++ z) = onward z (ignoreValue fs b) :=
  (ignore_on hz _).1 _ _ (Nat.le_refl _)

theorem nextKey_on (hz : Stray z) (first : Bool) (b : Bytes) : nextKey first (b ++ z) = match nextKey first b with
    | .error _ => .error .bad
    | .ok o => .ok (o.map (· ++ z)) := by
  unfold nextKey
  rw [skip_on hz]
  match skip b with
  | [] =>
    obtain ⟨c, x, y, w, s, rfl, h, -⟩ := hz
    rw [List.nil_append]
    dsimp only
    rw [if_neg (ctl_ne h 125 (by decide)), if_neg fun e => ctl_ne h 44 (by decide) e.1, if_neg (ctl_ne h 34 (by decide)), ite_self]
  | c :: r =>
    rw [List.cons_append]
    dsimp only
    by_cases h1 : c = 125
    · rw [if_pos h1, if_pos h1]; rfl
    rw [if_neg h1, if_neg h1]
    by_cases h2 : c = 44 ∧ first = false
    · rw [if_pos h2, if_pos h2, skip_on hz]
      match skip r with
      | [] =>
        obtain ⟨c, x, y, w, s, rfl, h, -⟩ := hz
        rw [List.nil_append]
        dsimp only
        rw [if_neg (ctl_ne h 34 (by decide))]
      | d :: r =>
        rw [List.cons_append]
        dsimp only
        by_cases h3 : d = 34
        · rw [if_pos h3, if_pos h3]; rfl
        · rw [if_neg h3, if_neg h3]
    rw [if_neg h2, if_neg h2]
    by_cases h3 : first = true
    · rw [if_pos h3, if_pos h3]
      by_cases h4 : c = 34
      · rw [if_pos h4, if_pos h4]; rfl
      · rw [if_neg h4, if_neg h4]
    · rw [if_neg h3, if_neg h3]

theorem member_on (hz : Stray z) (a : Seen) (k b : Bytes) : member a k (b ++ z) = onward₂ z (member a k b) := by
  unfold member
  rw [colon_on hz]
  match field k with
  | none =>
    dsimp only
    match colon b with
    | .error e => rfl
    | .ok r =>
      dsimp only [onward]
      rw [ignoreValue_on hz]
      match ignoreValue [] r with
      | .error e => rfl
      | .ok t => rfl
  | some f =>
    dsimp only
    split
    · rfl
    · match colon b with
      | .error e => rfl
      | .ok r =>
        dsimp only [onward]
        rw [number_on hz]
        match number f.lo f.hi r with
        | .error e => rfl
        | .ok (n, t) => rfl

theorem members_on (hz : Stray z) (a : Seen) (first : Bool) (b : Bytes) :
    members a first (b ++ z) = onward₂ z (members a first b) := by
  induction hn : b.length using Nat.strong_induction_on generalizing a first b with
  | _ n ih =>
    rw [members_eq, members_eq, nextKey_on hz]
    match hk : nextKey first b with
    | .error e => rfl
    | .ok none => rfl
    | .ok (some t) =>
      dsimp only [Option.map]
      rw [key_on hz]
      match hq : key t with
      | .error e => rfl
      | .ok (k, u) =>
        dsimp only [onward₂]
        rw [member_on hz]
        match hm : member a k u with
        | .error e => rfl
        | .ok (a', v) =>
          have l1 := nextKey_length hk
          have l2 := key_length hq
          have l3 := member_length hm
          exact ih v.length (by omega) _ _ _ rfl

theorem element_on (hz : Stray z) (first : Bool) (lo hi : Int) (b : Bytes) :
    element first lo hi (b ++ z) = match element first lo hi b with
    | .error _ => .error .bad
    | .ok o => .ok (o.map fun p => (p.1, p.2 ++ z)) := by
  have num : ∀ b : Bytes, (match number lo hi (b ++ z) with
      | .error e => (.error e : Res (Option (Int × Bytes)))
      | .ok x => .ok (some x)) = match (match number lo hi b with
        | .error e => (.error e : Res (Option (Int × Bytes)))
        | .ok x => .ok (some x)) with
      | .error _ => .error .bad
      | .ok o => .ok (o.map fun p => (p.1, p.2 ++ z)) := by
    intro b
    rw [number_on hz]
    match number lo hi b with
    | .error e => rfl
    | .ok (n, t) => rfl
  unfold element
  rw [skip_on hz]
  match skip b with
  | [] =>
    have h0 := num []
    obtain ⟨c, x, y, w, s, rfl, h, -⟩ := hz
    rw [List.nil_append] at h0 ⊢
    dsimp only
    rw [if_neg (ctl_ne h 93 (by decide)), if_neg fun e => ctl_ne h 44 (by decide) e.1]
    split
    · exact h0
    · rfl
  | c :: r =>
    rw [List.cons_append]
    dsimp only
    by_cases h1 : c = 93
    · rw [if_pos h1, if_pos h1]; rfl
    rw [if_neg h1, if_neg h1]
    by_cases h2 : c = 44 ∧ first = false
    · rw [if_pos h2, if_pos h2, skip_on hz]
      match skip r with
      | [] =>
        have h0 := num []
        obtain ⟨c, x, y, w, s, rfl, h, -⟩ := hz
        rw [List.nil_append] at h0 ⊢
        dsimp only
        rw [if_neg (ctl_ne h 93 (by decide))]
        exact h0
      | d :: r =>
        rw [List.cons_append]
        dsimp only
        by_cases h3 : d = 93
        · rw [if_pos h3, if_pos h3]
        · rw [if_neg h3, if_neg h3]
          exact num (d :: r)
    rw [if_neg h2, if_neg h2]
    by_cases h3 : first = true
    · rw [if_pos h3, if_pos h3]
      exact num (c :: r)
    · rw [if_neg h3, if_neg h3]

theorem elements_on (hz : Stray z) (a : Seen) (first : Bool) (fs : List Field) (b : Bytes) :
    elements a first fs (b ++ z) = onward₂ z (elements a first fs b) := by
  induction fs generalizing a first b with
  | nil => rfl
  | cons f fs ih =>
    rw [elements, elements, element_on hz]
    match element first f.lo f.hi b with
    | .error e => rfl
    | .ok none => rfl
    | .ok (some (n, r)) => exact ih _ _ _

theorem close_on (hz : Stray z) (d : UInt8) (hd : 32 ≤ d) (b : Bytes) : close d (b ++ z) = onward z (close d b) := by
  unfold close
  rw [skip_on hz]
  match skip b with
  | [] =>
    obtain ⟨c, x, y, w, s, rfl, h, -⟩ := hz
    rw [List.nil_append]
    dsimp only
    rw [if_neg (ctl_ne h d hd)]
    rfl
  | c :: r =>
    rw [List.cons_append]
    dsimp only
    split <;> rfl

theorem body_on (hz : Stray z) (b : Bytes) : body (b ++ z) = onward₂ z (body b) := by
  have fin : ∀ (d : UInt8) (_ : 32 ≤ d) (x : Res (Seen × Bytes)), (match onward₂ z x with
      | .error e => (.error e : Res (Position × Bytes))
      | .ok (s, r) =>
        match position s, close d r with
        | none, _ => .error .bad
        | some _, .error e => .error e
        | some p, .ok r => .ok (p, r)) = onward₂ z (match x with
      | .error e => .error e
      | .ok (s, r) =>
        match position s, close d r with
        | none, _ => .error .bad
        | some _, .error e => .error e
        | some p, .ok r => .ok (p, r)) := by
    intro d hd x
    match x with
    | .error e => rfl
    | .ok (s, r) =>
      dsimp only [onward₂]
      rw [close_on hz d hd]
      match position s, close d r with
      | none, _ => rfl
      | some _, .error e => rfl
      | some p, .ok r => rfl
  unfold body
  rw [skip_on hz]
  match skip b with
  | [] =>
    obtain ⟨c, x, y, w, s, rfl, h, -⟩ := hz
    rw [List.nil_append]
    dsimp only
    rw [if_neg (ctl_ne h 91 (by decide)), if_neg (ctl_ne h 123 (by decide)), invalidType_stray h]
    rfl
  | c :: r =>
    rw [List.cons_append]
    dsimp only
    by_cases h1 : c = 91
    · rw [if_pos h1, if_pos h1, elements_on hz]
      exact fin 93 (by decide) _
    rw [if_neg h1, if_neg h1]
    by_cases h2 : c = 123
    · rw [if_pos h2, if_pos h2, members_on hz]
      exact fin 125 (by decide) _
    rw [if_neg h2, if_neg h2, invalidType_on hz]
    rfl

theorem parse_stray (hz : Stray z) (b : Bytes) : parse (b ++ z) = .bad := by
  unfold parse
  rw [body_on hz]
  match body b with
  | .error e => rfl
  | .ok (p, r) =>
    dsimp only [onward₂]
    rw [if_neg]
    rw [skip_on hz]
    obtain ⟨c, x, y, w, s, rfl, h, -⟩ := hz
    simp

end Pica.JsonBody
