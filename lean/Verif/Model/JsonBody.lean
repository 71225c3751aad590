import Verif.Model.Http
import Verif.Model.WebText
/-!
`serde_json::from_slice::<PositionBody>`, `src/bin/http-server/main.rs` 372-400, with the `Deserialize` derived at 372-380.

`serde_json` (1.0.107 in `Cargo.lock`) is not part of the repository: this follows its `de.rs` and `read.rs`, each definition
names the function. Only the category of an error is kept. All numbers with a fraction or an exponent are one: no field takes
them. A number that does not fit 64 bits becomes such a number in `serde_json` and stays an integer here: both are refused, no
field is that wide.
-/

set_option linter.unusedVariables false

namespace Pica.JsonBody

/-- The categories of errors, `SerdeErrorCategory` of `src/bin/http-server/main.rs` 388: `Eof` and the others. -/
inductive Err where
  | eof
  | bad
  deriving DecidableEq

/-- A result. -/
abbrev Res (α : Type) := Except Err α

/-- `Deserializer::parse_whitespace`: the bytes after white space. -/
def skip : Bytes → Bytes
  | [] => []
  | c :: r => if c = 32 ∨ c = 10 ∨ c = 9 ∨ c = 13 then skip r else c :: r

/-- `Deserializer::parse_ident`: the rest of `null`, `true` or `false`. -/
def ident : Bytes → Bytes → Res Bytes
  | [], b => .ok b
  | _ :: _, [] => .error .eof
  | x :: xs, c :: r => if c = x then ident xs r else .error .bad

/-- `b'0'..=b'9'`. -/
def isDigit (c : UInt8) : Bool := 48 ≤ c && c ≤ 57

/-- `decode_hex_val`. -/
def hexVal (c : UInt8) : Option Nat :=
  if 48 ≤ c ∧ c ≤ 57 then some (c.toNat - 48)
  else if 65 ≤ c ∧ c ≤ 70 then some (c.toNat - 55)
  else if 97 ≤ c ∧ c ≤ 102 then some (c.toNat - 87)
  else none

/-- `SliceRead::decode_hex_escape` once there are four bytes. -/
def hex4 (a b c d : UInt8) : Option Nat :=
  match hexVal a, hexVal b, hexVal c, hexVal d with
  | some a, some b, some c, some d => some (((a * 16 + b) * 16 + c) * 16 + d)
  | _, _, _, _ => none

/-- `parse_escape`: the byte for an escape of one character. -/
def simpleEscape (e : UInt8) : Option UInt8 :=
  if e = 34 ∨ e = 92 ∨ e = 47 then some e
  else if e = 98 then some 8
  else if e = 102 then some 12
  else if e = 110 then some 10
  else if e = 114 then some 13
  else if e = 116 then some 9
  else none

/-- `SliceRead::ignore_str` and `ignore_escape`: the bytes after the closing quote of a string. -/
def ignoreStr : Bytes → Res Bytes
  | [] => .error .eof
  | c :: r =>
    if c = 34 then .ok r
    else if c = 92 then
      match r with
      | [] => .error .eof
      | e :: r =>
        if e = 117 then
          match r with
          | a :: b :: c :: d :: r => if (hex4 a b c d).isSome then ignoreStr r else .error .bad
          | _ => .error .eof
        else if (simpleEscape e).isSome then ignoreStr r
        else .error .bad
    else if c < 32 then .error .bad
    else ignoreStr r

/-- Bytes put in front of the contents of a string. -/
def before (u : Bytes) : Res (Bytes × Bytes) → Res (Bytes × Bytes)
  | .ok (s, r) => .ok (u ++ s, r)
  | .error e => .error e

/-- `SliceRead::parse_str_bytes` and `parse_escape` with `validate`: the contents of a string and the bytes after its closing
quote. -/
def parseStr : Bytes → Res (Bytes × Bytes)
  | [] => .error .eof
  | c :: r =>
    if c = 34 then .ok ([], r)
    else if c = 92 then
      match r with
      | [] => .error .eof
      | e :: r =>
        if e = 117 then
          match r with
          | a :: b :: c :: d :: r =>
            match hex4 a b c d with
            | none => .error .bad
            | some n =>
              if 0xDC00 ≤ n ∧ n ≤ 0xDFFF then .error .bad
              else if 0xD800 ≤ n ∧ n ≤ 0xDBFF then
                match r with
                | [] => .error .eof
                | x :: r =>
                  if x ≠ 92 then .error .bad else
                  match r with
                  | [] => .error .eof
                  | y :: r =>
                    if y ≠ 117 then .error .bad else
                    match r with
                    | a :: b :: c :: d :: r =>
                      match hex4 a b c d with
                      | none => .error .bad
                      | some m =>
                        if m < 0xDC00 ∨ 0xDFFF < m then .error .bad
                        else before (String.utf8EncodeChar (Char.ofNat ((n - 0xD800) * 1024 + (m - 0xDC00) + 0x10000)))
                          (parseStr r)
                    | _ => .error .eof
              else before (String.utf8EncodeChar (Char.ofNat n)) (parseStr r)
          | _ => .error .eof
        else
          match simpleEscape e with
          | some x => before [x] (parseStr r)
          | none => .error .bad
    else if c < 32 then .error .bad
    else before [c] (parseStr r)

/-- `SliceRead::parse_str`: the contents have to be UTF-8. -/
def key (b : Bytes) : Res (Bytes × Bytes) :=
  match parseStr b with
  | .error e => .error e
  | .ok (s, r) => if s.toByteArray.validateUTF8 then .ok (s, r) else .error .bad

/-- The digits at the start, as a number after `n`, and the bytes after them: the loop of `parse_integer`. -/
def digits (n : Nat) : Bytes → Nat × Bytes
  | [] => (n, [])
  | c :: r => if isDigit c then digits (10 * n + (c.toNat - 48)) r else (n, c :: r)

/-- `enum ParserNumber`. -/
inductive Number where
  | int (n : Int)
  | float
  deriving DecidableEq

/-- The bytes after digits. -/
def dropDigits (b : Bytes) : Bytes := b.dropWhile isDigit

/-- `parse_exponent` after the `e`. -/
def exponent (b : Bytes) : Res (Number × Bytes) :=
  let b := match b with
    | c :: r => if c = 43 ∨ c = 45 then r else c :: r
    | [] => []
  match b with
  | [] => .error .eof
  | c :: r => if isDigit c then .ok (.float, dropDigits r) else .error .bad

/-- `parse_decimal` after the point. -/
def decimal : Bytes → Res (Number × Bytes)
  | [] => .error .eof
  | c :: r =>
    if isDigit c then
      match dropDigits r with
      | [] => .ok (.float, [])
      | e :: t => if e = 101 ∨ e = 69 then exponent t else .ok (.float, e :: t)
    else .error .bad

/-- `parse_number`. -/
def parseNumber (positive : Bool) (n : Nat) (b : Bytes) : Res (Number × Bytes) :=
  match b with
  | [] => .ok (if positive then .int n else if n = 0 then .float else .int (-n), [])
  | c :: r =>
    if c = 46 then decimal r
    else if c = 101 ∨ c = 69 then exponent r
    else .ok (if positive then .int n else if n = 0 then .float else .int (-n), c :: r)

/-- `parse_integer`, after the sign. -/
def parseInteger (positive : Bool) : Bytes → Res (Number × Bytes)
  | [] => .error .eof
  | c :: r =>
    if c = 48 then
      match r with
      | [] => parseNumber positive 0 []
      | d :: t => if isDigit d then .error .bad else parseNumber positive 0 (d :: t)
    else if isDigit c then parseNumber positive (digits (c.toNat - 48) r).1 (digits (c.toNat - 48) r).2
    else .error .bad

/-- The category of the error after a value of the wrong kind: a value that ends early comes first. -/
def invalid {α : Type} : Res α → Err
  | .error e => e
  | .ok _ => .bad

/-- `peek_invalid_type`, at a byte that is there. -/
def invalidType (c : UInt8) (r : Bytes) : Err :=
  if c = 110 then invalid (ident [117, 108, 108] r)
  else if c = 116 then invalid (ident [114, 117, 101] r)
  else if c = 102 then invalid (ident [97, 108, 115, 101] r)
  else if c = 45 then invalid (parseInteger false r)
  else if isDigit c then invalid (parseInteger true (c :: r))
  else if c = 34 then invalid (key r)
  else .bad

/-- `ParserNumber::visit` with the visitor of `i16` or `i8`: a number from `lo` to `hi`. -/
def visit (lo hi : Int) : Res (Number × Bytes) → Res (Int × Bytes)
  | .error e => .error e
  | .ok (.float, _) => .error .bad
  | .ok (.int n, r) => if lo ≤ n ∧ n ≤ hi then .ok (n, r) else .error .bad

/-- `deserialize_number` for a number from `lo` to `hi`. -/
def number (lo hi : Int) (b : Bytes) : Res (Int × Bytes) :=
  match skip b with
  | [] => .error .eof
  | c :: r =>
    if c = 45 then visit lo hi (parseInteger false r)
    else if isDigit c then visit lo hi (parseInteger true (c :: r))
    else .error (invalidType c r)

/-- `ignore_exponent` after the `e`. -/
def ignoreExponent (b : Bytes) : Res Bytes :=
  let b := match b with
    | c :: r => if c = 43 ∨ c = 45 then r else c :: r
    | [] => []
  match b with
  | [] => .error .bad
  | c :: r => if isDigit c then .ok (dropDigits r) else .error .bad

/-- The end of `ignore_decimal` and of `ignore_integer`. -/
def ignoreE : Bytes → Res Bytes
  | [] => .ok []
  | c :: r => if c = 101 ∨ c = 69 then ignoreExponent r else .ok (c :: r)

/-- The last match of `ignore_integer`, and `ignore_decimal`. -/
def ignoreFraction : Bytes → Res Bytes
  | [] => .ok []
  | c :: r =>
    if c = 46 then
      match r with
      | [] => .error .bad
      | d :: r => if isDigit d then ignoreE (dropDigits r) else .error .bad
    else ignoreE (c :: r)

/-- `ignore_integer`, after the sign. -/
def ignoreInteger : Bytes → Res Bytes
  | [] => .error .bad
  | c :: r =>
    if c = 48 then
      match r with
      | [] => .ok []
      | d :: t => if isDigit d then .error .bad else ignoreFraction (d :: t)
    else if isDigit c then ignoreFraction (dropDigits r)
    else .error .bad

/-- The kinds of values without further values inside, in `ignore_value`, at a byte that is there. -/
def ignoreScalar (c : UInt8) (r : Bytes) : Res Bytes :=
  if c = 110 then ident [117, 108, 108] r
  else if c = 116 then ident [114, 117, 101] r
  else if c = 102 then ident [97, 108, 115, 101] r
  else if c = 45 then ignoreInteger r
  else if isDigit c then ignoreInteger (c :: r)
  else if c = 34 then ignoreStr r
  else .error .bad

/-- The end of the outer loop of `ignore_value`: in an object the name of the next member and the colon. -/
def ignoreName (frame : UInt8) (b : Bytes) : Res Bytes :=
  if frame = 123 then
    match skip b with
    | [] => .error .eof
    | c :: r =>
      if c = 34 then
        match ignoreStr r with
        | .error e => .error e
        | .ok r =>
          match skip r with
          | [] => .error .eof
          | c :: r => if c = 58 then .ok r else .error .bad
      else .error .bad
  else .ok b

/-- `parse_object_colon`. -/
def colon (b : Bytes) : Res Bytes :=
  match skip b with
  | [] => .error .eof
  | c :: r => if c = 58 then .ok r else .error .bad

theorem skip_length (b : Bytes) : (skip b).length ≤ b.length := by
  induction b with
  | nil => exact Nat.le_refl _
  | cons c r ih =>
    unfold skip
    split
    · simp; omega
    · exact Nat.le_refl _

theorem ident_length {x b r : Bytes} (h : ident x b = .ok r) : r.length ≤ b.length := by
  induction x generalizing b with
  | nil => simp only [ident, Except.ok.injEq] at h; rw [h]
  | cons x xs ih =>
    cases b with
    | nil => simp [ident] at h
    | cons c t =>
      rw [ident] at h
      split at h
      · have := ih h; simp; omega
      · cases h

theorem ignoreStr_length {b r : Bytes} (h : ignoreStr b = .ok r) : r.length < b.length := by
  fun_induction ignoreStr b <;> simp_all
  all_goals omega

theorem dropDigits_length (b : Bytes) : (dropDigits b).length ≤ b.length := (List.dropWhile_sublist _).length_le

theorem ignoreExponent_length {b r : Bytes} (h : ignoreExponent b = .ok r) : r.length ≤ b.length := by
  unfold ignoreExponent at h
  dsimp only at h
  split at h
  · cases h
  · rename_i c t ht
    split at h
    · obtain rfl := Except.ok.inj h
      have h1 := dropDigits_length t
      have h2 : (c :: t).length ≤ b.length := by
        rw [← ht]
        split
        · split <;> simp
        · simp
      simp at h2
      omega
    · cases h

theorem ignoreE_length {b r : Bytes} (h : ignoreE b = .ok r) : r.length ≤ b.length := by
  unfold ignoreE at h
  split at h
  · obtain rfl := Except.ok.inj h; simp
  · split at h
    · have := ignoreExponent_length h; simp; omega
    · obtain rfl := Except.ok.inj h; simp

theorem ignoreFraction_length {b r : Bytes} (h : ignoreFraction b = .ok r) : r.length ≤ b.length := by
  unfold ignoreFraction at h
  split at h
  · obtain rfl := Except.ok.inj h; simp
  · split at h
    · split at h
      · cases h
      · rename_i d t
        split at h
        · have h1 := ignoreE_length h
          have h2 := dropDigits_length t
          simp; omega
        · cases h
    · exact ignoreE_length h

theorem ignoreInteger_length {b r : Bytes} (h : ignoreInteger b = .ok r) : r.length < b.length := by
  unfold ignoreInteger at h
  split at h
  · cases h
  · rename_i t
    split at h
    · split at h
      · obtain rfl := Except.ok.inj h; simp
      · split at h
        · cases h
        · have := ignoreFraction_length h; simp at *; omega
    · split at h
      · have h1 := ignoreFraction_length h
        have h2 := dropDigits_length t
        simp; omega
      · cases h

theorem ignoreScalar_length {c : UInt8} {b r : Bytes} (h : ignoreScalar c b = .ok r) : r.length ≤ b.length := by
  unfold ignoreScalar at h
  repeat' split at h
  all_goals first
    | exact ident_length h
    | exact Nat.le_of_lt (ignoreInteger_length h)
    | exact Nat.le_of_lt_succ (ignoreInteger_length h)
    | exact Nat.le_of_lt (ignoreStr_length h)
    | cases h

theorem ignoreName_length {f : UInt8} {b r : Bytes} (h : ignoreName f b = .ok r) : r.length ≤ b.length := by
  unfold ignoreName at h
  split at h
  · split at h
    · cases h
    · rename_i c t ht
      have h0 := skip_length b
      rw [ht] at h0
      split at h
      · split at h
        · cases h
        · rename_i u hu
          have h1 := ignoreStr_length hu
          split at h
          · cases h
          · rename_i v w hw
            have h2 := skip_length u
            rw [hw] at h2
            split at h
            · obtain rfl := Except.ok.inj h
              simp at *; omega
            · cases h
      · cases h
  · obtain rfl := Except.ok.inj h
    exact Nat.le_refl _

mutual
/-- `ignore_value`, one turn of the outer loop: a value, inside the given frames (`[` or `{`, the innermost first). -/
def ignoreValue (frames : List UInt8) (b : Bytes) : Res Bytes :=
  match hs : skip b with
  | [] => .error .eof
  | c :: r =>
    if c = 91 ∨ c = 123 then ignoreClose false (c :: frames) r
    else
      match hv : ignoreScalar c r with
      | .error e => .error e
      | .ok t => ignoreClose true frames t
termination_by 2 * b.length
decreasing_by
  · have := skip_length b; rw [hs] at this; simp at this; omega
  · have := skip_length b; rw [hs] at this; have := ignoreScalar_length hv; simp at *; omega

/-- `ignore_value`, one turn of the inner loop: after a value (`comma`) or after an opening bracket. -/
def ignoreClose (comma : Bool) (frames : List UInt8) (b : Bytes) : Res Bytes :=
  match frames with
  | [] => .ok b
  | f :: fs =>
    match hs : skip b with
    | [] => .error .eof
    | c :: r =>
      if c = 44 ∧ comma then
        match hn : ignoreName f r with
        | .error e => .error e
        | .ok t => ignoreValue (f :: fs) t
      else if c = 93 ∧ f = 91 ∨ c = 125 ∧ f = 123 then ignoreClose true fs r
      else if comma then .error .bad
      else
        match hn : ignoreName f (c :: r) with
        | .error e => .error e
        | .ok t => ignoreValue (f :: fs) t
termination_by 2 * b.length + 1
decreasing_by
  · have := skip_length b; rw [hs] at this; have := ignoreName_length hn; simp at *; omega
  · have := skip_length b; rw [hs] at this; simp at this; omega
  · have := skip_length b; rw [hs] at this; have := ignoreName_length hn; simp at *; omega
end

theorem ignoreValue_eq (frames : List UInt8) (b : Bytes) : ignoreValue frames b =
    match skip b with
    | [] => .error .eof
    | c :: r =>
      if c = 91 ∨ c = 123 then ignoreClose false (c :: frames) r
      else
        match ignoreScalar c r with
        | .error e => .error e
        | .ok t => ignoreClose true frames t := by
  rw [ignoreValue]
  split
  · rename_i h; rw [h]
  · rename_i c r h
    rw [h]
    dsimp only
    split
    · rfl
    · split
      · rename_i h; rw [h]
      · rename_i h; rw [h]

theorem ignoreClose_nil (comma : Bool) (b : Bytes) : ignoreClose comma [] b = .ok b := by rw [ignoreClose]

theorem ignoreClose_cons (comma : Bool) (f : UInt8) (fs : List UInt8) (b : Bytes) : ignoreClose comma (f :: fs) b =
    match skip b with
    | [] => .error .eof
    | c :: r =>
      if c = 44 ∧ comma then
        match ignoreName f r with
        | .error e => .error e
        | .ok t => ignoreValue (f :: fs) t
      else if c = 93 ∧ f = 91 ∨ c = 125 ∧ f = 123 then ignoreClose true fs r
      else if comma then .error .bad
      else
        match ignoreName f (c :: r) with
        | .error e => .error e
        | .ok t => ignoreValue (f :: fs) t := by
  rw [ignoreClose]
  split
  · rename_i h; rw [h]
  · rename_i c r h
    rw [h]
    dsimp only
    split
    · split
      · rename_i h; rw [h]
      · rename_i h; rw [h]
    · split
      · rfl
      · split
        · rfl
        · split
          · rename_i h; rw [h]
          · rename_i h; rw [h]

theorem ignore_length (n : Nat) :
    (∀ fs b r, b.length ≤ n → ignoreValue fs b = .ok r → r.length < b.length) ∧
    (∀ comma fs b r, b.length ≤ n → ignoreClose comma fs b = .ok r → r.length ≤ b.length) := by
  induction n with
  | zero =>
    have hv : ∀ fs b r, b.length ≤ 0 → ignoreValue fs b = .ok r → r.length < b.length := by
      intro fs b r hb h
      obtain rfl := List.eq_nil_of_length_eq_zero (Nat.le_zero.mp hb)
      rw [ignoreValue_eq] at h
      cases h
    refine ⟨hv, ?_⟩
    intro comma fs b r hb h
    obtain rfl := List.eq_nil_of_length_eq_zero (Nat.le_zero.mp hb)
    cases fs with
    | nil => rw [ignoreClose_nil] at h; obtain rfl := Except.ok.inj h; exact Nat.le_refl _
    | cons f fs => rw [ignoreClose_cons] at h; cases h
  | succ n ih =>
    have hv : ∀ fs b r, b.length ≤ n + 1 → ignoreValue fs b = .ok r → r.length < b.length := by
      intro fs b r hb h
      rw [ignoreValue_eq] at h
      split at h
      · cases h
      · rename_i c t ht
        have h0 := skip_length b
        rw [ht, List.length_cons] at h0
        split at h
        · have := ih.2 _ _ _ _ (by omega) h; omega
        · split at h
          · cases h
          · rename_i u hu
            have h1 := ignoreScalar_length hu
            have := ih.2 _ _ _ _ (by omega) h; omega
    refine ⟨hv, ?_⟩
    intro comma fs b r hb h
    cases fs with
    | nil => rw [ignoreClose_nil] at h; obtain rfl := Except.ok.inj h; exact Nat.le_refl _
    | cons f fs =>
      rw [ignoreClose_cons] at h
      split at h
      · cases h
      · rename_i c t ht
        have h0 := skip_length b
        rw [ht, List.length_cons] at h0
        split at h
        · split at h
          · cases h
          · rename_i u hu
            have h1 := ignoreName_length hu
            have := hv _ _ _ (by omega) h; omega
        · split at h
          · have := ih.2 _ _ _ _ (by omega) h; omega
          · split at h
            · cases h
            · split at h
              · cases h
              · rename_i u hu
                have h1 := ignoreName_length hu
                rw [List.length_cons] at h1
                have := hv _ _ _ (by omega) h; omega

theorem before_length {u b s r : Bytes} {x : Res (Bytes × Bytes)} (h : before u x = .ok (s, r))
    (hx : ∀ s, x = .ok (s, r) → r.length < b.length) : r.length < b.length := by
  unfold before at h
  split at h
  · cases h; exact hx _ rfl
  · cases h

theorem parseStr_length {b s r : Bytes} (h : parseStr b = .ok (s, r)) : r.length < b.length := by
  fun_induction parseStr b generalizing s <;>
    first
    | cases h; done
    | cases h; simp
    | (rename_i ih; exact Nat.lt_of_lt_of_le (before_length h fun s hs => ih hs) (by simp; try omega))

theorem key_length {b s r : Bytes} (h : key b = .ok (s, r)) : r.length < b.length := by
  unfold key at h
  split at h
  · cases h
  · split at h
    · cases h; exact parseStr_length (by assumption)
    · cases h

theorem digits_length (n : Nat) (b : Bytes) : (digits n b).2.length ≤ b.length := by
  induction b generalizing n with
  | nil => exact Nat.le_refl _
  | cons c r ih =>
    rw [digits]
    split
    · have := ih (10 * n + (c.toNat - 48)); simp; omega
    · exact Nat.le_refl _

theorem exponent_length {b r : Bytes} {x : Number} (h : exponent b = .ok (x, r)) : r.length ≤ b.length := by
  unfold exponent at h
  dsimp only at h
  split at h
  · cases h
  · rename_i c t ht
    split at h
    · cases h
      have h1 := dropDigits_length t
      have h2 : (c :: t).length ≤ b.length := by
        rw [← ht]
        split
        · split <;> simp
        · simp
      simp at h2
      omega
    · cases h

theorem decimal_length {b r : Bytes} {x : Number} (h : decimal b = .ok (x, r)) : r.length ≤ b.length := by
  unfold decimal at h
  split at h
  · cases h
  · rename_i c t
    have h1 := dropDigits_length t
    split at h
    · split at h
      · cases h; simp
      · rename_i e u hu
        rw [hu, List.length_cons] at h1
        split at h
        · have := exponent_length h; simp; omega
        · cases h; simp; omega
    · cases h

theorem parseNumber_length {p : Bool} {n : Nat} {b r : Bytes} {x : Number} (h : parseNumber p n b = .ok (x, r)) :
    r.length ≤ b.length := by
  unfold parseNumber at h
  split at h
  · cases h; simp
  · split at h
    · have := decimal_length h; simp; omega
    · split at h
      · have := exponent_length h; simp; omega
      · cases h; simp

theorem parseInteger_length {p : Bool} {b r : Bytes} {x : Number} (h : parseInteger p b = .ok (x, r)) : r.length < b.length := by
  unfold parseInteger at h
  split at h
  · cases h
  · rename_i c t
    split at h
    · split at h
      · have := parseNumber_length h; simp at *; omega
      · split at h
        · cases h
        · have := parseNumber_length h; simp at *; omega
    · split at h
      · have := parseNumber_length h
        have := digits_length (c.toNat - 48) t
        simp; omega
      · cases h

theorem visit_ok {lo hi n : Int} {x : Res (Number × Bytes)} {r : Bytes} (h : visit lo hi x = .ok (n, r)) :
    x = .ok (.int n, r) ∧ lo ≤ n ∧ n ≤ hi := by
  unfold visit at h
  split at h
  · cases h
  · cases h
  · split at h
    · cases h; exact ⟨rfl, by assumption⟩
    · cases h

theorem number_length {lo hi n : Int} {b r : Bytes} (h : number lo hi b = .ok (n, r)) : r.length < b.length := by
  unfold number at h
  split at h
  · cases h
  · rename_i c t ht
    have h0 := skip_length b
    rw [ht, List.length_cons] at h0
    split at h
    · have := parseInteger_length (visit_ok h).1; omega
    · split at h
      · have := parseInteger_length (visit_ok h).1; simp at this; omega
      · cases h

theorem colon_length {b r : Bytes} (h : colon b = .ok r) : r.length < b.length := by
  unfold colon at h
  split at h
  · cases h
  · rename_i c t ht
    have h0 := skip_length b
    rw [ht, List.length_cons] at h0
    split at h
    · cases h; omega
    · cases h

/-- The fields of `PositionBody`, `src/bin/http-server/main.rs` 372-380. -/
inductive Field where
  | x
  | y
  | z
  | yaw
  | pitch
  | roll
  deriving DecidableEq

/-- The name of a field. -/
def Field.name : Field → Bytes
  | .x => [120]
  | .y => [121]
  | .z => [122]
  | .yaw => [121, 97, 119]
  | .pitch => [112, 105, 116, 99, 104]
  | .roll => [114, 111, 108, 108]

/-- The smallest number of the type of a field. -/
def Field.lo : Field → Int
  | .pitch => -128
  | _ => -32768

/-- The largest one. -/
def Field.hi : Field → Int
  | .pitch => 127
  | _ => 32767

/-- The `__FieldVisitor::visit_str` that is derived; `none` is `__ignore`. -/
def field (s : Bytes) : Option Field :=
  if s = Field.x.name then some .x
  else if s = Field.y.name then some .y
  else if s = Field.z.name then some .z
  else if s = Field.yaw.name then some .yaw
  else if s = Field.pitch.name then some .pitch
  else if s = Field.roll.name then some .roll
  else none

/-- The numbers that have been read. -/
abbrev Seen := Field → Option Int

/-- One more number. -/
def Seen.set (s : Seen) (f : Field) (n : Int) : Seen := fun g => if g = f then some n else s g

/-- `MapAccess::next_key_seed` up to the name: where it starts, `none` at the closing brace. -/
def nextKey (first : Bool) (b : Bytes) : Res (Option Bytes) :=
  match skip b with
  | [] => .error .eof
  | c :: r =>
    if c = 125 then .ok none
    else if c = 44 ∧ first = false then
      match skip r with
      | [] => .error .eof
      | c :: r => if c = 34 then .ok (some r) else .error .bad
    else if first then if c = 34 then .ok (some r) else .error .bad
    else .error .bad

/-- The value of a member: a number if the field has none yet, anything if it is another name. -/
def member (s : Seen) (k : Bytes) (b : Bytes) : Res (Seen × Bytes) :=
  match field k with
  | none =>
    match colon b with
    | .error e => .error e
    | .ok r =>
      match ignoreValue [] r with
      | .error e => .error e
      | .ok r => .ok (s, r)
  | some f =>
    if (s f).isSome then .error .bad else
    match colon b with
    | .error e => .error e
    | .ok r =>
      match number f.lo f.hi r with
      | .error e => .error e
      | .ok (n, r) => .ok (s.set f n, r)

theorem nextKey_length {first : Bool} {b r : Bytes} (h : nextKey first b = .ok (some r)) : r.length < b.length := by
  unfold nextKey at h
  split at h
  · cases h
  · rename_i c t ht
    have h0 := skip_length b
    rw [ht, List.length_cons] at h0
    have h1 := skip_length t
    repeat' split at h
    all_goals first
      | cases h; omega
      | (rename_i hu _; rw [hu, List.length_cons] at h1; cases h; omega)
      | cases h

theorem member_length {s s' : Seen} {k b r : Bytes} (h : member s k b = .ok (s', r)) : r.length < b.length := by
  unfold member at h
  repeat' split at h
  all_goals first
    | cases h; done
    | skip
  · cases h
    rename_i h1 _ h2
    have h1 := colon_length h1
    have h2 := (ignore_length _).1 _ _ _ (Nat.le_refl _) h2
    omega
  · cases h
    rename_i h1 _ _ h2
    have h1 := colon_length h1
    have h2 := number_length h2
    omega

/-- The `visit_map` that is derived, up to the closing brace. -/
def members (s : Seen) (first : Bool) (b : Bytes) : Res (Seen × Bytes) :=
  match hk : nextKey first b with
  | .error e => .error e
  | .ok none => .ok (s, b)
  | .ok (some t) =>
    match hn : key t with
    | .error e => .error e
    | .ok (k, t) =>
      match hm : member s k t with
      | .error e => .error e
      | .ok (s, t) => members s false t
termination_by b.length
decreasing_by
  have := nextKey_length hk
  have := key_length hn
  have := member_length hm
  omega

theorem members_eq (s : Seen) (first : Bool) (b : Bytes) : members s first b =
    match nextKey first b with
    | .error e => .error e
    | .ok none => .ok (s, b)
    | .ok (some t) =>
      match key t with
      | .error e => .error e
      | .ok (k, t) =>
        match member s k t with
        | .error e => .error e
        | .ok (s, t) => members s false t := by
  rw [members]
  split
  · rename_i h; rw [h]
  · rename_i h; rw [h]
  · rename_i h; rw [h]
    dsimp only
    split
    · rename_i h; rw [h]
    · rename_i h; rw [h]
      dsimp only
      split
      · rename_i h; rw [h]
      · rename_i h; rw [h]

/-- The numbers as a position, once all are there: the end of `visit_map`, and `Position::new`. -/
def position (s : Seen) : Option Position := do
  let x ← s .x
  let y ← s .y
  let z ← s .z
  let yaw ← s .yaw
  let pitch ← s .pitch
  let roll ← s .roll
  pure ⟨.ofInt x, .ofInt y, .ofInt z, .ofInt yaw, .ofInt pitch, .ofInt roll⟩

/-- `SeqAccess::next_element_seed` for a number: `none` at the closing bracket. -/
def element (first : Bool) (lo hi : Int) (b : Bytes) : Res (Option (Int × Bytes)) :=
  match skip b with
  | [] => .error .eof
  | c :: r =>
    if c = 93 then .ok none
    else if c = 44 ∧ first = false then
      match skip r with
      | [] => .error .eof
      | c :: r =>
        if c = 93 then .error .bad else
        match number lo hi (c :: r) with
        | .error e => .error e
        | .ok x => .ok (some x)
    else if first then
      match number lo hi (c :: r) with
      | .error e => .error e
      | .ok x => .ok (some x)
    else .error .bad

/-- The `visit_seq` that is derived: the fields in the order of their declaration. -/
def elements (s : Seen) : Bool → List Field → Bytes → Res (Seen × Bytes)
  | _, [], b => .ok (s, b)
  | first, f :: fs, b =>
    match element first f.lo f.hi b with
    | .error e => .error e
    | .ok none => .error .bad
    | .ok (some (n, r)) => elements (s.set f n) false fs r

/-- `end_seq` and `end_map`: the closing bracket. -/
def close (c : UInt8) (b : Bytes) : Res Bytes :=
  match skip b with
  | [] => .error .eof
  | x :: r => if x = c then .ok r else .error .bad

/-- `deserialize_struct` and the `Deserialize` derived for `PositionBody`. -/
def body (b : Bytes) : Res (Position × Bytes) :=
  match skip b with
  | [] => .error .eof
  | c :: r =>
    if c = 91 then
      match elements (fun _ => none) true [.x, .y, .z, .yaw, .pitch, .roll] r with
      | .error e => .error e
      | .ok (s, r) =>
        match position s, close 93 r with
        | none, _ => .error .bad
        | some _, .error e => .error e
        | some p, .ok r => .ok (p, r)
    else if c = 123 then
      match members (fun _ => none) true r with
      | .error e => .error e
      | .ok (s, r) =>
        match position s, close 125 r with
        | none, _ => .error .bad
        | some _, .error e => .error e
        | some p, .ok r => .ok (p, r)
    else .error (invalidType c r)

/-- `serde_json::from_slice::<PositionBody>`, with `Deserializer::end`. -/
def parse (b : Bytes) : Json :=
  match body b with
  | .error .eof => .eof
  | .error .bad => .bad
  | .ok (p, r) => if skip r = [] then .ok p else .bad

/-- The body that the page sends for a device, `static/index.html` 118-131: `JSON.stringify` of an object of six numbers,
here whole ones, in UTF-8. -/
def pageBody (p : Position) : Bytes :=
  (WebText.object [("x", WebText.integer p.x.toInt), ("y", WebText.integer p.y.toInt), ("z", WebText.integer p.z.toInt),
    ("yaw", WebText.integer p.yaw.toInt), ("pitch", WebText.integer p.pitch.toInt),
    ("roll", WebText.integer p.roll.toInt)]).flatMap String.utf8EncodeChar

end Pica.JsonBody
