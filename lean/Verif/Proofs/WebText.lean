import Verif.Model.WebText
import Verif.Spec.WebText
import Verif.Props.MacAddress
import Mathlib.Tactic.IntervalCases
/-! The texts of the web server are read back. -/

namespace Pica.WebText
open Pica.Spec Pica.Spec.Json

/-- A character that needs no escape. -/
def Plain (c : Char) : Prop := 32 ≤ c.toNat ∧ c ≠ '"' ∧ c ≠ '\\'
instance (c : Char) : Decidable (Plain c) := inferInstanceAs (Decidable (_ ∧ _))

theorem plain_upperDigit (n : Nat) (h : n < 16) : Plain (MacAddress.upperDigit n) := by
  interval_cases n <;> decide

theorem plain_display (m : MacAddress) : ∀ c ∈ m.display, Plain c := by
  intro c hc
  unfold MacAddress.display MacAddress.trimEndColons at hc
  rw [List.mem_reverse] at hc
  have hc := (List.dropWhile_sublist _).subset hc
  rw [List.mem_reverse] at hc
  obtain ⟨b, -, hb⟩ := List.mem_flatMap.mp hc
  have h1 : b.toNat / 16 < 16 := by have := b.toNat_lt; omega
  simp only [MacAddress.showByte, List.mem_cons, List.not_mem_nil, or_false] at hb
  rcases hb with rfl | rfl | rfl
  · exact plain_upperDigit _ h1
  · exact plain_upperDigit _ (by omega)
  · decide

theorem skip_cons {c : Char} {r : Text} (h : 32 < c.toNat) : skip (c :: r) = c :: r := by
  unfold skip
  split
  all_goals first | rfl | (rename_i e; cases e; exact absurd h (by decide))

theorem expect_same {c : Char} {r : Text} (h : 32 < c.toNat) : expect c (c :: r) = some r := by
  rw [expect, skip_cons h]; exact if_pos rfl

theorem expect_other {c d : Char} {r : Text} (h : 32 < d.toNat) (hd : d ≠ c) : expect c (d :: r) = none := by
  rw [expect, skip_cons h]; exact if_neg hd

/-- The text goes on with a character that cannot continue a number. -/
def Ends : Text → Prop
  | [] => True
  | c :: _ => c = ',' ∨ c = '}' ∨ c = ']'

/-- The text is read as the value, whatever follows it. -/
def Reads (t : Text) (v : Value) (n : Nat) : Prop :=
  ∀ fuel, n ≤ fuel → ∀ r, Ends r → value fuel (t ++ r) = some (v, r)

theorem string_plain (s r : Text) (h : ∀ c ∈ s, Plain c) : Json.string (s ++ '"' :: r) = some (s, r) := by
  induction s with
  | nil => simp [Json.string]
  | cons c s ih =>
    obtain ⟨h1, h2, h3⟩ := h c List.mem_cons_self
    rw [List.cons_append, Json.string, if_neg h2, if_neg (by rintro (x | x); exacts [h3 x, by omega]),
      ih fun x hx => h x (List.mem_cons_of_mem _ hx)]
    rfl

theorem reads_string (s : Text) (h : ∀ c ∈ s, Plain c) : Reads (string s) (.str s) 1 := by
  intro fuel hf r _
  obtain ⟨f, rfl⟩ : ∃ f, fuel = f + 1 := ⟨fuel - 1, by omega⟩
  show value (f + 1) ('"' :: (s ++ ['"'] ++ r)) = _
  rw [value, skip_cons (by decide), List.append_assoc]
  dsimp only
  rw [if_pos rfl, List.singleton_append, string_plain s r h]
  rfl

/-- The value of some digits after `n`. -/
theorem digit_ofNat (d : Nat) (h : d < 10) : digit (Char.ofNat (48 + d)) = some d := by
  interval_cases d <;> decide

theorem digits_ends (n : Nat) {r : Text} (h : Ends r) : Json.digits n r = (n, r) := by
  cases r with
  | nil => rfl
  | cons c r => rcases h with rfl | rfl | rfl <;> rfl

/-- The first digit of a number, and the value of all. -/
theorem digits_head (n : Nat) (hn : 0 < n) : ∃ d s, 0 < d ∧ d < 10 ∧ digits n = Char.ofNat (48 + d) :: s ∧
    ∀ r, Ends r → Json.digits d (s ++ r) = (n, r) := by
  induction n using Nat.strongRecOn with
  | _ n ih =>
    rw [digits]
    split
    · rename_i h
      exact ⟨n, [], hn, h, rfl, fun r hr => digits_ends n hr⟩
    · rename_i h
      obtain ⟨d, s, h1, h2, h3, h4⟩ := ih (n / 10) (by omega) (by omega)
      refine ⟨d, s ++ [Char.ofNat (48 + n % 10)], h1, h2, by rw [h3]; rfl, fun r hr => ?_⟩
      have key : ∀ (s : Text) (a b x : Nat) (r : Text), x < 10 → (∀ r, Ends r → Json.digits a (s ++ r) = (b, r)) →
          Json.digits a (s ++ (Char.ofNat (48 + x) :: r)) = Json.digits (10 * b + x) r := by
        intro s
        induction s with
        | nil =>
          intro a b x r hx hs
          have := hs [] trivial
          simp only [List.nil_append, Json.digits, Prod.mk.injEq, and_true] at this
          subst this
          rw [List.nil_append, Json.digits, digit_ofNat x hx]
        | cons c s ihs =>
          intro a b x r hx hs
          rw [List.cons_append, Json.digits]
          cases hc : digit c with
          | none =>
            have := hs [] trivial
            simp only [List.append_nil, Json.digits, hc] at this
            cases this
          | some d =>
            dsimp only
            refine ihs _ _ _ _ hx fun r hr => ?_
            have := hs r hr
            rw [List.cons_append, Json.digits, hc] at this
            exact this
      rw [List.append_assoc, List.singleton_append, key s d (n / 10) (n % 10) r (by omega) h4, digits_ends _ hr]
      congr 1
      omega

theorem natural_digits (n : Nat) (r : Text) (hr : Ends r) : natural (digits n ++ r) = some (n, r) := by
  have fin : ∀ {n : Nat} {r : Text}, Ends r → (match r with
      | [] => some (n, [])
      | x :: t => if (digit x).isSome ∨ x ∈ ['.', 'e', 'E'] then none else some (n, x :: t)) = some (n, r) := by
    intro n r hr
    cases r with
    | nil => rfl
    | cons c r => rcases hr with rfl | rfl | rfl <;> rfl
  by_cases h0 : n = 0
  · subst h0
    have : digits 0 = ['0'] := by rw [digits]; rfl
    rw [this, List.singleton_append, natural]
    have : digit '0' = some 0 := rfl
    rw [this]
    exact fin hr
  · obtain ⟨d, s, h1, h2, h3, h4⟩ := digits_head n (by omega)
    rw [h3, List.cons_append, natural, digit_ofNat d h2]
    dsimp only
    rw [if_neg (by omega), h4 r hr]
    exact fin hr

/-- A digit begins no other value. -/
theorem digits_start (n : Nat) : ∃ d s, d < 10 ∧ digits n = Char.ofNat (48 + d) :: s := by
  by_cases h0 : n = 0
  · subst h0
    exact ⟨0, [], by omega, by rw [digits]; rfl⟩
  · obtain ⟨d, s, -, h2, h3, -⟩ := digits_head n (by omega)
    exact ⟨d, s, h2, h3⟩

theorem reads_integer (n : Int) : Reads (integer n) (.int n) 1 := by
  intro fuel hf r hr
  obtain ⟨f, rfl⟩ : ∃ f, fuel = f + 1 := ⟨fuel - 1, by omega⟩
  unfold integer
  split
  · rename_i h
    rw [List.cons_append, value, skip_cons (by decide)]
    dsimp only
    rw [if_neg (by decide), if_pos rfl, natural_digits _ _ hr]
    simp only [Option.map_some, Option.some.injEq, Prod.mk.injEq, Value.int.injEq, and_true]
    omega
  · rename_i h
    obtain ⟨d, s, h1, h2⟩ := digits_start n.natAbs
    have key := natural_digits n.natAbs r hr
    rw [h2, List.cons_append] at key ⊢
    have hc : 32 < (Char.ofNat (48 + d)).toNat ∧ Char.ofNat (48 + d) ≠ '"' ∧ Char.ofNat (48 + d) ≠ '-' ∧
        Char.ofNat (48 + d) ≠ '[' ∧ Char.ofNat (48 + d) ≠ '{' := by interval_cases d <;> decide
    rw [value, skip_cons hc.1]
    dsimp only
    rw [if_neg hc.2.1, if_neg hc.2.2.1, if_neg hc.2.2.2.1, if_neg hc.2.2.2.2, key]
    simp only [Option.map_some, Option.some.injEq, Prod.mk.injEq, Value.int.injEq, and_true]
    omega

/-- The text of a member. -/
def memberText (f : String × Text) : Text := string f.1.toList ++ ':' :: f.2

theorem members_one {f : String × Text} {v : Value} {n fuel : Nat} (hp : ∀ c ∈ f.1.toList, Plain c) (h : Reads f.2 v n)
    (hf : n ≤ fuel) (x : Char) (r : Text) (hx : x = ',' ∨ x = '}') :
    members (fuel + 1) (memberText f ++ x :: r) =
      match expect ',' (x :: r) with
      | some t => (members fuel t).map fun (ms, t) => ((f.1.toList, v) :: ms, t)
      | none => (expect '}' (x :: r)).map fun t => ([(f.1.toList, v)], t) := by
  have e : memberText f ++ x :: r = '"' :: (f.1.toList ++ '"' :: (':' :: (f.2 ++ x :: r))) := by
    simp [memberText, string]
  rw [e, members, expect_same (by decide)]
  dsimp only
  rw [string_plain _ _ hp]
  dsimp only
  rw [expect_same (by decide)]
  dsimp only
  rw [h fuel hf _ (by rcases hx with rfl | rfl <;> simp [Ends])]
  rfl

theorem members_all {fs : List (String × Text)} {vs : List Value} {n : Nat} (hne : fs ≠ [])
    (h : List.Forall₂ (fun f v => (∀ c ∈ f.1.toList, Plain c) ∧ Reads f.2 v n) fs vs) (fuel : Nat)
    (hf : n + fs.length ≤ fuel) (r : Text) :
    members fuel (commas (fs.map memberText) ++ '}' :: r) = some ((fs.zip vs).map fun x => (x.1.1.toList, x.2), r) := by
  induction h generalizing fuel with
  | nil => exact absurd rfl hne
  | @cons f v fs vs h1 hs ih =>
    obtain ⟨k, rfl⟩ : ∃ k, fuel = k + 1 := ⟨fuel - 1, by simp at hf; omega⟩
    simp only [List.length_cons] at hf
    cases hs with
    | nil =>
      simp only [List.map_cons, List.map_nil, commas, List.zip_cons_cons, List.zip_nil_left]
      rw [members_one h1.1 h1.2 (by omega) _ _ (.inr rfl), expect_other (by decide) (by decide), expect_same (by decide)]
      rfl
    | @cons g w gs ws h2 hs =>
      have e : commas ((f :: g :: gs).map memberText) ++ '}' :: r =
          memberText f ++ ',' :: (commas ((g :: gs).map memberText) ++ '}' :: r) := by
        simp [commas]
      rw [e, members_one h1.1 h1.2 (by omega) _ _ (.inl rfl), expect_same (by decide)]
      dsimp only
      rw [ih (by simp) k (by simp only [List.length_cons] at hf ⊢; omega)]
      rfl

theorem reads_object {fs : List (String × Text)} {vs : List Value} {n : Nat} (hne : fs ≠ [])
    (h : List.Forall₂ (fun f v => (∀ c ∈ f.1.toList, Plain c) ∧ Reads f.2 v n) fs vs) :
    Reads (object fs) (.obj ((fs.zip vs).map fun x => (x.1.1.toList, x.2))) (n + fs.length + 1) := by
  intro fuel hf r _
  obtain ⟨k, rfl⟩ : ∃ k, fuel = k + 1 := ⟨fuel - 1, by omega⟩
  have e : object fs ++ r = '{' :: (commas (fs.map memberText) ++ '}' :: r) := by
    show '{' :: (commas (fs.map memberText) ++ ['}']) ++ r = _
    simp
  rw [e, value, skip_cons (by decide)]
  dsimp only
  rw [if_neg (by decide), if_neg (by decide), if_neg (by decide), if_pos rfl, members_all hne h k (by omega)]
  obtain ⟨f, fs', rfl⟩ := List.exists_cons_of_ne_nil hne
  have hs : ∃ t, commas ((f :: fs').map memberText) ++ '}' :: r = '"' :: t := by
    cases fs' <;> simp [commas, memberText, string]
  obtain ⟨t, ht⟩ := hs
  rw [ht, expect_other (by decide) (by decide)]
  rfl

theorem elements_all {ts : List Text} {vs : List Value} {n : Nat} (hne : ts ≠ [])
    (h : List.Forall₂ (fun t v => Reads t v n) ts vs) (fuel : Nat) (hf : n + ts.length ≤ fuel) (r : Text) :
    elements fuel (commas ts ++ ']' :: r) = some (vs, r) := by
  induction h generalizing fuel with
  | nil => exact absurd rfl hne
  | @cons t v ts vs h1 hs ih =>
    obtain ⟨k, rfl⟩ : ∃ k, fuel = k + 1 := ⟨fuel - 1, by simp at hf; omega⟩
    simp only [List.length_cons] at hf
    cases hs with
    | nil =>
      rw [commas, elements, h1 k (by omega) _ (by simp [Ends])]
      dsimp only
      rw [expect_other (by decide) (by decide), expect_same (by decide)]
      rfl
    | @cons g w gs ws h2 hs =>
      have e : commas (t :: g :: gs) ++ ']' :: r = t ++ ',' :: (commas (g :: gs) ++ ']' :: r) := by
        simp [commas]
      rw [e, elements, h1 k (by omega) _ (by simp [Ends])]
      dsimp only
      rw [expect_same (by decide)]
      dsimp only
      rw [ih (by simp) k (by simp only [List.length_cons] at hf ⊢; omega)]
      rfl

/-- The elements of the array begin with a brace. -/
theorem reads_array {ts : List Text} {vs : List Value} {n : Nat} (h : List.Forall₂ (fun t v => Reads t v n) ts vs)
    (hb : ∀ t ∈ ts, ∃ u, t = '{' :: u) :
    Reads ('[' :: commas ts ++ [']']) (.arr vs) (n + ts.length + 1) := by
  intro fuel hf r _
  obtain ⟨k, rfl⟩ : ∃ k, fuel = k + 1 := ⟨fuel - 1, by omega⟩
  have e : '[' :: commas ts ++ [']'] ++ r = '[' :: (commas ts ++ ']' :: r) := by simp
  rw [e, value, skip_cons (by decide)]
  dsimp only
  rw [if_neg (by decide), if_neg (by decide), if_pos rfl]
  by_cases hne : ts = []
  · subst hne
    cases h
    rw [commas, List.nil_append, expect_same (by decide)]
  · rw [elements_all hne h k (by omega)]
    obtain ⟨f, ts', rfl⟩ := List.exists_cons_of_ne_nil hne
    obtain ⟨u, rfl⟩ := hb f List.mem_cons_self
    have hs : ∃ t, commas (('{' :: u) :: ts') ++ ']' :: r = '{' :: t := by
      cases ts' <;> simp [commas]
    obtain ⟨t, ht⟩ := hs
    rw [ht, expect_other (by decide) (by decide)]
    rfl

theorem Reads.mono {t : Text} {v : Value} {n m : Nat} (h : Reads t v n) (hm : n ≤ m) : Reads t v m :=
  fun fuel hf r hr => h fuel (by omega) r hr

theorem reads_read {t : Text} {v : Value} {n : Nat} (h : Reads t v n) (hn : n ≤ t.length + 1) : Spec.Json.read t = some v := by
  have := h (t.length + 1) hn [] trivial
  rw [List.append_nil] at this
  rw [Spec.Json.read, this]; exact if_pos rfl

theorem plain_name (s : String) (h : ∀ c ∈ s.toList, Plain c) {t : Text} : ∀ c ∈ (s, t).1.toList, Plain c := h

theorem macText_eq (m : MacAddress) : macText m = m.display := by
  rw [Props.C01_display]
  cases m <;> rfl

theorem reads_category (c : Category) : Reads (category c) (.str (categoryName c)) 1 := by
  cases c <;> exact reads_string _ (by decide)

theorem reads_mac (m : MacAddress) : Reads (mac m) (.str (macText m)) 1 := by
  rw [macText_eq]; exact reads_string _ (plain_display m)

theorem reads_device (euler : Euler) (c : Category) (m : MacAddress) (p : Position) :
    Reads (device euler c m p) (.obj (deviceFields euler c m p)) 10 :=
  reads_object (n := 1) (vs := [.str (categoryName c), .str (macText m), .int p.x.toInt, .int p.y.toInt, .int p.z.toInt,
      .int (euler p).1.toInt, .int (euler p).2.1.toInt, .int (euler p).2.2.toInt]) (by simp)
    (.cons ⟨plain_name _ (by decide), reads_category c⟩ <| .cons ⟨plain_name _ (by decide), reads_mac m⟩ <| .cons ⟨plain_name _ (by decide), reads_integer _⟩ <|
      .cons ⟨plain_name _ (by decide), reads_integer _⟩ <| .cons ⟨plain_name _ (by decide), reads_integer _⟩ <| .cons ⟨plain_name _ (by decide), reads_integer _⟩ <|
      .cons ⟨plain_name _ (by decide), reads_integer _⟩ <| .cons ⟨plain_name _ (by decide), reads_integer _⟩ .nil)

theorem reads_event (euler : Euler) (e : WebEvent) : Reads (event euler e) (eventContent euler e).2 10 := by
  cases e with
  | added c m p => exact reads_device euler c m p
  | updated c m p => exact reads_device euler c m p
  | removed c m =>
    exact (reads_object (n := 1) (vs := [.str (categoryName c), .str (macText m)]) (by simp)
      (.cons ⟨plain_name _ (by decide), reads_category c⟩ <| .cons ⟨plain_name _ (by decide), reads_mac m⟩ .nil)).mono (by simp)
  | neighbor s d x =>
    exact (reads_object (n := 1) (vs := [.str (categoryName s.1), .str (macText s.2), .str (categoryName d.1),
        .str (macText d.2), .int x.range.toNat, .int x.azimuth.toInt, .int x.elevation.toInt]) (by simp)
      (.cons ⟨plain_name _ (by decide), reads_category _⟩ <| .cons ⟨plain_name _ (by decide), reads_mac _⟩ <| .cons ⟨plain_name _ (by decide), reads_category _⟩ <|
        .cons ⟨plain_name _ (by decide), reads_mac _⟩ <| .cons ⟨plain_name _ (by decide), reads_integer _⟩ <| .cons ⟨plain_name _ (by decide), reads_integer _⟩ <|
        .cons ⟨plain_name _ (by decide), reads_integer _⟩ .nil)).mono (by simp)

/-! ### Lines and events -/

/-- No line ends in the text. -/
def Inline (t : Text) : Prop := ∀ c ∈ t, c ≠ '\n' ∧ c ≠ '\r'

theorem inline_plain {t : Text} (h : ∀ c ∈ t, 32 ≤ c.toNat) : Inline t := fun c hc =>
  ⟨fun e => absurd (h c hc) (by rw [e]; decide), fun e => absurd (h c hc) (by rw [e]; decide)⟩

theorem lines_char (acc : Text) (c : Char) (r : Text) (h : c ≠ '\n' ∧ c ≠ '\r') :
    EventStream.lines acc (c :: r) = EventStream.lines (acc ++ [c]) r := by
  rw [EventStream.lines]
  all_goals (intros; simp_all)

theorem lines_line (acc t r : Text) (h : Inline t) :
    EventStream.lines acc (t ++ '\n' :: r) = (acc ++ t) :: EventStream.lines [] r := by
  induction t generalizing acc with
  | nil => simp [EventStream.lines]
  | cons c t ih =>
    rw [List.cons_append, lines_char _ _ _ (h c List.mem_cons_self), ih _ fun x hx => h x (List.mem_cons_of_mem _ hx)]
    simp

theorem lines_prefix (acc p q : Text) : EventStream.lines acc p <+: EventStream.lines acc (p ++ q) := by
  induction acc, p using EventStream.lines.induct with
  | case1 acc => exact List.nil_prefix
  | case2 acc r ih =>
    simp only [List.cons_append, EventStream.lines]
    exact (List.prefix_cons_inj _).mpr ih
  | case3 acc r hr ih =>
    rw [List.cons_append, EventStream.lines]
    · cases r with
      | nil =>
        simp only [List.nil_append, EventStream.lines]
        cases q with
        | nil => simp [EventStream.lines]
        | cons x q =>
          by_cases hx : x = '\n'
          · subst hx; simp [EventStream.lines]
          · rw [EventStream.lines]
            · simp
            · intro t ht; cases ht; exact hx rfl
      | cons x r =>
        rw [List.cons_append, EventStream.lines]
        · exact (List.prefix_cons_inj _).mpr ih
        · intro t ht; cases ht; exact hr _ rfl
    · exact hr
  | case4 acc r ih =>
    simp only [List.cons_append, EventStream.lines]
    exact (List.prefix_cons_inj _).mpr ih
  | case5 acc c r h1 h2 h3 ih =>
    have hc : c ≠ '\n' ∧ c ≠ '\r' := ⟨fun e => h3 e, fun e => h2 e⟩
    rw [List.cons_append, lines_char _ _ _ hc, lines_char _ _ _ hc]
    exact ih

theorem events_prefix (ty d : Text) (ls ms : List Text) : EventStream.events ty d ls <+: EventStream.events ty d (ls ++ ms) := by
  induction ls generalizing ty d with
  | nil => exact List.nil_prefix
  | cons l ls ih =>
    cases l with
    | nil =>
      simp only [List.cons_append, EventStream.events]
      split
      · exact ih _ _
      · exact (List.prefix_cons_inj _).mpr (ih _ _)
    | cons c l =>
      simp only [List.cons_append, EventStream.events]
      split
      · exact ih _ _
      · split <;> exact ih _ _

/-- All characters can be printed. -/
def Printable (t : Text) : Prop := ∀ c ∈ t, 32 ≤ c.toNat
instance (t : Text) : Decidable (Printable t) := inferInstanceAs (Decidable (∀ c ∈ t, _))

theorem Printable.append {s t : Text} (hs : Printable s) (ht : Printable t) : Printable (s ++ t) := fun c hc =>
  (List.mem_append.mp hc).elim (hs c) (ht c)

theorem Printable.cons {c : Char} {t : Text} (hc : 32 ≤ c.toNat) (ht : Printable t) : Printable (c :: t) := fun x hx => by
  rcases List.mem_cons.mp hx with rfl | hx
  exacts [hc, ht x hx]

theorem printable_digits (n : Nat) : Printable (digits n) := by
  induction n using Nat.strongRecOn with
  | _ n ih =>
    have hd : ∀ d, d < 10 → Printable [Char.ofNat (48 + d)] := fun d h => by interval_cases d <;> decide
    rw [digits]
    split
    · exact hd _ ‹_›
    · exact (ih (n / 10) (by omega)).append (hd _ (by omega))

theorem printable_integer (n : Int) : Printable (integer n) := by
  unfold integer
  split
  · exact .cons (by decide) (printable_digits _)
  · exact printable_digits _

theorem printable_string {s : Text} (h : Printable s) : Printable (string s) :=
  .append (.cons (by decide) h) (by decide)

theorem printable_commas {ts : List Text} (h : ∀ t ∈ ts, Printable t) : Printable (commas ts) := by
  induction ts with
  | nil => intro c hc; cases hc
  | cons t ts ih =>
    have ht := h t List.mem_cons_self
    have hts := ih fun x hx => h x (List.mem_cons_of_mem _ hx)
    cases ts with
    | nil => exact ht
    | cons u ts => exact ht.append (.cons (by decide) hts)

theorem printable_object {fs : List (String × Text)} (h : ∀ f ∈ fs, Printable f.1.toList ∧ Printable f.2) :
    Printable (object fs) := by
  refine .append (.cons (by decide) (printable_commas fun t ht => ?_)) (by decide)
  obtain ⟨f, hf, rfl⟩ := List.mem_map.mp ht
  exact (printable_string (h f hf).1).append (.cons (by decide) (h f hf).2)

theorem printable_category (c : Category) : Printable (category c) := by cases c <;> decide

theorem printable_mac (m : MacAddress) : Printable (mac m) := printable_string fun c hc => (plain_display m c hc).1

theorem printable_event (euler : Euler) (e : WebEvent) : Printable (event euler e) := by
  have dev : ∀ c m p, Printable (device euler c m p) := fun c m p => by
    refine printable_object fun f hf => ?_
    simp only [position, List.mem_cons, List.not_mem_nil, or_false] at hf
    rcases hf with rfl | rfl | rfl | rfl | rfl | rfl | rfl | rfl
    · exact ⟨by dsimp only; decide, printable_category c⟩
    · exact ⟨by dsimp only; decide, printable_mac m⟩
    all_goals exact ⟨by dsimp only; decide, printable_integer _⟩
  cases e with
  | added c m p => exact dev c m p
  | updated c m p => exact dev c m p
  | removed c m =>
    refine printable_object fun f hf => ?_
    simp only [List.mem_cons, List.not_mem_nil, or_false] at hf
    rcases hf with rfl | rfl
    · exact ⟨by dsimp only; decide, printable_category c⟩
    · exact ⟨by dsimp only; decide, printable_mac m⟩
  | neighbor s d x =>
    refine printable_object fun f hf => ?_
    simp only [List.mem_cons, List.not_mem_nil, or_false] at hf
    rcases hf with rfl | rfl | rfl | rfl | rfl | rfl | rfl
    · exact ⟨by dsimp only; decide, printable_category _⟩
    · exact ⟨by dsimp only; decide, printable_mac _⟩
    · exact ⟨by dsimp only; decide, printable_category _⟩
    · exact ⟨by dsimp only; decide, printable_mac _⟩
    all_goals exact ⟨by dsimp only; decide, by dsimp only; exact printable_integer _⟩

theorem printable_name (e : WebEvent) : Printable (name e).toList := by
  cases e <;> (dsimp only [name]; decide)

theorem field_event (s : Text) : EventStream.field ("event: ".toList ++ s) = ("event".toList, s) := rfl
theorem field_data (s : Text) : EventStream.field ("data: ".toList ++ s) = ("data".toList, s) := rfl

theorem events_event (ty d s : Text) (ls : List Text) :
    EventStream.events ty d (("event: ".toList ++ s) :: ls) = EventStream.events s d ls := by
  have : "event: ".toList ++ s = 'e' :: ("vent: ".toList ++ s) := rfl
  rw [this, EventStream.events, ← this, field_event]
  · exact if_pos rfl
  · simp

theorem events_data (ty d s : Text) (ls : List Text) :
    EventStream.events ty d (("data: ".toList ++ s) :: ls) = EventStream.events ty (d ++ s ++ ['\n']) ls := by
  have : "data: ".toList ++ s = 'd' :: ("ata: ".toList ++ s) := rfl
  rw [this, EventStream.events, ← this, field_data]
  · exact (if_neg (by decide)).trans (if_pos rfl)
  · simp

theorem lines_item (a b r : Text) (ha : Inline a) (hb : Inline b) :
    EventStream.lines [] (a ++ '\n' :: (b ++ '\n' :: '\n' :: r)) = a :: b :: [] :: EventStream.lines [] r := by
  rw [lines_line _ _ _ ha, lines_line _ _ _ hb]
  have := lines_line [] [] r (by intro c hc; cases hc)
  rw [List.nil_append] at this
  rw [this]
  rfl

theorem item_eq (euler : Euler) (e : WebEvent) (r : Text) : item euler e ++ r =
    ("event: ".toList ++ (name e).toList) ++ '\n' :: (("data: ".toList ++ event euler e) ++ '\n' :: '\n' :: r) := by
  unfold item
  generalize event euler e = x
  generalize (name e).toList = y
  have h1 : "\ndata: ".toList = '\n' :: "data: ".toList := rfl
  have h2 : "\n\n".toList = ['\n', '\n'] := rfl
  rw [h1, h2]
  simp only [List.append_assoc, List.cons_append, List.nil_append]

theorem read_item (euler : Euler) (e : WebEvent) (r : Text) :
    EventStream.read (item euler e ++ r) = ((name e).toList, event euler e) :: EventStream.read r := by
  have i1 : Inline ("event: ".toList ++ (name e).toList) :=
    inline_plain (Printable.append (s := "event: ".toList) (by decide) (printable_name e))
  have i2 : Inline ("data: ".toList ++ event euler e) :=
    inline_plain (Printable.append (s := "data: ".toList) (by decide) (printable_event euler e))
  have hn : (name e).toList ≠ [] := by cases e <;> simp [name]
  unfold EventStream.read
  rw [item_eq, lines_item _ _ _ i1 i2, events_event, events_data, EventStream.events, if_neg (by simp), if_neg hn]
  simp

end Pica.WebText
