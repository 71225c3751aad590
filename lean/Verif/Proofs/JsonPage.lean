import Verif.Proofs.JsonCut
import Mathlib.Tactic.IntervalCases
/-! The body that the page sends, as a document. -/

namespace Pica.JsonBody
open Spec.JsonText

theorem utf8_append (a b : List Char) : utf8 (a ++ b) = utf8 a ++ utf8 b := List.flatMap_append

theorem utf8_digit {d : Nat} (h : d < 10) : utf8 [Char.ofNat (48 + d)] = [UInt8.ofNat (48 + d)] := by
  interval_cases d <;> decide +kernel

theorem digit_byte {d : Nat} (h : d < 10) : Digit (UInt8.ofNat (48 + d)) ∧ (UInt8.ofNat (48 + d)).toNat - 48 = d ∧
    (UInt8.ofNat (48 + d) = 48 → d = 0) := by
  unfold Digit
  interval_cases d <;> decide

theorem decimalValue_snoc (l : Bytes) (c : UInt8) : decimalValue (l ++ [c]) = 10 * decimalValue l + (c.toNat - 48) := by
  simp [decimalValue]

/-- Decimal digits are a whole number. -/
theorem digits_utf8 (n : Nat) : Digits (utf8 (WebText.digits n)) ∧ decimalValue (utf8 (WebText.digits n)) = n ∧
    ((utf8 (WebText.digits n)).head? = some 48 → n = 0) := by
  induction n using Nat.strongRecOn with
  | _ n ih =>
    rw [WebText.digits]
    split
    · rename_i h
      obtain ⟨h1, h2, h3⟩ := digit_byte h
      rw [utf8_digit h]
      refine ⟨⟨by simp, by simpa using h1⟩, ?_, by simpa using h3⟩
      simpa [decimalValue] using h2
    · rename_i h
      obtain ⟨⟨i1, i2⟩, i3, i4⟩ := ih (n / 10) (by omega)
      obtain ⟨h1, h2, -⟩ := digit_byte (d := n % 10) (by omega)
      rw [utf8_append, utf8_digit (by omega)]
      refine ⟨⟨by simp, ?_⟩, ?_, ?_⟩
      · intro c hc
        rcases List.mem_append.mp hc with hc | hc
        · exact i2 c hc
        · rw [List.mem_singleton.mp hc]; exact h1
      · rw [decimalValue_snoc, i3, h2]
        omega
      · intro hh
        have := i4 (by
          obtain ⟨a, t, e⟩ := List.exists_cons_of_ne_nil i1
          rw [e] at hh ⊢
          exact hh)
        omega

theorem whole_utf8 (n : Nat) : Whole (utf8 (WebText.digits n)) := by
  obtain ⟨h1, h2, h3⟩ := digits_utf8 n
  refine ⟨h1, fun h => ?_⟩
  rw [h3 h]
  decide +kernel

theorem integer_utf8 (n : Int) : Integer (utf8 (WebText.integer n)) n := by
  have h := whole_utf8 n.natAbs
  obtain ⟨-, h2, -⟩ := digits_utf8 n.natAbs
  unfold WebText.integer
  split
  · rename_i hn
    refine .inr ⟨utf8 (WebText.digits n.natAbs), rfl, h, ?_, by rw [h2]; omega⟩
    intro e
    rw [e] at h2
    have : decimalValue [48] = 0 := rfl
    omega
  · exact .inl ⟨h, by rw [h2]; omega⟩

theorem spells_utf8 {cs : List Char} (h : ∀ c ∈ cs, 32 ≤ c.toNat ∧ c ≠ '"' ∧ c ≠ '\\') : Spells (utf8 cs) cs := by
  induction cs with
  | nil => exact .nil
  | cons c cs ih =>
    obtain ⟨h1, h2, h3⟩ := h c List.mem_cons_self
    exact .plain h1 h2 h3 (ih fun x hx => h x (List.mem_cons_of_mem _ hx))

theorem spells_unique {k : Bytes} {cs ds : List Char} (h : Spells k cs) (h' : Spells k ds) : utf8 cs = utf8 ds := by
  have h1 := parseStr_complete h []
  rw [parseStr_complete h' []] at h1
  simp only [Except.ok.injEq, Prod.mk.injEq, and_true] at h1
  exact h1.symm

/-- The names of the fields, and what they stand for. -/
theorem names_spell (f g : Field) : Spells f.name g.text.toList ↔ f = g := by
  have hf : Spells f.name f.text.toList := by
    have : f.name = utf8 f.text.toList := by cases f <;> decide +kernel
    rw [this]
    refine spells_utf8 ?_
    cases f <;> decide +kernel
  constructor
  · intro h
    have := spells_unique hf h
    revert this
    cases f <;> cases g <;> decide +kernel
  · rintro rfl; exact hf

theorem name_chars (f : Field) : Chars f.name := by
  cases f
  · exact .plain (by decide) (by decide) (by decide) .nil
  · exact .plain (by decide) (by decide) (by decide) .nil
  · exact .plain (by decide) (by decide) (by decide) .nil
  · exact .plain (by decide) (by decide) (by decide) (.plain (by decide) (by decide) (by decide)
      (.plain (by decide) (by decide) (by decide) .nil))
  · exact .plain (by decide) (by decide) (by decide) (.plain (by decide) (by decide) (by decide)
      (.plain (by decide) (by decide) (by decide) (.plain (by decide) (by decide) (by decide)
        (.plain (by decide) (by decide) (by decide) .nil))))
  · exact .plain (by decide) (by decide) (by decide) (.plain (by decide) (by decide) (by decide)
      (.plain (by decide) (by decide) (by decide) (.plain (by decide) (by decide) (by decide) .nil)))

/-- The fields of a position. -/
def pageFields : List Field := [.x, .y, .z, .yaw, .pitch, .roll]

/-- A member of the object that the page sends. -/
def pageMember (p : Position) (f : Field) : Bytes × Value := (f.name, .num (utf8 (WebText.integer (value p f))))

/-- The object that the page sends. -/
def pageValue (p : Position) : Value := .obj (pageFields.map (pageMember p))

theorem blank_nil : Blank [] := by intro c h; cases h

/-- The text of a member. -/
def memberText (p : Position) (f : Field) : Bytes := 34 :: (f.name ++ 34 :: 58 :: utf8 (WebText.integer (value p f)))

theorem member_text (p : Position) (f : Field) : IsMember (pageMember p f) (memberText p f) := by
  have := IsMember.mk (k := f.name) blank_nil (name_chars f) blank_nil blank_nil
    (IsValue.num (integer_number (integer_utf8 (value p f)))) blank_nil
  simpa [memberText, pageMember] using this

theorem page_text (p : Position) : pageBody p =
    123 :: ((memberText p .x ++ 44 :: (memberText p .y ++ 44 :: (memberText p .z ++ 44 :: (memberText p .yaw ++ 44 ::
      (memberText p .pitch ++ 44 :: memberText p .roll))))) ++ [125]) := by
  have q : String.utf8EncodeChar '"' = [34] := by decide +kernel
  have c : String.utf8EncodeChar ':' = [58] := by decide +kernel
  have m : String.utf8EncodeChar ',' = [44] := by decide +kernel
  have l : String.utf8EncodeChar '{' = [123] := by decide +kernel
  have r : String.utf8EncodeChar '}' = [125] := by decide +kernel
  have n1 : utf8 "x".toList = Field.x.name := by decide +kernel
  have n2 : utf8 "y".toList = Field.y.name := by decide +kernel
  have n3 : utf8 "z".toList = Field.z.name := by decide +kernel
  have n4 : utf8 "yaw".toList = Field.yaw.name := by decide +kernel
  have n5 : utf8 "pitch".toList = Field.pitch.name := by decide +kernel
  have n6 : utf8 "roll".toList = Field.roll.name := by decide +kernel
  show utf8 _ = _
  simp only [WebText.object, WebText.commas, WebText.string, List.map_cons, List.map_nil, utf8_cons, utf8_append,
    List.cons_append, q, c, m, l, r, n1, n2, n3, n4, n5, n6, List.nil_append, List.append_assoc, memberText, value]
  rfl

theorem page_document (p : Position) : Document (pageValue p) (pageBody p) := by
  refine ⟨[], pageBody p, [], by simp, blank_nil, ?_, blank_nil⟩
  rw [page_text]
  exact .obj (.cons (member_text p .x) (.cons (member_text p .y) (.cons (member_text p .z) (.cons (member_text p .yaw)
    (.cons (member_text p .pitch) (.one (member_text p .roll)))))))

theorem page_describes (p : Position) : Describes (pageValue p) p := by
  have has : ∀ (ls rs : List Field) (f : Field), pageFields = ls ++ f :: rs → f ∉ ls ++ rs →
      Has (pageFields.map (pageMember p)) f.text (value p f) := by
    intro ls rs f h hf
    refine ⟨ls.map (pageMember p), f.name, utf8 (WebText.integer (value p f)), rs.map (pageMember p), ?_,
      (names_spell f f).mpr rfl, integer_utf8 _, ?_⟩
    · rw [h]; simp [pageMember]
    · rw [← List.map_append]
      intro m hm
      obtain ⟨g, hg, rfl⟩ := List.mem_map.mp hm
      intro hs
      have := (names_spell g f).mp hs
      exact hf (this ▸ hg)
  exact ⟨has [] [.y, .z, .yaw, .pitch, .roll] .x rfl (by decide), has [.x] [.z, .yaw, .pitch, .roll] .y rfl (by decide),
    has [.x, .y] [.yaw, .pitch, .roll] .z rfl (by decide), has [.x, .y, .z] [.pitch, .roll] .yaw rfl (by decide),
    has [.x, .y, .z, .yaw] [.roll] .pitch rfl (by decide), has [.x, .y, .z, .yaw, .pitch] [] .roll rfl (by decide)⟩

theorem page_named (p : Position) : Named (pageValue p) := by
  intro m hm
  obtain ⟨f, -, rfl⟩ := List.mem_map.mp hm
  exact ⟨f.text.toList, (names_spell f f).mpr rfl⟩

end Pica.JsonBody
