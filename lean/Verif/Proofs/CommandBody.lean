import Verif.Proofs.CommandLine
import Verif.Props.JsonBody
/-! The requests of the console for the web server. -/

namespace Pica.Console
open Spec Spec.JsonText JsonBody
open Spec.Typed (Coordinates Address)

/-- The integer for a field. -/
def coordinate (c : Coordinates) : Field → Int
  | .x => c.x
  | .y => c.y
  | .z => c.z
  | .yaw => c.yaw
  | .pitch => c.pitch
  | .roll => c.roll

/-- A member of the object that is sent. -/
def bodyMember (c : Coordinates) (f : Field) : Bytes × Value := (f.name, .num (utf8 (WebText.integer (coordinate c f))))

/-- The object that is sent. -/
def bodyValue (c : Coordinates) : Value := .obj (pageFields.map (bodyMember c))

/-- Its text. -/
def bodyText (c : Coordinates) : Bytes :=
  (dumps [("x", c.x), ("y", c.y), ("z", c.z), ("yaw", c.yaw), ("pitch", c.pitch), ("roll", c.roll)]).flatMap String.utf8EncodeChar

/-- The text of a member, after blanks. -/
def bodyMemberText (c : Coordinates) (w : Bytes) (f : Field) : Bytes :=
  w ++ 34 :: (f.name ++ 34 :: 58 :: 32 :: utf8 (WebText.integer (coordinate c f)))

theorem blank_space : Blank [32] := by intro c h; exact .inl (List.mem_singleton.mp h)

theorem body_member (c : Coordinates) {w : Bytes} (hw : Blank w) (f : Field) : IsMember (bodyMember c f) (bodyMemberText c w f) := by
  have := IsMember.mk (k := f.name) hw (name_chars f) blank_nil blank_space
    (IsValue.num (integer_number (integer_utf8 (coordinate c f)))) blank_nil
  simpa [bodyMemberText, bodyMember] using this

theorem body_text (c : Coordinates) : bodyText c =
    123 :: ((bodyMemberText c [] .x ++ 44 :: (bodyMemberText c [32] .y ++ 44 :: (bodyMemberText c [32] .z ++ 44 ::
      (bodyMemberText c [32] .yaw ++ 44 :: (bodyMemberText c [32] .pitch ++ 44 :: bodyMemberText c [32] .roll))))) ++ [125]) := by
  have q : String.utf8EncodeChar '"' = [34] := by decide +kernel
  have l : String.utf8EncodeChar '{' = [123] := by decide +kernel
  have r : String.utf8EncodeChar '}' = [125] := by decide +kernel
  have sp : utf8 ": ".toList = [58, 32] := by decide +kernel
  have sm : utf8 ", ".toList = [44, 32] := by decide +kernel
  have n1 : utf8 "x".toList = Field.x.name := by decide +kernel
  have n2 : utf8 "y".toList = Field.y.name := by decide +kernel
  have n3 : utf8 "z".toList = Field.z.name := by decide +kernel
  have n4 : utf8 "yaw".toList = Field.yaw.name := by decide +kernel
  have n5 : utf8 "pitch".toList = Field.pitch.name := by decide +kernel
  have n6 : utf8 "roll".toList = Field.roll.name := by decide +kernel
  have nn : utf8 [] = [] := rfl
  show utf8 (dumps _) = _
  unfold dumps
  generalize he : ": ".toList = sp' at *
  generalize hm : ", ".toList = sm' at *
  simp only [List.intercalate, List.intersperse, List.map_cons, List.map_nil, List.flatten_cons, List.flatten_nil, WebText.string, utf8_cons, utf8_append, sp, sm,
    List.cons_append, q, l, r, n1, n2, n3, n4, n5, n6, List.nil_append, List.append_assoc, bodyMemberText, coordinate, nn, List.append_nil]

theorem body_document (c : Coordinates) : Document (bodyValue c) (bodyText c) := by
  refine ⟨[], bodyText c, [], by simp, blank_nil, ?_, blank_nil⟩
  rw [body_text]
  exact .obj (.cons (body_member c blank_nil .x) (.cons (body_member c blank_space .y) (.cons (body_member c blank_space .z)
    (.cons (body_member c blank_space .yaw) (.cons (body_member c blank_space .pitch) (.one (body_member c blank_space .roll)))))))

theorem body_named (c : Coordinates) : Named (bodyValue c) := by
  intro m hm
  obtain ⟨f, -, rfl⟩ := List.mem_map.mp hm
  exact ⟨f.text.toList, (names_spell f f).mpr rfl⟩

theorem whole_minus {d : Bytes} : ¬ Spec.JsonText.Whole (45 :: d) := by
  intro h
  have := h.1.2 45 List.mem_cons_self
  revert this
  unfold Digit
  decide

theorem integer_unique {l : Bytes} {n m : Int} (h : Integer l n) (h' : Integer l m) : n = m := by
  rcases h with ⟨h1, h2⟩ | ⟨d, rfl, h1, h2, h3⟩
  · rcases h' with ⟨-, h'⟩ | ⟨d, rfl, -⟩
    · rw [h2, h']
    · exact absurd h1 whole_minus
  · rcases h' with ⟨h', -⟩ | ⟨d', e, -, -, h'⟩
    · exact absurd h' whole_minus
    · cases e
      rw [h3, h']

/-- The position has these coordinates. -/
theorem body_describes (c : Coordinates) (p : Position) : Describes (bodyValue c) p ↔ ∀ f, JsonBody.value p f = coordinate c f := by
  have has : ∀ (ls rs : List Field) (f : Field), pageFields = ls ++ f :: rs → f ∉ ls ++ rs → ∀ n,
      Has (pageFields.map (bodyMember c)) f.text n ↔ n = coordinate c f := by
    intro ls rs f h hf n
    constructor
    · rintro ⟨as, k, l, bs, e, hk, hl, -⟩
      have hm : (k, Value.num l) ∈ pageFields.map (bodyMember c) := by rw [e]; simp
      obtain ⟨g, -, hg⟩ := List.mem_map.mp hm
      cases hg
      obtain rfl := (names_spell g f).mp hk
      exact integer_unique hl (integer_utf8 _)
    · rintro rfl
      refine ⟨ls.map (bodyMember c), f.name, utf8 (WebText.integer (coordinate c f)), rs.map (bodyMember c), ?_,
        (names_spell f f).mpr rfl, integer_utf8 _, ?_⟩
      · rw [h]; simp [bodyMember]
      · rw [← List.map_append]
        intro m hm
        obtain ⟨g, hg, rfl⟩ := List.mem_map.mp hm
        intro hs
        have := (names_spell g f).mp hs
        exact hf (this ▸ hg)
  have h1 := has [] [.y, .z, .yaw, .pitch, .roll] .x rfl (by decide) p.x.toInt
  have h2 := has [.x] [.z, .yaw, .pitch, .roll] .y rfl (by decide) p.y.toInt
  have h3 := has [.x, .y] [.yaw, .pitch, .roll] .z rfl (by decide) p.z.toInt
  have h4 := has [.x, .y, .z] [.pitch, .roll] .yaw rfl (by decide) p.yaw.toInt
  have h5 := has [.x, .y, .z, .yaw] [.roll] .pitch rfl (by decide) p.pitch.toInt
  have h6 := has [.x, .y, .z, .yaw, .pitch] [] .roll rfl (by decide) p.roll.toInt
  constructor
  · rintro ⟨i1, i2, i3, i4, i5, i6⟩ f
    cases f
    exacts [h1.mp i1, h2.mp i2, h3.mp i3, h4.mp i4, h5.mp i5, h6.mp i6]
  · intro h
    exact ⟨h1.mpr (h .x), h2.mpr (h .y), h3.mpr (h .z), h4.mpr (h .yaw), h5.mpr (h .pitch), h6.mpr (h .roll)⟩

/-- Coordinates fit just if they are those of a position. -/
theorem fit_iff (c : Coordinates) : c.Fit ↔ ∃ p : Position, ∀ f, JsonBody.value p f = coordinate c f := by
  constructor
  · rintro ⟨h1, h2, h3, h4, h5, h6⟩
    refine ⟨⟨.ofInt c.x, .ofInt c.y, .ofInt c.z, .ofInt c.yaw, .ofInt c.pitch, .ofInt c.roll⟩, fun f => ?_⟩
    cases f
    · exact Int16.toInt_ofInt_of_le h1.1 (by omega)
    · exact Int16.toInt_ofInt_of_le h2.1 (by omega)
    · exact Int16.toInt_ofInt_of_le h3.1 (by omega)
    · exact Int16.toInt_ofInt_of_le h4.1 (by omega)
    · exact Int8.toInt_ofInt_of_le h5.1 (by omega)
    · exact Int16.toInt_ofInt_of_le h6.1 (by omega)
  · rintro ⟨p, h⟩
    have w (a : Int16) : -32768 ≤ a.toInt ∧ a.toInt ≤ 32767 := ⟨a.le_toInt, a.toInt_le⟩
    have b (a : Int8) : -128 ≤ a.toInt ∧ a.toInt ≤ 127 := ⟨a.le_toInt, a.toInt_le⟩
    have g (a : Int16) (n : Int) (e : a.toInt = n) : -32768 ≤ n ∧ n ≤ 32767 := e ▸ w a
    have g' (a : Int8) (n : Int) (e : a.toInt = n) : -128 ≤ n ∧ n ≤ 127 := e ▸ b a
    exact ⟨g _ _ (h .x), g _ _ (h .y), g _ _ (h .z), g _ _ (h .yaw), g' _ _ (h .pitch), g _ _ (h .roll)⟩

theorem hexTable_slash : ∀ x ∈ hexTable, x.1 ≠ '/' := by decide +kernel

theorem hexText_slash {t : List Char} {ds : List Nat} (h : HexText t ds) : '/' ∉ t := by
  induction h with
  | nil => simp
  | escape _ ih => simpa using ih
  | digit h _ ih =>
    intro hm
    rcases List.mem_cons.mp hm with e | hm
    · exact hexTable_slash _ h e.symm
    · exact ih hm

theorem address_parse {t : List Char} {m : MacAddress} (h : Address t m) : MacAddress.parse t = some m ∧ '/' ∉ t := by
  obtain ⟨-, ds, h1, h2, h3⟩ := h
  have hl : ∀ n, ds.length = 2 * n → (pairUp ds).length = n := by
    have : ∀ n (ds : List Nat), ds.length = 2 * n → (pairUp ds).length = n := by
      intro n
      induction n with
      | zero => intro ds hd; obtain rfl := List.length_eq_zero_iff.mp (by simpa using hd); rfl
      | succ n ih =>
        intro ds hd
        match ds, hd with
        | a :: b :: ds, hd => rw [pairUp, List.length_cons, ih ds (by simp at hd; omega)]
    intro n
    exact this n ds
  constructor
  · cases m with
    | short a =>
      refine (Props.C02_parse_short_iff t a).mpr ⟨ds, h1, ?_, h3.symm⟩
      rcases h2 with h2 | h2
      · exact h2
      · have := hl 8 h2
        rw [h3, List.length_map] at this
        exact absurd this (by rw [show (MacAddress.short a).toBytes = a.1 from rfl, a.2]; decide)
    | extended a =>
      refine (Props.C02_parse_extended_iff t a).mpr ⟨ds, h1, ?_, h3.symm⟩
      rcases h2 with h2 | h2
      · have := hl 2 h2
        rw [h3, List.length_map] at this
        exact absurd this (by rw [show (MacAddress.extended a).toBytes = a.1 from rfl, a.2]; decide)
      · exact h2
  · intro hs
    refine hexText_slash h1 ?_
    unfold withoutColons
    simp [hs]

end Pica.Console
