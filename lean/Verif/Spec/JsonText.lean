import Verif.Model.Position
/-!
The grammar of JSON (RFC 8259, sections 2 to 7) over bytes, and what a document says about a position.

Strings are taken byte by byte: that their bytes are UTF-8 is `Spells`.
-/

namespace Pica.Spec.JsonText

/-- A value. Numbers are as they are written, and so are strings, without their quotes. -/
inductive Value where
  | null
  | true
  | false
  | num (l : List UInt8)
  | str (l : List UInt8)
  | arr (vs : List Value)
  | obj (ms : List (List UInt8 × Value))

/-- White space: space, tab, line feed and carriage return. -/
def Blank (w : List UInt8) : Prop := ∀ c ∈ w, c = 32 ∨ c = 9 ∨ c = 10 ∨ c = 13

/-- A digit. -/
def Digit (c : UInt8) : Prop := 48 ≤ c ∧ c ≤ 57

/-- A hexadecimal digit. -/
def Hex (c : UInt8) : Prop := Digit c ∨ 65 ≤ c ∧ c ≤ 70 ∨ 97 ≤ c ∧ c ≤ 102

/-- What may be between the quotes of a string. -/
inductive Chars : List UInt8 → Prop where
  | nil : Chars []
  | plain {c r} : 32 ≤ c → c ≠ 34 → c ≠ 92 → Chars r → Chars (c :: r)
  /-- a quote, a backslash or a slash, or one of `bfnrt` -/
  | escape {e r} : e ∈ [34, 92, 47, 98, 102, 110, 114, 116] → Chars r → Chars (92 :: e :: r)
  /-- `u` and four digits -/
  | unicode {a b c d r} : Hex a → Hex b → Hex c → Hex d → Chars r → Chars (92 :: 117 :: a :: b :: c :: d :: r)

/-- One or more digits. -/
def Digits (l : List UInt8) : Prop := l ≠ [] ∧ ∀ c ∈ l, Digit c

/-- The digits of a whole number, without leading zeros. -/
def Whole (l : List UInt8) : Prop := Digits l ∧ (l.head? = some 48 → l = [48])

/-- The fraction of a number. -/
def Fraction (l : List UInt8) : Prop := l = [] ∨ ∃ ds, l = 46 :: ds ∧ Digits ds

/-- The exponent of a number: `e` or `E`, maybe a sign, digits. -/
def Exponent (l : List UInt8) : Prop :=
  l = [] ∨ ∃ e s ds, l = e :: (s ++ ds) ∧ (e = 101 ∨ e = 69) ∧ (s = [] ∨ s = [43] ∨ s = [45]) ∧ Digits ds

/-- A number. -/
def Number (l : List UInt8) : Prop :=
  ∃ s w f e, l = s ++ (w ++ (f ++ e)) ∧ (s = [] ∨ s = [45]) ∧ Whole w ∧ Fraction f ∧ Exponent e

mutual
/-- The text of a value. -/
inductive IsValue : Value → List UInt8 → Prop where
  | null : IsValue .null [110, 117, 108, 108]
  | true : IsValue .true [116, 114, 117, 101]
  | false : IsValue .false [102, 97, 108, 115, 101]
  | num {l} : Number l → IsValue (.num l) l
  | str {l} : Chars l → IsValue (.str l) (34 :: (l ++ [34]))
  | none {w} : Blank w → IsValue (.arr []) (91 :: (w ++ [93]))
  | arr {vs b} : IsElements vs b → IsValue (.arr vs) (91 :: (b ++ [93]))
  | empty {w} : Blank w → IsValue (.obj []) (123 :: (w ++ [125]))
  | obj {ms b} : IsMembers ms b → IsValue (.obj ms) (123 :: (b ++ [125]))

/-- The text between the brackets of an array. -/
inductive IsElements : List Value → List UInt8 → Prop where
  | one {w v b w'} : Blank w → IsValue v b → Blank w' → IsElements [v] (w ++ (b ++ w'))
  | cons {w v b w' vs r} : Blank w → IsValue v b → Blank w' → IsElements vs r →
      IsElements (v :: vs) (w ++ (b ++ (w' ++ 44 :: r)))

/-- The text between the braces of an object. -/
inductive IsMembers : List (List UInt8 × Value) → List UInt8 → Prop where
  | one {m b} : IsMember m b → IsMembers [m] b
  | cons {m b ms r} : IsMember m b → IsMembers ms r → IsMembers (m :: ms) (b ++ 44 :: r)

/-- The text of a member: name, colon, value. -/
inductive IsMember : List UInt8 × Value → List UInt8 → Prop where
  | mk {w k w' u v b u'} : Blank w → Chars k → Blank w' → Blank u → IsValue v b → Blank u' →
      IsMember (k, v) (w ++ 34 :: (k ++ 34 :: (w' ++ 58 :: (u ++ (b ++ u')))))
end

/-- The text of a document. -/
def Document (v : Value) (b : List UInt8) : Prop := ∃ w t w', b = w ++ (t ++ w') ∧ Blank w ∧ IsValue v t ∧ Blank w'

/-- The value of a hexadecimal digit. -/
def hexValue (c : UInt8) : Nat := if c ≤ 57 then c.toNat - 48 else if c ≤ 70 then c.toNat - 55 else c.toNat - 87

/-- The value of four of them. -/
def hexValue4 (a b c d : UInt8) : Nat :=
  4096 * hexValue a + 256 * hexValue b + 16 * hexValue c + hexValue d

/-- The text that the contents of a string stand for (RFC 8259, section 7). -/
inductive Spells : List UInt8 → List Char → Prop where
  | nil : Spells [] []
  /-- a character in UTF-8 -/
  | plain {c r cs} : 32 ≤ c.toNat → c ≠ '"' → c ≠ '\\' → Spells r cs → Spells (String.utf8EncodeChar c ++ r) (c :: cs)
  | quote {r cs} : Spells r cs → Spells (92 :: 34 :: r) ('"' :: cs)
  | backslash {r cs} : Spells r cs → Spells (92 :: 92 :: r) ('\\' :: cs)
  | slash {r cs} : Spells r cs → Spells (92 :: 47 :: r) ('/' :: cs)
  | backspace {r cs} : Spells r cs → Spells (92 :: 98 :: r) ('\x08' :: cs)
  | formFeed {r cs} : Spells r cs → Spells (92 :: 102 :: r) ('\x0c' :: cs)
  | lineFeed {r cs} : Spells r cs → Spells (92 :: 110 :: r) ('\n' :: cs)
  | return {r cs} : Spells r cs → Spells (92 :: 114 :: r) ('\r' :: cs)
  | tab {r cs} : Spells r cs → Spells (92 :: 116 :: r) ('\t' :: cs)
  /-- the number of a character, not one of a surrogate -/
  | unicode {a b c d r cs} : Hex a → Hex b → Hex c → Hex d → ¬ (0xD800 ≤ hexValue4 a b c d ∧ hexValue4 a b c d ≤ 0xDFFF) →
      Spells r cs → Spells (92 :: 117 :: a :: b :: c :: d :: r) (Char.ofNat (hexValue4 a b c d) :: cs)
  /-- two surrogates -/
  | pair {a b c d a' b' c' d' r cs} : Hex a → Hex b → Hex c → Hex d → Hex a' → Hex b' → Hex c' → Hex d' →
      0xD800 ≤ hexValue4 a b c d → hexValue4 a b c d < 0xDC00 → 0xDC00 ≤ hexValue4 a' b' c' d' → hexValue4 a' b' c' d' < 0xE000 →
      Spells r cs → Spells (92 :: 117 :: a :: b :: c :: d :: 92 :: 117 :: a' :: b' :: c' :: d' :: r)
        (Char.ofNat (0x10000 + 0x400 * (hexValue4 a b c d - 0xD800) + (hexValue4 a' b' c' d' - 0xDC00)) :: cs)

/-- The value of digits. -/
def decimalValue (l : List UInt8) : Nat := l.foldl (fun n c => 10 * n + (c.toNat - 48)) 0

/-- The text of an integer: no fraction, no exponent and no minus before a zero. -/
def Integer (l : List UInt8) (n : Int) : Prop :=
  Whole l ∧ n = decimalValue l ∨ ∃ d, l = 45 :: d ∧ Whole d ∧ d ≠ [48] ∧ n = -decimalValue d

/-- Exactly one member has the name, and it is the given integer. -/
def Has (ms : List (List UInt8 × Value)) (name : String) (n : Int) : Prop :=
  ∃ ls k l rs, ms = ls ++ (k, .num l) :: rs ∧ Spells k name.toList ∧ Integer l n ∧ ∀ m ∈ ls ++ rs, ¬ Spells m.1 name.toList

/-- A value describes a position: an object by the names of the coordinates, an array by their order. -/
def Describes : Value → Position → Prop
  | .obj ms, p => Has ms "x" p.x.toInt ∧ Has ms "y" p.y.toInt ∧ Has ms "z" p.z.toInt ∧ Has ms "yaw" p.yaw.toInt ∧
      Has ms "pitch" p.pitch.toInt ∧ Has ms "roll" p.roll.toInt
  | .arr [.num x, .num y, .num z, .num yaw, .num pitch, .num roll], p =>
    Integer x p.x.toInt ∧ Integer y p.y.toInt ∧ Integer z p.z.toInt ∧ Integer yaw p.yaw.toInt ∧
      Integer pitch p.pitch.toInt ∧ Integer roll p.roll.toInt
  | _, _ => False

/-- The names of the members of a value are texts. -/
def Named : Value → Prop
  | .obj ms => ∀ m ∈ ms, ∃ cs, Spells m.1 cs
  | _ => True

end Pica.Spec.JsonText
