/-!
Specification of hexadecimal text, written independently of the parser in
`Verif/Model/MacAddress.lean`.
-/

namespace Pica.Spec

/-- The hexadecimal digits and their values. -/
def hexTable : List (Char × Nat) := [
  ('0', 0), ('1', 1), ('2', 2), ('3', 3), ('4', 4), ('5', 5), ('6', 6), ('7', 7), ('8', 8), ('9', 9),
  ('a', 10), ('b', 11), ('c', 12), ('d', 13), ('e', 14), ('f', 15),
  ('A', 10), ('B', 11), ('C', 12), ('D', 13), ('E', 14), ('F', 15)]

/-- `c` is a hexadecimal digit of value `v`. -/
def IsHex (c : Char) (v : Nat) : Prop := (c, v) ∈ hexTable

/-- Texts made of hexadecimal digits and the escape `%3A`, with the values of the digits. -/
inductive HexText : List Char → List Nat → Prop
  | nil : HexText [] []
  | escape {s ds} : HexText s ds → HexText ('%' :: '3' :: 'A' :: s) ds
  | digit {c v s ds} : IsHex c v → HexText s ds → HexText (c :: s) (v :: ds)

/-- Digits read two by two, the first one being the more significant. -/
def pairUp : List Nat → List Nat
  | a :: b :: r => (16 * a + b) :: pairUp r
  | _ => []

/-- The text without its colons. -/
def withoutColons (s : List Char) : List Char := s.filter (fun c => decide (c ≠ ':'))

/-- The number whose base 256 digits are given, least significant first. -/
def leValue (bs : List UInt8) : Nat := (bs.zipIdx.map (fun (b, i) => b.toNat * 256 ^ i)).sum

/-- The canonical text of some bytes: two upper case digits for every byte, colons between them. -/
def colonText (bs : List UInt8) : List Char :=
  let digit (n : Nat) : Char := "0123456789ABCDEF".toList.getD n '?'
  List.intercalate [':'] (bs.map fun b => [digit (b.toNat / 16), digit (b.toNat % 16)])

end Pica.Spec
