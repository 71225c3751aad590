import Verif.Spec.Hex
/-! The texts that Python's `int` takes for a number. -/

namespace Pica.Spec.PyInt

/-- The white space that may surround a number. -/
def gaps : List Char := ['\t', '\n', '\x0b', '\x0c', '\r', ' ', '\u0085', ' ', ' ', ' ', ' ', ' ',
  ' ', ' ', ' ', ' ', ' ', ' ', ' ', ' ', ' ', ' ', ' ', ' ', '　']

/-- The white space that ends a line: there are four separators more. -/
def blanks : List Char := ['\x1c', '\x1d', '\x1e', '\x1f'] ++ gaps

/-- Digits, with at most one underscore between two of them. -/
inductive Digits (base : Nat) : List Char → List Nat → Prop
  | one {c d} : IsHex c d → d < base → Digits base [c] [d]
  | next {c d t ds} : IsHex c d → d < base → Digits base t ds → Digits base (c :: t) (d :: ds)
  | under {c d t ds} : IsHex c d → d < base → Digits base t ds → Digits base (c :: '_' :: t) (d :: ds)

/-- The number with these digits. -/
def value (base : Nat) (ds : List Nat) : Nat := ds.foldl (fun n d => base * n + d) 0

/-- The number with a sign. -/
def Signed (sign : List Char) (v : Nat) (n : Int) : Prop := (sign = [] ∨ sign = ['+']) ∧ n = v ∨ sign = ['-'] ∧ n = -v

/-- A decimal number. -/
def Decimal (t : List Char) (n : Int) : Prop :=
  ∃ a s u b ds, t = a ++ (s ++ u) ++ b ∧ (∀ c ∈ a, c ∈ gaps) ∧ (∀ c ∈ b, c ∈ gaps) ∧ Digits 10 u ds ∧ ds.length ≤ 4300 ∧
    Signed s (value 10 ds) n

/-- A hexadecimal number. -/
def Hexadecimal (t : List Char) (n : Int) : Prop :=
  ∃ a s p u b ds, t = a ++ (s ++ (p ++ u)) ++ b ∧ (∀ c ∈ a, c ∈ gaps) ∧ (∀ c ∈ b, c ∈ gaps) ∧
    p ∈ [[], ['0', 'x'], ['0', 'X'], ['0', 'x', '_'], ['0', 'X', '_']] ∧ Digits 16 u ds ∧ Signed s (value 16 ds) n

/-- Bytes in hexadecimal, with a colon between two of them. -/
inductive Octets : List Char → List UInt8 → Prop
  | one {t b} : Hexadecimal t (b.toNat : Int) → Octets t [b]
  | cons {t b r bs} : Hexadecimal t (b.toNat : Int) → Octets r bs → Octets (t ++ ':' :: r) (b :: bs)

end Pica.Spec.PyInt
