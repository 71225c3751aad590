import Verif.Model.Bytes
/-! `src/mac_address.rs`. Text is a list of characters; `String::len` counts UTF-8 bytes. -/

namespace Pica

/-- `enum MacAddress`, `src/mac_address.rs` 35-38. -/
inductive MacAddress where
  | short (addr : Arr 2)
  | extended (addr : Arr 8)
  deriving DecidableEq, Repr

namespace MacAddress

/-- `From<&MacAddress> for Vec<u8>`, `src/mac_address.rs` 61-68. -/
def toBytes : MacAddress → Bytes
  | .short a => a.1
  | .extended a => a.1

/-- `From<&MacAddress> for u64`, `src/mac_address.rs` 46-53. -/
def toU64 : MacAddress → UInt64
  | .short a => (UInt16.ofNat (ofLe a.1)).toUInt64
  | .extended a => UInt64.ofNat (ofLe a.1)

/-- `str::replace(':', "")`, `src/mac_address.rs` 79. -/
def removeColons (s : List Char) : List Char := s.filter (· != ':')

/-- `str::replace("%3A", "")`, `src/mac_address.rs` 79: occurrences are found left to right
and do not overlap. -/
def removeEscapes : List Char → List Char
  | '%' :: '3' :: 'A' :: s => removeEscapes s
  | c :: s => c :: removeEscapes s
  | [] => []

/-- Value of a hexadecimal digit, `hex::val` of the `hex` crate. -/
def hexVal (c : Char) : Option UInt8 :=
  if '0' ≤ c ∧ c ≤ '9' then some (UInt8.ofNat (c.toNat - '0'.toNat))
  else if 'a' ≤ c ∧ c ≤ 'f' then some (UInt8.ofNat (c.toNat - 'a'.toNat + 10))
  else if 'A' ≤ c ∧ c ≤ 'F' then some (UInt8.ofNat (c.toNat - 'A'.toNat + 10))
  else none

/-- `hex::decode`: two digits per byte, high digit first; odd lengths and other characters are errors. -/
def fromHex : List Char → Option Bytes
  | [] => some []
  | [_] => none
  | c :: d :: s => do
    let hi ← hexVal c
    let lo ← hexVal d
    let bs ← fromHex s
    pure (((hi <<< 4) ||| lo) :: bs)

/-- `String::len`: the number of UTF-8 bytes. -/
def utf8Len (s : List Char) : Nat := (s.map Char.utf8Size).sum

/-- `TryFrom<String> for MacAddress`, `src/mac_address.rs` 76-92. `none` is
`Err(MacAddressWrongFormat)`. `<[u8; N]>::from_hex` is `fromHex` followed by the length check. -/
def parse (text : List Char) : Option MacAddress :=
  let s := removeEscapes (removeColons text)
  if utf8Len s = 4 then do
    let bs ← fromHex s
    let a ← Arr.ofBytes? 2 bs
    pure (.short a)
  else if utf8Len s = 16 then do
    let bs ← fromHex s
    let a ← Arr.ofBytes? 8 bs
    pure (.extended a)
  else none

/-- One upper case hexadecimal digit, as printed by `{:X}`. -/
def upperDigit (n : Nat) : Char :=
  if n < 10 then Char.ofNat ('0'.toNat + n) else Char.ofNat ('A'.toNat + (n - 10))

/-- `format!("{:02X}:", byte)`, `src/mac_address.rs` 97. -/
def showByte (b : UInt8) : List Char :=
  [upperDigit (b.toNat / 16), upperDigit (b.toNat % 16), ':']

/-- `str::trim_end_matches(':')`, `src/mac_address.rs` 102. -/
def trimEndColons (s : List Char) : List Char := (s.reverse.dropWhile (· == ':')).reverse

/-- `From<&MacAddress> for String`, `src/mac_address.rs` 94-109. -/
def display (m : MacAddress) : List Char := trimEndColons (m.toBytes.flatMap showByte)

end MacAddress
end Pica
