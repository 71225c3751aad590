import Verif.Model.Bytes
/-! A reader of pcapng files that follows the format (draft-ietf-opsawg-pcapng): little endian,
enhanced packet blocks. Of the model it uses only bytes and `ofLe`. -/

namespace Pica.Spec.Pcapng

/-- A 32 bit number and the bytes after it. -/
def num : Bytes → Option (Nat × Bytes)
  | a :: b :: c :: d :: r => some (ofLe [a, b, c, d], r)
  | _ => none

/-- One block: type, body and the bytes after it. The total length is a multiple of 4 of at least 12
and is repeated at the end of the block. -/
def block (bs : Bytes) : Option (Nat × Bytes × Bytes) := do
  let (type, r) ← num bs
  let (total, r) ← num r
  if total % 4 ≠ 0 ∨ total < 12 then none
  else if r.length < total - 8 then none
  else
    let (again, _) ← num (r.drop (total - 12))
    if again ≠ total then none
    else some (type, r.take (total - 12), r.drop (total - 8))

/-- All the blocks of a file. `fuel` is a bound of their number. -/
def blocks : Nat → Bytes → Option (List (Nat × Bytes))
  | _, [] => some []
  | 0, _ => none
  | fuel + 1, bs => do
    let (type, body, r) ← block bs
    let more ← blocks fuel r
    some ((type, body) :: more)

/-- A captured packet: interface, time stamp, original length and data. -/
structure Record where
  interface : Nat
  time : Nat
  original : Nat
  data : Bytes
  deriving DecidableEq, Repr

/-- Options of a block: none, or only the end of options mark. -/
def options : Bytes → Bool
  | [] => true
  | [0, 0, 0, 0] => true
  | _ => false

/-- Body of an enhanced packet block. The data are padded to 4 bytes. -/
def enhancedPacket (body : Bytes) : Option Record := do
  let (interface, r) ← num body
  let (hi, r) ← num r
  let (lo, r) ← num r
  let (captured, r) ← num r
  let (original, r) ← num r
  let padded := (captured + 3) / 4 * 4
  if r.length < padded then none
  else if !options (r.drop padded) then none
  else some ⟨interface, hi * 2 ^ 32 + lo, original, r.take captured⟩

/-- Body of a section header block: byte order magic, version 1.0, length unspecified, no options. -/
def sectionHeader (body : Bytes) : Bool :=
  body = [0x4D, 0x3C, 0x2B, 0x1A, 1, 0, 0, 0, 0xFF, 0xFF, 0xFF, 0xFF, 0xFF, 0xFF, 0xFF, 0xFF]

/-- Body of an interface description block: link type, reserved, no limit of the length, no options. -/
def interfaceDescription (body : Bytes) : Option Nat :=
  match body with
  | [a, b, 0, 0, 0, 0, 0, 0] => some (ofLe [a, b])
  | _ => none

/-- A file with one section and one interface: its link type and the packets. -/
def readFile (fuel : Nat) (bs : Bytes) : Option (Nat × List Record) := do
  match ← blocks fuel bs with
  | (0x0A0D0D0A, s) :: (1, i) :: rest =>
    if !sectionHeader s then none
    else
      let link ← interfaceDescription i
      let packets ← rest.mapM (fun b => if b.1 = 6 then enhancedPacket b.2 else none)
      some (link, packets)
  | _ => none

end Pica.Spec.Pcapng
