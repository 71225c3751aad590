import Verif.Model.Enums
/-!
The field codecs of the code generated by `pdl-compiler` from `/repo/src/uci_packets.pdl`.

A codec pairs the encoder (`none` is `EncodeError`, raised when a `_size_` or `_count_` field
overflows) with the decoder, which consumes a prefix of the buffer (`none` is `DecodeError`).
-/

namespace Pica

structure Codec (α : Type) where
  enc : α → Option Bytes
  dec : Bytes → Option (α × Bytes)

namespace Codec

/-- `f : 8` -/
def u8 : Codec UInt8 where
  enc x := some [x]
  dec
    | b :: r => some (b, r)
    | [] => none

/-- The first `n` bytes of the buffer, if there are that many. -/
def takeN (n : Nat) (bs : Bytes) : Option (Bytes × Bytes) :=
  if n ≤ bs.length then some (bs.take n, bs.drop n) else none

/-- `f : 16`, little endian. -/
def u16 : Codec UInt16 where
  enc x := some (u16le x)
  dec bs := (takeN 2 bs).map (fun (p, r) => (UInt16.ofNat (ofLe p), r))

/-- `f : 32`, little endian. -/
def u32 : Codec UInt32 where
  enc x := some (u32le x)
  dec bs := (takeN 4 bs).map (fun (p, r) => (UInt32.ofNat (ofLe p), r))

/-- `f : 64`, little endian. -/
def u64 : Codec UInt64 where
  enc x := some (u64le x)
  dec bs := (takeN 8 bs).map (fun (p, r) => (UInt64.ofNat (ofLe p), r))

/-- `f : 8[n]` -/
def arr (n : Nat) : Codec (Arr n) where
  enc x := some x.1
  dec bs := (takeN n bs).bind (fun (p, r) => (Arr.ofBytes? n p).map (fun a => (a, r)))

/-- `f : E` for a closed enumeration of 8 bits. -/
def enum (E : Type) [WireEnum E] : Codec E where
  enc x := some [WireEnum.toU8 x]
  dec
    | b :: r => (WireEnum.ofU8? b).map (fun e => (e, r))
    | [] => none

/-- `f : Status` (open enumeration). -/
def status : Codec Status where
  enc x := some [x.code]
  dec
    | b :: r => if Status.isTag b then some (⟨b⟩, r) else none
    | [] => none

/-- `f : ConfigParameterId` (open enumeration). -/
def configId : Codec ConfigParameterId where
  enc x := some [x.code]
  dec
    | b :: r => if ConfigParameterId.isTag b then some (⟨b⟩, r) else none
    | [] => none

/-- `f : AppConfigTlvType`. Codes outside the declared tags and ranges are decode errors. A value
outside of them is not representable in Rust; its encoding is an error. -/
def tlvType : Codec AppConfigTlvType where
  enc x := if AppConfigTlvType.isTag x.code then some [x.code] else none
  dec
    | b :: r => if AppConfigTlvType.isTag b then some (⟨b⟩, r) else none
    | [] => none

/-- `f : CapTlvType`. -/
def capType : Codec CapTlvType where
  enc x := if CapTlvType.isTag x.code then some [x.code] else none
  dec
    | b :: r => if CapTlvType.isTag b then some (⟨b⟩, r) else none
    | [] => none

/-- No field. -/
def unit : Codec Unit where
  enc _ := some []
  dec bs := some ((), bs)

/-- `_reserved_ : 8 * n`: zeros when encoding, skipped when decoding. -/
def reserved (n : Nat) : Codec Unit where
  enc _ := some (List.replicate n 0)
  dec bs := (takeN n bs).map (fun (_, r) => ((), r))

/-- Two consecutive fields. -/
def seq {α β : Type} (a : Codec α) (b : Codec β) : Codec (α × β) where
  enc x := do
    let p ← a.enc x.1
    let q ← b.enc x.2
    pure (p ++ q)
  dec bs := do
    let (x, r) ← a.dec bs
    let (y, r) ← b.dec r
    pure ((x, y), r)

/-- A structure made of the given fields. -/
def iso {α β : Type} (a : Codec α) (to : α → β) (from_ : β → α) : Codec β where
  enc x := a.enc (from_ x)
  dec bs := (a.dec bs).map (fun (x, r) => (to x, r))

/-- `n` consecutive elements. -/
def decRepeat {α : Type} (a : Codec α) : Nat → Bytes → Option (List α × Bytes)
  | 0, bs => some ([], bs)
  | n + 1, bs => do
    let (x, r) ← a.dec bs
    let (xs, r) ← decRepeat a n r
    pure (x :: xs, r)

/-- Consecutive elements. -/
def encAll {α : Type} (a : Codec α) : List α → Option Bytes
  | [] => some []
  | x :: xs => do
    let p ← a.enc x
    let q ← encAll a xs
    pure (p ++ q)

/-- `_count_(f) : 8, f : T[]` -/
def counted8 {α : Type} (a : Codec α) : Codec (List α) where
  enc xs := if xs.length ≤ 255 then (encAll a xs).map (UInt8.ofNat xs.length :: ·) else none
  dec
    | n :: r => decRepeat a n.toNat r
    | [] => none

/-- `_size_(f) : 8, f : 8[]` (also `_count_` of bytes). -/
def bytes8 : Codec Bytes where
  enc xs := if xs.length ≤ 255 then some (UInt8.ofNat xs.length :: xs) else none
  dec
    | n :: r => takeN n.toNat r
    | [] => none

/-- `_size_(f) : 16, f : 8[]` -/
def bytes16 : Codec Bytes where
  enc xs := if xs.length ≤ 65535 then some (leBytes 2 xs.length ++ xs) else none
  dec bs := do
    let (p, r) ← takeN 2 bs
    takeN (ofLe p) r

/-- A trailing `f : 8[]` or `_payload_` without size: everything that is left. -/
def rest : Codec Bytes where
  enc xs := some xs
  dec bs := some (bs, [])

/-- `decode_full`: the whole buffer must be consumed. -/
def decFull {α : Type} (a : Codec α) (bs : Bytes) : Option α :=
  match a.dec bs with
  | some (x, []) => some x
  | _ => none

end Codec
end Pica
