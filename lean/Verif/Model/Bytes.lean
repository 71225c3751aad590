/-!
Bytes, little endian integers, fixed size arrays and panics.

These are the Rust primitives the code under `/repo/src` relies on:
`to_le_bytes` / `from_le_bytes`, `[u8; N]` with `TryFrom<&[u8]>`, and `panic!`.
-/

namespace Pica

/-- `Vec<u8>` / `&[u8]`. -/
abbrev Bytes := List UInt8

/-- The `k` low bytes of `n`, least significant first (`uN::to_le_bytes`). -/
def leBytes : Nat → Nat → Bytes
  | 0, _ => []
  | k + 1, n => UInt8.ofNat n :: leBytes k (n / 256)

/-- The number whose little endian bytes are given (`uN::from_le_bytes`). -/
def ofLe : Bytes → Nat
  | [] => 0
  | b :: bs => b.toNat + 256 * ofLe bs

/-- `u16::to_le_bytes`. -/
def u16le (x : UInt16) : Bytes := leBytes 2 x.toNat
/-- `u32::to_le_bytes`. -/
def u32le (x : UInt32) : Bytes := leBytes 4 x.toNat
/-- `u64::to_le_bytes`. -/
def u64le (x : UInt64) : Bytes := leBytes 8 x.toNat

/-- `[u8; n]`. -/
abbrev Arr (n : Nat) := { l : Bytes // l.length = n }

/-- `<[u8; n]>::try_from(&[u8])`: succeeds exactly on slices of length `n`. -/
def Arr.ofBytes? (n : Nat) (l : Bytes) : Option (Arr n) :=
  if h : l.length = n then some ⟨l, h⟩ else none

/-- `[0; n]`. -/
def Arr.zero (n : Nat) : Arr n := ⟨List.replicate n 0, List.length_replicate⟩

/-- Why the Rust program would panic. Each constructor stands for the panic
sites given in its comment; the model never recovers from one. -/
inductive Panic where
  /-- `unimplemented!()` for MAC_ADDRESS_MODE 1: `src/app_config.rs` 202, 209. -/
  | macMode1
  /-- A child packet that fails to parse: `.expect(..)` in `src/device.rs` 940, 995, 997, 1007, 1023, 1034. -/
  | parseChild
  /-- `unimplemented!("Unsupported .. oid")`: `src/device.rs` 1003, 1019, 1030, 1042. -/
  | unsupportedOid
  /-- `assert_eq!(self.state, DeviceStateReady)`: `src/device.rs` 240, 270. -/
  | deviceNotReady
  /-- `assert!(session_type == ..)`: `src/device.rs` 424. -/
  | sessionType
  /-- `assert!(session.ranging_task.is_none())`: `src/device.rs` 816. -/
  | rangingTaskPresent
  /-- `n_active_sessions -= 1` underflow: `src/device.rs` 386, 868. -/
  | underflow
  /-- Indexing out of bounds: `cmd.payload[0]`, `[1]` in `src/device.rs` 1064-1065, `packet[0]`, `packet[1]` in 1075, 1096. -/
  | index
  /-- `encode_to_vec().unwrap()` or `.try_into().unwrap()` of a packet whose size or count field overflows. -/
  | encode
  /-- `get_device(..).unwrap()` in `src/lib.rs` 410. -/
  | noDevice
  /-- `device.session(..).unwrap()` in `src/lib.rs` 411. -/
  | noSession
  /-- `device_mac_address.unwrap()` in `src/app_config.rs` 504, 507 and `src/lib.rs` 447, 481. -/
  | noMacAddress
  /-- `panic!("Extended address is not supported.")`: `src/lib.rs` 182, `src/device.rs` 684, 705, 742, 751. -/
  | extendedAddress
  /-- `tx.send(..).unwrap()` on a closed channel: `src/lib.rs` 487, 505. -/
  | channelClosed
  /-- `assert_eq!(self.id, session_token)`: `src/session.rs` 150. -/
  | sessionId
  /-- `assert!(self.anchors.insert(..).is_none())`: `src/lib.rs` 603-612. -/
  | anchorPresent
  /-- `session.sequence_number += 1` overflow (debug profile): `src/lib.rs` 510. -/
  | overflow
  /-- `unreachable!(..)`: `src/device.rs` 1050. -/
  | unreachable
  deriving DecidableEq, Repr

end Pica
