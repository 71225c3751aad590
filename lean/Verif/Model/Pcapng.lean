import Verif.Model.Bytes
/-!
`src/pcapng.rs`: the trace files. The bytes written, in order; short writes and I/O errors are not
modelled. Time stamps are inputs.
-/

namespace Pica.Pcapng

/-- The two blocks written by `File::create`, `src/pcapng.rs` 35-51. -/
def fileHeader : Bytes :=
  u32le 0x0A0D0D0A ++ u32le 28 ++ u32le 0x1A2B3C4D ++ u16le 1 ++ u16le 0 ++
    u64le 0xFFFFFFFFFFFFFFFF ++ u32le 28 ++
  (u32le 1 ++ u32le 20 ++ u16le 293 ++ u16le 0 ++ u32le 0 ++ u32le 20)

/-- `packet_data_padding`, `src/pcapng.rs` 60. -/
def padding (packet : Bytes) : Nat := 4 - packet.length % 4

/-- `block_total_length`, `src/pcapng.rs` 61; the `u32` additions wrap or panic above 2^32. -/
def blockTotalLength (packet : Bytes) : UInt32 :=
  UInt32.ofNat packet.length + UInt32.ofNat (padding packet) + 32

/-- The block written by `File::write`, `src/pcapng.rs` 59-77. `micros` is the elapsed time. -/
def packetBlock (packet : Bytes) (micros : Nat) : Bytes :=
  u32le 6 ++ u32le (blockTotalLength packet) ++ u32le 0 ++
    u32le (UInt32.ofNat (micros / 2 ^ 32)) ++ u32le (UInt32.ofNat micros) ++
    u32le (UInt32.ofNat packet.length) ++ u32le (UInt32.ofNat packet.length) ++
    packet ++ List.replicate (padding packet) 0 ++ u32le (blockTotalLength packet)

/-- The contents of a file after a sequence of writes. -/
def file (records : List (Bytes × Nat)) : Bytes :=
  fileHeader ++ records.flatMap (fun r => packetBlock r.1 r.2)

end Pica.Pcapng
