import Verif.Model.Packets
/-!
UCI framing: `src/packets.rs` 36-84 and the two connection routines of `src/lib.rs` 238-344.

A stream of bytes or packets is the list of what it delivers before it closes. Write errors of the
sink and trace file are not modelled.
-/

namespace Pica

/-- `HEADER_SIZE`, `src/packets.rs` 40. -/
def headerSize : Nat := 4
/-- `MAX_CTRL_PACKET_PAYLOAD_SIZE`, `src/packets.rs` 42. -/
def maxCtrlPayload : Nat := 255
/-- `MAX_DATA_PACKET_PAYLOAD_SIZE`, `src/packets.rs` 44. -/
def maxDataPayload : Nat := 1024

/-- `CommonPacketHeader::decode_full`, `src/uci_packets.pdl` 613-617: PBF is bit 4, MT bits 5-7. -/
def decodeCommonHeader (b : UInt8) : Option (PacketBoundaryFlag × MessageType) := do
  let pbf ← WireEnum.ofU8? ((b >>> 4) &&& 0x01)
  let mt ← WireEnum.ofU8? (b >>> 5)
  pure (pbf, mt)

/-- The payload length in a header: `ControlPacketHeader` and `DataPacketHeader`,
`src/uci_packets.pdl` 620-635, selected as in `src/packets.rs` 65-76. -/
def payloadLength (mt : MessageType) (h₂ h₃ : UInt8) : Nat :=
  match mt with
  | .data => ofLe [h₂, h₃]
  | _ => h₃.toNat

/-- `read`, `src/packets.rs` 53-84, on the bytes still to come: the packet and the bytes after it, or
`none` when the stream ends. -/
def readPacket (bs : Bytes) : Option (Bytes × Bytes) :=
  match bs with
  | h₀ :: h₁ :: h₂ :: h₃ :: rest =>
    match decodeCommonHeader h₀ with
    | none => none
    | some (_, mt) =>
      let n := payloadLength mt h₂ h₃
      if n ≤ rest.length then some (h₀ :: h₁ :: h₂ :: h₃ :: rest.take n, rest.drop n) else none
  | _ => none

theorem readPacket_length {bs p rest : Bytes} (h : readPacket bs = some (p, rest)) :
    rest.length < bs.length := by
  unfold readPacket at h
  split at h
  · split at h
    · simp at h
    · dsimp only at h
      split at h
      · simp only [Option.some.injEq, Prod.mk.injEq] at h
        rw [← h.2]
        simp only [List.length_drop, List.length_cons]
        omega
      · simp at h
  · simp at h

/-- `futures::stream::unfold(read_half, read)`, `src/bin/main.rs`: packets until the first
failing read. -/
def readStream (bs : Bytes) : List Bytes :=
  match _h : readPacket bs with
  | none => []
  | some (p, rest) => p :: readStream rest
termination_by bs.length
decreasing_by exact readPacket_length _h

/-- The header of a fragment, `src/lib.rs` 314-326. -/
def fragmentHeader (mt : MessageType) (pbf : PacketBoundaryFlag) (n : Nat) (h₀ h₁ h₂ _h₃ : UInt8) : Bytes :=
  let h₀ := (h₀ &&& ~~~(0x10 : UInt8)) ||| (pbf.code <<< 4)
  match mt with
  | .data => h₀ :: h₁ :: u16le (UInt16.ofNat n)
  | _ => [h₀, h₁, h₂, UInt8.ofNat n]

/-- Maximum payload of a fragment, `src/lib.rs` 303-307. -/
def maxPayload (mt : MessageType) : Nat :=
  match mt with
  | .data => maxDataPayload
  | _ => maxCtrlPayload

theorem maxPayload_pos (mt : MessageType) : 0 < maxPayload mt := by cases mt <;> decide

/-- The inner loop of `write_routine`, `src/lib.rs` 299-341, on the rest of the payload. -/
def fragments (mt : MessageType) (h₀ h₁ h₂ h₃ : UInt8) (payload : Bytes) : List Bytes :=
  if payload = [] then []
  else
    let n := min payload.length (maxPayload mt)
    let pbf := if n = payload.length then PacketBoundaryFlag.complete else .notComplete
    (fragmentHeader mt pbf n h₀ h₁ h₂ h₃ ++ payload.take n) ::
      fragments mt h₀ h₁ h₂ h₃ (payload.drop n)
termination_by payload.length
decreasing_by
  rename_i hne
  have h1 : payload.length ≠ 0 := fun e => hne (List.length_eq_zero_iff.mp e)
  have h2 := maxPayload_pos mt
  simp only [List.length_drop]
  omega

/-- One iteration of the outer loop of `write_routine`, `src/lib.rs` 292-342: the fragments written
for a message. An empty message panics (`complete_packet[0]`). -/
def segment (packet : Bytes) : Except Panic (List Bytes) :=
  match packet with
  | [] => .error .index
  | h₀ :: h₁ :: h₂ :: h₃ :: payload => .ok (fragments (parseMessageType h₀) h₀ h₁ h₂ h₃ payload)
  | _ => .ok []

/-- How the read routine ends. -/
inductive ReadEnd where
  /-- `Err("input packet stream closed")` -/
  | closed
  /-- decode error of the header -/
  | badHeader
  /-- slice index panic: an empty packet, or a continuation shorter than the header -/
  | panic
  deriving DecidableEq, Repr

/-- `read_routine`, `src/lib.rs` 240-281: the messages handed to the device, and how it ends.
`acc` is `complete_packet`. -/
def reassemble (acc : Option Bytes) : List Bytes → List Bytes × ReadEnd
  | [] => ([], .closed)
  | [] :: _ => ([], .panic)
  | (h₀ :: rest) :: ps =>
    match decodeCommonHeader h₀ with
    | none => ([], .badHeader)
    | some (pbf, mt) =>
      match acc, rest with
      | some _, [] | some _, [_] | some _, [_, _] => ([], .panic)
      | _, _ =>
        let msg := match acc with
          | some c => c ++ (h₀ :: rest).drop headerSize
          | none => h₀ :: rest
        if pbf = .complete ∨ mt = .data then
          let (ms, e) := reassemble none ps
          (msg :: ms, e)
        else reassemble (some msg) ps

end Pica
