import Verif.Model.Framing
/-!
The reader of the Python test host, `py/pica/pica/__init__.py` 30-91. Reading from a closed socket
makes `_read_exact` (30-38) loop forever on empty chunks; here it is `none`: nothing more is ever
returned.
-/

namespace Pica.Host

/-- The `while True` of `_read_packet`, `py/pica/pica/__init__.py` 53-77. `acc` is
`complete_packet_bytes`. `fuel` bounds the number of segments: every segment consumes at least 4
bytes, so the length of the input suffices (`Verif/Proofs/Framing.lean`). -/
def readPacketLoop : Nat → Bytes → Bytes → Option (Bytes × Bytes)
  | 0, _, _ => none
  | fuel + 1, acc, bs =>
    match bs with
    | h₀ :: h₁ :: h₂ :: h₃ :: rest =>
      match decodeCommonHeader h₀ with
      | none => none
      | some (pbf, mt) =>
        let n := payloadLength mt h₂ h₃
        if n ≤ rest.length then
          let acc := acc ++ rest.take n
          match pbf with
          | .complete => some (h₀ :: h₁ :: h₂ :: h₃ :: acc, rest.drop n)
          | .notComplete => readPacketLoop fuel acc (rest.drop n)
        else none
    | _ => none

/-- `_read_packet`, `py/pica/pica/__init__.py` 40-77. -/
def readPacket (bs : Bytes) : Option (Bytes × Bytes) := readPacketLoop (bs.length + 1) [] bs

/-- `_read_packets`, `py/pica/pica/__init__.py` 79-91: the packets put on the control and data
queues, in the order of arrival. -/
def readPackets : Nat → Bytes → List Bytes
  | 0, _ => []
  | fuel + 1, bs =>
    match readPacket bs with
    | none => []
    | some (p, rest) => p :: readPackets fuel rest

/-- `send_control`, `py/pica/pica/__init__.py` 99-103: `none` is the `ValueError` of a length above
255 (or the `IndexError` of a packet shorter than 4 bytes). -/
def sendControl (packet : Bytes) : Option Bytes :=
  match packet with
  | h₀ :: h₁ :: h₂ :: _ :: payload =>
    if payload.length ≤ 255 then some (h₀ :: h₁ :: h₂ :: UInt8.ofNat payload.length :: payload) else none
  | _ => none

/-- `send_data`, `py/pica/pica/__init__.py` 105-111: `none` is the `OverflowError` of `to_bytes`. -/
def sendData (packet : Bytes) : Option Bytes :=
  match packet with
  | h₀ :: h₁ :: _ :: _ :: payload =>
    if payload.length ≤ 65535 then
      some (h₀ :: h₁ :: (u16le (UInt16.ofNat payload.length) ++ payload))
    else none
  | _ => none

end Pica.Host
