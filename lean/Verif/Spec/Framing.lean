import Verif.Model.Bytes
/-! The UCI transport as the UCI specification describes it: a 4 byte header and a payload. Shares
nothing with the model but the type of bytes. -/

namespace Pica.Spec

/-- A packet, or a message before segmentation, by its parts. -/
structure Msg where
  h₀ : UInt8
  h₁ : UInt8
  h₂ : UInt8
  h₃ : UInt8
  payload : Bytes
  deriving DecidableEq, Repr

namespace Msg

/-- The bytes on the wire. -/
def bytes (m : Msg) : Bytes := m.h₀ :: m.h₁ :: m.h₂ :: m.h₃ :: m.payload
/-- Message type: the three high bits. 0 DATA, 1 COMMAND, 2 RESPONSE, 3 NOTIFICATION. -/
def mt (m : Msg) : Nat := m.h₀.toNat / 32
/-- Packet boundary flag: 1 when more fragments follow. -/
def more (m : Msg) : Nat := m.h₀.toNat / 16 % 2
/-- GID of a control packet, DPF of a data packet. -/
def low (m : Msg) : Nat := m.h₀.toNat % 16
/-- Length field: 2 bytes for data packets, 1 byte for control packets. -/
def lengthField (m : Msg) : Nat := if m.mt = 0 then m.h₂.toNat + 256 * m.h₃.toNat else m.h₃.toNat
/-- A packet the transport may carry. -/
def WellFormed (m : Msg) : Prop := m.mt < 4 ∧ m.payload.length = m.lengthField
instance (m : Msg) : Decidable m.WellFormed := inferInstanceAs (Decidable (_ ∧ _))
/-- The same message, up to boundary flag and length field. -/
def Same (m n : Msg) : Prop :=
  m.mt = n.mt ∧ m.low = n.low ∧ m.h₁ = n.h₁ ∧ (m.mt ≠ 0 → m.h₂ = n.h₂) ∧ m.payload = n.payload
/-- The largest payload of a packet. -/
def limit (m : Msg) : Nat := if m.mt = 0 then 1024 else 255

end Msg

/-- The packets `fs` are a segmentation of the message `m`. -/
structure Segments (m : Msg) (fs : List Msg) : Prop where
  header : ∀ f ∈ fs, f.mt = m.mt ∧ f.low = m.low ∧ f.h₁ = m.h₁ ∧ (m.mt ≠ 0 → f.h₂ = m.h₂)
  size : ∀ f ∈ fs, 1 ≤ f.payload.length ∧ f.payload.length ≤ m.limit ∧ f.payload.length = f.lengthField
  boundary : ∀ i (h : i < fs.length), fs[i].more = if i + 1 = fs.length then 0 else 1
  full : ∀ i (h : i + 1 < fs.length), fs[i].payload.length = m.limit
  payload : (fs.map Msg.payload).flatten = m.payload

end Pica.Spec
