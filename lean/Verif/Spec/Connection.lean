import Verif.Spec.Framing
/-!
How the packets received on one connection make up messages. A packet is a nonempty list of bytes whose first byte holds
the message type (bits 5-7) and the packet boundary flag (bit 4). Shares nothing with the model but the type of bytes.
-/

namespace Pica.Spec

/-- The packet has a known message type: DATA, COMMAND, RESPONSE or NOTIFICATION. -/
def KnownType : Bytes → Prop
  | [] => False
  | b :: _ => b.toNat / 32 < 4

/-- A control packet that announces a continuation. -/
def Open : Bytes → Prop
  | [] => False
  | b :: _ => b.toNat / 32 ≠ 0 ∧ b.toNat / 16 % 2 = 1

instance (p : Bytes) : Decidable (KnownType p) := by cases p <;> (unfold KnownType; infer_instance)
instance (p : Bytes) : Decidable (Open p) := by cases p <;> (unfold Open; infer_instance)

/-- The message made of some packets: the first packet, then the others without their headers of four bytes. -/
def joined : List Bytes → Bytes
  | [] => []
  | p :: ps => p ++ (ps.map (List.drop 4)).flatten

/-- The packets `ps` are those of complete messages, `gs`, and of one that is not complete, `rest`. -/
structure Grouped (ps : List Bytes) (gs : List (List Bytes)) (rest : List Bytes) : Prop where
  all : ps = gs.flatten ++ rest
  complete : ∀ g ∈ gs, ∃ start last, g = start ++ [last] ∧ (∀ p ∈ start, Open p) ∧ ¬ Open last
  pending : ∀ p ∈ rest, Open p
  known : ∀ p ∈ ps, KnownType p
  /-- continuations have a header -/
  headers : (∀ g ∈ gs, ∀ p ∈ g.tail, 4 ≤ p.length) ∧ ∀ p ∈ rest.tail, 4 ≤ p.length

/-- A packet that neither begins nor continues a message, given the packets of the pending one: it is empty, its type is not
known, or it is a continuation without the four bytes of a header. -/
def Bad (rest : List Bytes) (p : Bytes) : Prop := ¬ KnownType p ∨ rest ≠ [] ∧ p.length < 4

/-- The host may send this message in one packet: a data message with up to 65535 bytes, or a control message with up to 255
bytes that announces no continuation. -/
def Sendable (m : Msg) : Prop :=
  m.mt = 0 ∧ m.payload.length ≤ 65535 ∨ 1 ≤ m.mt ∧ m.mt ≤ 3 ∧ m.more = 0 ∧ m.payload.length ≤ 255

end Pica.Spec
