import Verif.Model.Trace
import Verif.Spec.Connection
import Verif.Spec.Pcapng
/-! What a trace should tell: the packets that crossed a connection, who sent them and when. Of the model it uses the labels
of the steps of a connection. -/

namespace Pica.Spec.Trace
open Link

/-- The end of the connection that sent a packet. -/
inductive Side where
  | host
  | emulator
  deriving DecidableEq, Repr

/-- A packet on the connection. -/
structure Crossing where
  side : Side
  packet : Bytes
  time : Nat
  deriving DecidableEq, Repr

/-- The packet a step makes cross. One the reader cannot make sense of does not count, one that the emulator tried to send
does. -/
def crossing : Act → Option Crossing
  | .read p t => if KnownType p then some ⟨.host, p, t⟩ else none
  | .write p t => some ⟨.emulator, p, t⟩
  | .fail p t => some ⟨.emulator, p, t⟩
  | _ => none

/-- The packets that crossed in a sequence of steps. -/
def crossings (as : List Act) : List Crossing := as.filterMap crossing

/-- The packets of one side. -/
def sentBy (side : Side) (cs : List Crossing) : List Bytes := (cs.filter (·.side = side)).map (·.packet)

/-- The messages of the device in a sequence of steps. -/
def pushed (as : List Act) : List Bytes :=
  as.filterMap fun | .push m => some m | _ => none

/-- The number of messages the writer has started with. -/
def takes (as : List Act) : Nat := as.countP fun | .take => true | _ => false

/-- A packet too short for a header follows one that is to be continued. -/
def ShortNext (ps : List Bytes) : Prop := ∃ l q p r, ps = l ++ q :: p :: r ∧ Open q ∧ p.length < 4

/-- The reasons for a connection to end: it is closed, a packet cannot be written, one of an unknown type is read, the device
sends an empty message, or a continuation is too short. -/
def Ends (as : List Act) : Prop :=
  .close ∈ as ∨ (∃ p t, .fail p t ∈ as) ∨ (∃ p t, .read p t ∈ as ∧ ¬ KnownType p) ∨
    [] ∈ (pushed as).take (takes as) ∨ ShortNext (sentBy .host (crossings as))

/-- The record of a packet in a capture. -/
def captured (c : Crossing) : Pcapng.Record := ⟨0, c.time, c.packet.length, c.packet⟩

/-- The side a reader of the trace believes to have sent a packet, by its first byte: commands (type 1) and data with format
1 come from the host, all the rest from the emulator. -/
def believed (p : Bytes) : Side :=
  match p with
  | b :: _ => if b.toNat / 32 = 1 ∨ b.toNat / 32 = 0 ∧ b.toNat % 16 = 1 then .host else .emulator
  | [] => .emulator

/-- The packets a reader of the trace believes to come from a side. -/
def believedFrom (side : Side) (rs : List Pcapng.Record) : List Bytes :=
  (rs.map (·.data)).filter (believed · = side)

end Pica.Spec.Trace
