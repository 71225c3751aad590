import Verif.Model.Trace
/-! The two directions of a connection. -/

namespace Pica.Spec
open Link

/-- A step of the reader. -/
def ofReader : Act → Bool
  | .read .. | .close => true
  | _ => false

/-- What the reader works on: the packets to come, the beginning of a message, the messages handed over. -/
def inward (s : Link) : List Bytes × Option Bytes × List Bytes := (s.input, s.acc, s.received)

/-- What the writer works on: the messages to come, the rest of the present one, the packets written. -/
def outward (s : Link) : List Bytes × List Bytes × List Bytes := (s.output, s.todo, s.written)

end Pica.Spec
