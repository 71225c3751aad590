import Verif.Model.Framing
import Verif.Model.Pcapng
/-!
The task of one connection with its trace file: `read_routine` and `write_routine` of `src/lib.rs` 238-344 as `add_device`
joins them, 361-389, writing to one `pcapng::File`, `src/pcapng.rs`.

Both routines run in one task, so that they interleave between two awaits only and a record is written as a whole. The time
stamp of a record is an input that does not decrease. The reader waiting for a free slot of the command queue is not a state
of its own: the message counts as received when its last packet has been read. I/O errors of the trace file are not modelled.
-/

namespace Pica

/-- The state of the connection task. -/
structure Link where
  /-- packets of `uci_stream` not yet read -/
  input : List Bytes
  /-- `complete_packet` of the reader -/
  acc : Option Bytes := none
  /-- the messages sent with `cmd_tx`, oldest first -/
  received : List Bytes := []
  /-- `packet_rx`: messages of the device that the writer has not taken -/
  output : List Bytes := []
  /-- the packets of the current message that the writer has yet to write -/
  todo : List Bytes := []
  /-- the packets sent with `uci_sink`, oldest first -/
  written : List Bytes := []
  /-- contents of the trace file -/
  file : Bytes := Pcapng.fileHeader
  /-- time stamp of the last record -/
  clock : Nat := 0
  /-- one of the routines has ended, and with it the task -/
  ended : Bool := false
  deriving DecidableEq, Repr

namespace Link

/-- The task when it starts: the file has just been created, `src/lib.rs` 371-373. -/
def new (input : List Bytes) : Link := { input }

/-- What happens next. -/
inductive Act where
  /-- the device sends a message -/
  | push (m : Bytes)
  /-- the reader gets the packet, at the time `t` -/
  | read (p : Bytes) (t : Nat)
  /-- the reader finds the stream closed -/
  | close
  /-- the writer takes the next message -/
  | take
  /-- the writer writes a packet of the message, at the time `t` -/
  | write (p : Bytes) (t : Nat)
  /-- the writer fails to write a packet of the message, at the time `t` -/
  | fail (p : Bytes) (t : Nat)
  deriving DecidableEq, Repr

/-- `pcapng_file.write`, `src/lib.rs` 258-260 and 330-332. The direction is not used, `src/pcapng.rs` 59. -/
def record (s : Link) (p : Bytes) (t : Nat) : Link :=
  { s with file := s.file ++ Pcapng.packetBlock p t, clock := t }

/-- The reader gets a packet, `src/lib.rs` 251-279. A packet whose header cannot be decoded is not recorded; a continuation
too short for a header is, before the slice panics. -/
def get (s : Link) (p : Bytes) (t : Nat) : Link :=
  match p with
  | [] => { s with ended := true }
  | h₀ :: _ =>
    match decodeCommonHeader h₀ with
    | none => { s with ended := true }
    | some (pbf, mt) =>
      let s := s.record p t
      match s.acc with
      | some c =>
        if p.length < headerSize then { s with ended := true }
        else if pbf = .complete ∨ mt = .data then
          { s with acc := none, received := s.received ++ [c ++ p.drop headerSize] }
        else { s with acc := some (c ++ p.drop headerSize) }
      | none =>
        if pbf = .complete ∨ mt = .data then { s with received := s.received ++ [p] }
        else { s with acc := some p }

/-- One step, or `none` if it cannot happen now. -/
def step (s : Link) : Act → Option Link
  | .push m => if s.ended then none else some { s with output := s.output ++ [m] }
  | .read p t =>
    if s.ended ∨ t < s.clock then none
    else match s.input with
      | [] => none
      | q :: input => if q = p then some ({ s with input }.get p t) else none
  | .close => if s.ended ∨ s.input ≠ [] then none else some { s with ended := true }
  | .take =>
    if s.ended ∨ s.todo ≠ [] then none
    else match s.output with
      | [] => none
      | m :: output =>
        match segment m with
        | .error _ => some { s with output, ended := true }
        | .ok todo => some { s with output, todo }
  | .write p t =>
    if s.ended ∨ t < s.clock then none
    else match s.todo with
      | [] => none
      | q :: todo => if q = p then some ({ s with todo, written := s.written ++ [p] }.record p t) else none
  | .fail p t =>
    if s.ended ∨ t < s.clock then none
    else match s.todo with
      | [] => none
      | q :: todo => if q = p then some ({ s with todo, ended := true }.record p t) else none

/-- A sequence of steps. -/
def run (s : Link) : List Act → Option Link
  | [] => some s
  | a :: as => (s.step a).bind (·.run as)

end Link
end Pica
