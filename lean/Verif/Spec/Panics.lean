import Verif.Model.System
import Verif.Model.Framing
/-! Which panics may end the event loop, and what they come from. -/

namespace Pica.Spec
open Pica.System

/-- What a command comes from. -/
inductive Cause where
  /-- a message of a host -/
  | message
  /-- a ranging round that is due -/
  | round
  /-- a connection, the end of one, an in-band stop, or the web server -/
  | other
  deriving DecidableEq

/-- The cause of a command. -/
def cause : Command → Cause
  | .uciPacket _ _ => .message
  | .ranging _ _ => .round
  | _ => .other

/-- All causes of a panic, given well formed commands from the hosts. -/
def knownPanics : List (Cause × Panic) := [
  (.message, .deviceNotReady), (.message, .sessionType), (.message, .macMode1), (.message, .rangingTaskPresent),
  (.message, .encode),
  (.round, .noDevice), (.round, .noSession), (.round, .extendedAddress), (.round, .encode), (.round, .channelClosed),
  (.round, .overflow)]

/-- The further ones, given any bytes from the hosts. -/
def malformedPanics : List (Cause × Panic) := [(.message, .parseChild), (.message, .unsupportedOid)]

/-- The messages in the schedule are messages that the connection tasks make of what they read. -/
def FromStreams (ls : List Label) : Prop :=
  ∀ h bytes, Label.packet h bytes ∈ ls → ∃ stream, bytes ∈ (reassemble none (readStream stream)).1

/-- The schedule ends with a panic of the event loop. -/
def EndsIn (ls : List Label) (k : Cause) (x : Panic) : Prop := ∃ ls' c, ls = ls' ++ [Label.panics c x] ∧ cause c = k

end Pica.Spec
