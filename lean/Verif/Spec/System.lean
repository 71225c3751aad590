import Verif.Model.System
import Verif.Spec.Ranging
/-! Observations of schedules. -/

namespace Pica.Spec
open Pica.System

/-- The timers of a session that have not been aborted. -/
def running (s : System) (h : Nat) (sid : UInt32) : List Timer :=
  s.timers.filter fun t => !t.aborted && decide (t.device = h) && decide (t.session = sid)

/-- The command a step puts in the queue. -/
def enqueued : Label → Option Command
  | .request c => some c
  | .packet h bytes => some (.uciPacket h bytes)
  | .leaves h => some (.disconnect h)
  | .tick t => some (.ranging t.device t.session)
  | .inBand mac sid => some (.stopRanging mac sid)
  | _ => none

/-- The command a step takes from the queue. -/
def dequeued : Label → Option Command
  | .process ev => some ev.command
  | .panics c _ => some c
  | _ => none

/-- The commands processed without panic. -/
def processed (ls : List Label) : List Pica.Event :=
  ls.filterMap fun
    | .process ev => some ev
    | _ => none

/-- The event ends the ranging of the session `sid` of device `h` in the emulator `p`: the session ends, SESSION_STOP
succeeds, or an in-band stop reaches the session while it is ACTIVE. -/
def Halts (p : Pica) (h : Nat) (sid : UInt32) (ev : Pica.Event) : Prop :=
  Ends h sid ev ∨
  (∃ bytes, ev.command = .uciPacket h bytes ∧ IsCmd bytes (.sessionStop sid) ∧ .rsp (.sessionStop .ok) ∈ sentTo h ev.out) ∨
  ∃ mac d s, ev.command = .stopRanging mac sid ∧ p.devices.get? h = some d ∧ d.sessions.get? sid = some s ∧
    s.state = .sessionStateActive ∧ s.appConfig.deviceMacAddress = some mac

end Pica.Spec
