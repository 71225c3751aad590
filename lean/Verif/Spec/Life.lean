import Verif.Model.Pica
/-! Observations of devices and histories used to state the session properties. -/

namespace Pica.Spec
open SessionState

/-- The state of a session as the host sees it: a session that does not exist is in DEINIT. -/
def stateOf (d : Device) (sid : UInt32) : SessionState :=
  match d.sessions.get? sid with
  | some s => s.state
  | none => sessionStateDeinit

/-- The same for a device that may be absent. -/
def stateAt (d : Option Device) (sid : UInt32) : SessionState :=
  match d with
  | some d => stateOf d sid
  | none => sessionStateDeinit

/-- The state changes the specification allows, [UCI] 7.1. -/
def Allowed (old new : SessionState) : Prop :=
  (old = sessionStateDeinit ∧ new = sessionStateInit) ∨ (old = sessionStateInit ∧ new = sessionStateIdle) ∨
  (old = sessionStateIdle ∧ new = sessionStateActive) ∨ (old = sessionStateActive ∧ new = sessionStateIdle) ∨
  (old ≠ sessionStateDeinit ∧ new = sessionStateDeinit)

/-- The states carried by the SESSION_STATUS_NTFs scheduled for a session, in order. -/
def statusNtfs (sid : UInt32) (es : List Effect) : List SessionState :=
  es.filterMap fun
    | .notify _ (.sessionStatus id st _) => if id = sid then some st else none
    | _ => none

/-- The states carried by the CORE_DEVICE_STATUS_NTFs scheduled, in order. -/
def deviceNtfs (es : List Effect) : List DeviceState :=
  es.filterMap fun
    | .notify _ (.coreDeviceStatus st) => some st
    | _ => none

/-- The ranging tasks spawned, in order. -/
def started (es : List Effect) : List Nat :=
  es.filterMap fun
    | .startTimer t _ _ => some t
    | _ => none

/-- The ranging tasks aborted, in order. -/
def aborted (es : List Effect) : List Nat :=
  es.filterMap fun
    | .abortTimer t => some t
    | _ => none

/-- The effects of a step that stem from one device. -/
def effectsOf (h : Nat) (out : List Out) : List Effect :=
  out.filterMap fun
    | .effect h' e => if h' = h then some e else none
    | _ => none

/-- The packets a step sends to one host. -/
def sentTo (h : Nat) (out : List Out) : List Packet :=
  out.filterMap fun
    | .send h' p => if h' = h then some p else none
    | _ => none

/-- All the effects of one device in a history. -/
def historyOf (h : Nat) (tr : List Pica.Event) : List Effect := tr.flatMap fun ev => effectsOf h ev.out

/-- Number of ACTIVE sessions. -/
def activeCount (d : Device) : Nat := (d.sessions.filter fun e => decide (e.2.state = sessionStateActive)).length

end Pica.Spec
