import Verif.Spec.Dispatch
/-! Which session a command concerns. -/

namespace Pica.Spec

/-- The session a command names. -/
def sessionOf : Cmd → Option UInt32
  | .sessionInit sid _ => some sid
  | .sessionDeinit sid => some sid
  | .sessionSetAppConfig sid _ => some sid
  | .sessionGetAppConfig sid _ => some sid
  | .sessionGetState sid => some sid
  | .sessionUpdateMulticast sid _ _ => some sid
  | .sessionStart sid => some sid
  | .sessionStop sid => some sid
  | .sessionGetRangingCount sid => some sid
  | .coreDeviceReset _ | .coreGetDeviceInfo | .coreGetCapsInfo | .coreSetConfig _ | .coreGetConfig _
  | .sessionGetCount | .androidGetPowerStats | .androidSetCountryCode _ => none

/-- The task concerns the session `sid` of the device `d`, or the state of the device. -/
def Concerns (d : Device) (sid : UInt32) : Effect → Prop
  | .notify _ (.sessionStatus id _ _) => id = sid
  | .notify _ (.sessionUpdateMulticast id _) => id = sid
  | .notify _ (.coreDeviceStatus _) => True
  | .notify _ _ => False
  | .startTimer _ id _ => id = sid
  | .abortTimer t => ∃ s, d.sessions.get? sid = some s ∧ s.rangingTask = some t
  | .stopRanging _ id _ => id = sid

/-- A packet that makes a session leave ACTIVE without the device noticing: SESSION_INIT with the identifier
of an ACTIVE session, or a multicast list update that takes the session out of ACTIVE. -/
def Disorderly (p p' : Pica) (c : Command) : Prop :=
  ∃ h bytes, c = .uciPacket h bytes ∧ ∃ sid, stateAt (p.devices.get? h) sid = .sessionStateActive ∧
    ((∃ ty, IsCmd bytes (.sessionInit sid ty)) ∨
      (∃ a q, IsCmd bytes (.sessionUpdateMulticast sid a q)) ∧
        stateAt (p'.devices.get? h) sid ≠ .sessionStateActive)

/-- The histories without such packets. -/
inductive Orderly : Pica → Prop
  | new : Orderly Pica.new
  | step {p p' : Pica} {env : Env} {c : Command} {out : List Out} :
      Orderly p → p.step env c = .ok (p', out) → ¬Disorderly p p' c → Orderly p'
  | reorder {p p' : Pica} : Orderly p → Pica.Reorder p p' → Orderly p'

end Pica.Spec
