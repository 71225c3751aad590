import Verif.Spec.Life
import Verif.Spec.Ranging
/-! What one command sets off: how many packets, delayed notifications, ranging tasks and in-band stops. -/

namespace Pica.Spec

/-- The number of notifications scheduled. -/
def notices (es : List Effect) : Nat :=
  es.countP fun
    | .notify _ _ => true
    | _ => false

/-- The number of in-band stops that the tasks spawned will send. -/
def stopsDue (es : List Effect) : Nat :=
  (es.map fun
    | .stopRanging _ _ n => n.toNat
    | _ => 0).sum

/-- The number of sessions of the device with this handle. -/
def sessionsOf (p : Pica) (h : Nat) : Nat := ((p.devices.get? h).map fun d => d.sessions.length).getD 0

/-- The packets from a host, in a history. -/
def packetsFrom (h : Nat) (tr : List Pica.Event) : Nat :=
  tr.countP fun ev => match ev.command with
    | .uciPacket k _ => k == h
    | _ => false

/-- The rounds, in a history. -/
def roundsIn (tr : List Pica.Event) : Nat :=
  tr.countP fun ev => match ev.command with
    | .ranging _ _ => true
    | _ => false

/-- The in-band stops, in a history. -/
def inBandStops (tr : List Pica.Event) : Nat :=
  tr.countP fun ev => match ev.command with
    | .stopRanging _ _ => true
    | _ => false

/-- The packets of all hosts, in a history. -/
def packetsOfAll (tr : List Pica.Event) : Nat :=
  tr.countP fun ev => match ev.command with
    | .uciPacket _ _ => true
    | _ => false

open Classical in
/-- How often the session `sid` of host `h` is created, or created anew, in a history. -/
noncomputable def creations (h : Nat) (sid : UInt32) (tr : List Pica.Event) : Nat := tr.countP fun ev => decide (Creates h sid ev)

end Pica.Spec
