import Verif.Spec.Life
import Mathlib.Data.List.Forall2
/-!
States and outputs that differ only in the order in which the entries of maps are enumerated.
-/

namespace Pica.Enumeration
open Spec

/-- The same device, with its sessions in any order. -/
def SameDevice (d d' : Device) : Prop :=
  d' = { d with sessions := d'.sessions } ∧ ∀ sid, d'.sessions.get? sid = d.sessions.get? sid

/-- Both are missing, or they are the same device. -/
def SameEntry : Option Device → Option Device → Prop
  | none, none => True
  | some d, some d' => SameDevice d d'
  | _, _ => False

/-- The same state, with devices, sessions and anchors in any order. -/
def SameState (p q : Pica) : Prop :=
  q.counter = p.counter ∧ (∀ h, SameEntry (p.devices.get? h) (q.devices.get? h)) ∧ ∀ m, q.anchors.get? m = p.anchors.get? m

/-- The same packet, with the measurements of a round in any order. -/
inductive SamePacket : Packet → Packet → Prop
  | refl (x : Packet) : SamePacket x x
  | round (n sid : UInt32) (a : UInt8) (b : UInt32) (ms ms' : List Measurement) (rest : Bytes) : ms.Perm ms' →
      SamePacket (.ntf (.sessionInfo n sid a b ms rest)) (.ntf (.sessionInfo n sid a b ms' rest))

/-- The events and the replies to clients. -/
def announced (out : List Out) : List Out :=
  out.filter fun
    | .send _ _ | .effect _ _ => false
    | _ => true

/-- Every host gets the same packets in the same order, and the same notifications, timers and in-band stops are set off
for it; the events and replies are the same. -/
def SameOut (out out' : List Out) : Prop :=
  (∀ h, List.Forall₂ SamePacket (sentTo h out) (sentTo h out') ∧ (effectsOf h out).Perm (effectsOf h out')) ∧
    announced out = announced out'

end Pica.Enumeration
