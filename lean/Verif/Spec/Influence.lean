import Verif.Spec.Life
/-!
What one host can notice: the commands that concern its device, and what each of them brings it.
-/

namespace Pica.Influence
open Spec

/-- A command as far as it concerns one host: a packet of the host, a round of one of its sessions, an in-band stop (which
names an address and a session, and may concern every device), and the end of its connection. -/
inductive Heard where
  | packet (b : Bytes)
  | round (sid : UInt32)
  | stop (mac : MacAddress) (sid : UInt32)
  | left
  deriving DecidableEq

/-- The commands that concern the host with handle `h`. Those of other hosts, connections and anchors do not. -/
def heard (h : Nat) : Command → Option Heard
  | .uciPacket k b => if k = h then some (.packet b) else none
  | .ranging k sid => if k = h then some (.round sid) else none
  | .stopRanging mac sid => some (.stop mac sid)
  | .disconnect k => if k = h then some .left else none
  | .connect | .createAnchor _ | .destroyAnchor _ => none

/-- A packet without what it says of others: the data that another host sent are left out, and so are the measurements. -/
def plain : Packet → Option Packet
  | .data _ => none
  | .ntf (.sessionInfo n sid a b _ _) => some (.ntf (.sessionInfo n sid a b [] []))
  | p => some p

/-- An effect without the identifier of the task. -/
def nameless : Effect → Effect
  | .startTimer _ sid ms => .startTimer 0 sid ms
  | .abortTimer _ => .abortTimer 0
  | e => e

/-- What the host gets out of one command: the packets, and the notifications, timers and in-band stops that are set off. -/
structure Told where
  heard : Heard
  packets : List Packet
  effects : List Effect

/-- What a host gets in a history. -/
def view (h : Nat) (tr : List Pica.Event) : List Told :=
  tr.filterMap fun ev => (heard h ev.command).map fun x =>
    ⟨x, (sentTo h ev.out).filterMap plain, (effectsOf h ev.out).map nameless⟩

/-- The same is told; the notifications of one command, which are sent by tasks of their own, in any order. -/
def SameTold (x y : Told) : Prop := x.heard = y.heard ∧ x.packets = y.packets ∧ x.effects.Perm y.effects

/-- A session without the handle of its device and the identifier of its task. -/
def unnamed (s : Session) : Session := { s with deviceHandle := 0, rangingTask := s.rangingTask.map fun _ => 0 }

/-- The devices differ in nothing but their handles, addresses and identifiers of tasks. -/
def Alike (d d' : Device) : Prop :=
  d.isReset = d'.isReset ∧ d.config = d'.config ∧ d.state = d'.state ∧ d.countryCode = d'.countryCode ∧ d.nActive = d'.nActive ∧
    ∀ sid, (d.sessions.get? sid).map unnamed = (d'.sessions.get? sid).map unnamed

/-- Both are gone, or they are alike. -/
def BothAlike : Option Device → Option Device → Prop
  | none, none => True
  | some d, some d' => Alike d d'
  | _, _ => False

end Pica.Influence
