import Verif.Model.Pica
/-! Handles, anchors and connection events in a history. -/

namespace Pica.Spec

/-- The events broadcast, in order. -/
def events (out : List Out) : List PicaEvent :=
  out.filterMap fun
    | .event e => some e
    | _ => none

/-- The handles answered, in order. -/
def replies (out : List Out) : List Nat :=
  out.filterMap fun
    | .anchorReply (.ok h) => some h
    | _ => none

/-- The handle an event is about. -/
def eventHandle : PicaEvent → Nat
  | .connected h _ => h
  | .disconnected h _ => h

/-- The events of one handle in a history, in order. -/
def eventsOf (h : Nat) (tr : List Pica.Event) : List PicaEvent :=
  (tr.flatMap fun ev => events ev.out).filter fun e => decide (eventHandle e = h)

/-- The handles an event gives away: that of a connection announced, and that answered to the creation of an anchor. -/
def given (ev : Pica.Event) : List Nat :=
  ((events ev.out).filterMap fun
    | .connected h _ => some h
    | .disconnected _ _ => none) ++
  match ev.command with
  | .createAnchor _ => replies ev.out
  | _ => []

/-- What a client notes of one event: the handle answered to the creation of an anchor, until its destruction. -/
def register (r : MacAddress → Option Nat) (ev : Pica.Event) : MacAddress → Option Nat :=
  match ev.command, replies ev.out with
  | .createAnchor m, h :: _ => fun n => if n = m then some h else r n
  | .destroyAnchor m, _ :: _ => fun n => if n = m then none else r n
  | _, _ => r

/-- The anchors after a history, as a client sees them. -/
def registry (tr : List Pica.Event) : MacAddress → Option Nat := tr.foldl register fun _ => none

end Pica.Spec
