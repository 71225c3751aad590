import Verif.Model.Pica
/-! Conversations of several hosts, one after the other or mixed. -/

namespace Pica.Spec

/-- The emulator goes through these commands, with these results, from one state to another. -/
inductive Goes : Pica → List Pica.Event → Pica → Prop
  | nil {p : Pica} : Goes p [] p
  | cons {p q r : Pica} {ev : Pica.Event} {tr : List Pica.Event} : p.step ev.env ev.command = .ok (q, ev.out) → Goes q tr r →
      Goes p (ev :: tr) r

/-- The event is a packet of the host. -/
def isFrom (h : Nat) (ev : Pica.Event) : Bool :=
  match ev.command with
  | .uciPacket k _ => decide (k = h)
  | _ => false

/-- What one host sends, and what comes of it. -/
def conversation (h : Nat) (tr : List Pica.Event) : List Pica.Event := tr.filter (isFrom h)

/-- Nothing but packets. -/
def OnlyPackets (tr : List Pica.Event) : Prop := ∀ ev ∈ tr, ∃ h, isFrom h ev = true

/-- The event is a round of the host. -/
def isRoundOf (h : Nat) (ev : Pica.Event) : Bool :=
  match ev.command with
  | .ranging k _ => decide (k = h)
  | _ => false

end Pica.Spec
