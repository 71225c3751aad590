import Verif.Model.Http
/-! What the requests to the web server are for. -/

namespace Pica.Spec

/-- The path is any number of slashes, the name of a handler and, after another slash, its argument if it has one. -/
def Names (path : List Char) (name : String) (arg : Option (List Char)) : Prop :=
  ∃ k, path = List.replicate k '/' ++ name.toList ++ (match arg with | none => [] | some t => '/' :: t) ∧
    ∀ t, arg = some t → '/' ∉ t

/-- The handlers without and with an address. -/
def plainNames : List String := ["events", "get-state"]
def macNames : List String := ["init-uci-device", "set-position", "create-anchor", "destroy-anchor"]

/-- The path names a handler. -/
def Known (path : List Char) : Prop :=
  (∃ n ∈ plainNames, Names path n none) ∨ ∃ n ∈ macNames, ∃ t, Names path n (some t)

/-- Any two measurements exist and agree on the range. -/
def Sane (measure : Measure) : Prop :=
  ∀ p q, ∃ l m, measure p q = .ok l ∧ measure q p = .ok m ∧ l.range = m.range

/-- The events about a device and another one. -/
def About (measure : Measure) (device other : Info) (es : List WebEvent) : Prop :=
  ∃ l m, measure device.position other.position = .ok l ∧ measure other.position device.position = .ok m ∧
    es = [.neighbor (device.category, device.mac) (other.category, other.mac) l,
      .neighbor (other.category, other.mac) (device.category, device.mac) m]

/-- A request or a connection event that takes the lock of the registry. -/
inductive WebOp where
  | connection (e : PicaEvent)
  | setPosition (mac : MacAddress) (p : Position)
  | created (mac : MacAddress) (p : Position) (h : Nat)
  | destroyed (mac : MacAddress) (h : Nat)
  | getState

/-- Its handler. -/
def serve (measure : Measure) (heard : Nat → Bool) (w : Web) : WebOp → Web × List WebEvent × Reply
  | .connection e => w.connection heard e
  | .setPosition mac p => w.setPosition measure heard mac p
  | .created mac p h => w.created heard mac p (some (.ok h))
  | .destroyed mac h => w.destroyed heard mac (some (.ok h))
  | .getState => w.getState

/-- The handlers one after the other, each with those who listen. -/
def serveAll (measure : Measure) : Web → List ((Nat → Bool) × WebOp) → List Reply × Web
  | w, [] => ([], w)
  | w, (heard, op) :: r =>
    let (w', _, reply) := serve measure heard w op
    let (rs, w'') := serveAll measure w' r
    (reply :: rs, w'')

/-- The reply is not a panic. -/
def Answered (r : Reply) : Prop := ∀ x, r ≠ .panic x

end Pica.Spec
