import Verif.Model.System
import Verif.Model.Http
/-!
The program `src/bin/http-server/main.rs`: the emulator and its tasks (`Verif/Model/System.lean`), the registry of the web
server (`Verif/Model/Http.lean`) and what is under way between them. The estimator of the emulator is the registry.

The handler of a request for an anchor waits for the answer to its command; the answers arrive in the order of the
commands, the handlers go on in any order. A handler whose client has gone is dropped. A panic of a handler ends its
request only. A panic or an error of `handle_connection_events`, which is polled by `main` (545-552), ends the program.
-/

namespace Pica

/-- A request for an anchor: the address and, for a new one, the position. -/
structure Ask where
  mac : MacAddress
  create : Option Position
  deriving DecidableEq

/-- The command sent, `src/bin/http-server/main.rs` 268-271 and 309-312. -/
def Ask.command (a : Ask) : Command :=
  match a.create with
  | some _ => .createAnchor a.mac
  | none => .destroyAnchor a.mac

structure Site where
  sys : System
  web : Web
  /-- the requests whose command has not been processed, in the order of the commands -/
  asks : List Ask
  /-- the answers not yet seen by their handlers, oldest first -/
  answers : List (Ask × Except PicaCommandError Nat)
  /-- the channel of `src/lib.rs` 189 to `handle_connection_events`, oldest event first -/
  events : List PicaEvent
  /-- `main` has returned or panicked -/
  ended : Bool

namespace Site

def new : Site where
  sys := .new
  web := .new
  asks := []
  answers := []
  events := []
  ended := false

/-- The capacity of the event channel, `src/lib.rs` 189. -/
def eventSize : Nat := 16

/-- What an output of the emulator does to the web server. -/
def hear (s : Site) : Out → Site
  | .event e => { s with events := s.events ++ [e] }
  | .anchorReply r =>
    match s.asks with
    | [] => s
    | a :: as => { s with asks := as, answers := s.answers ++ [(a, r)] }
  | _ => s

inductive Label where
  /-- a step of the emulator other than those below -/
  | system (l : System.Label)
  /-- a request for an anchor is sent -/
  | ask (a : Ask)
  /-- the event loop processes a command -/
  | process (ev : Pica.Event)
  /-- the event loop panics -/
  | panics (c : Command) (x : Panic)
  /-- `handle_connection_events` handles an event -/
  | event (e : PicaEvent)
  /-- the channel has overflown: `handle_connection_events` returns an error, 165 -/
  | lags
  /-- a handler gets its answer, which comes after `n` others -/
  | answer (n : Nat) (a : Ask) (r : Except PicaCommandError Nat)
  /-- a handler that waits is dropped -/
  | drops (a : Ask) (r : Except PicaCommandError Nat)
  /-- a request for a position -/
  | position (mac : MacAddress) (p : Position)
  /-- the registry is enumerated in another order -/
  | shuffle

/-- The steps of the emulator that are not seen by the web server. -/
def Silent : System.Label → Prop
  | .process _ | .panics _ _ | .request (.createAnchor _) | .request (.destroyAnchor _) => False
  | _ => True

/-- The second half of the handler of a request, `src/bin/http-server/main.rs` 273-298 and 314-331. -/
def answered (w : Web) (heard : Nat → Bool) (a : Ask) (r : Except PicaCommandError Nat) : Web × List WebEvent × Reply :=
  match a.create with
  | some p => w.created heard a.mac p (some r)
  | none => w.destroyed heard a.mac (some r)

/-- The reply is a panic. -/
def isPanic : Reply → Bool
  | .panic _ => true
  | _ => false

inductive Step (measure : Measure) : Site → Label → Site → Prop
  | system {s : Site} {l : System.Label} {t : System} : Silent l → System.Step s.sys l t →
      Step measure s (.system l) { s with sys := t }
  | ask {s : Site} {a : Ask} {t : System} : System.Step s.sys (.request a.command) t →
      Step measure s (.ask a) { s with sys := t, asks := s.asks ++ [a] }
  | process {s : Site} {c : Command} {out : List Out} {t : System} :
      System.Step s.sys (.process ⟨s.sys.env (s.web.estimate measure), c, out⟩) t →
      Step measure s (.process ⟨s.sys.env (s.web.estimate measure), c, out⟩) (out.foldl hear { s with sys := t })
  | panics {s : Site} {c : Command} {x : Panic} {q : List Command} : s.sys.queue = c :: q →
      s.sys.pica.step (s.sys.env (s.web.estimate measure)) c = .error x → Step measure s (.panics c x) { s with ended := true }
  | event {s : Site} {e : PicaEvent} {es : List PicaEvent} {heard : Nat → Bool} : s.events = e :: es →
      s.events.length ≤ eventSize →
      Step measure s (.event e)
        { s with
          events := es
          web := (s.web.connection heard e).1
          ended := isPanic (s.web.connection heard e).2.2 }
  | lags {s : Site} : eventSize < s.events.length → Step measure s .lags { s with ended := true }
  | answer {s : Site} {a : Ask} {r : Except PicaCommandError Nat} {before after : List (Ask × Except PicaCommandError Nat)}
      {heard : Nat → Bool} : s.answers = before ++ (a, r) :: after →
      Step measure s (.answer before.length a r) { s with answers := before ++ after, web := (answered s.web heard a r).1 }
  | drops {s : Site} {a : Ask} {r : Except PicaCommandError Nat} {before after : List (Ask × Except PicaCommandError Nat)} :
      s.answers = before ++ (a, r) :: after → Step measure s (.drops a r) { s with answers := before ++ after }
  | position {s : Site} {mac : MacAddress} {p : Position} {heard : Nat → Bool} :
      Step measure s (.position mac p) { s with web := (s.web.setPosition measure heard mac p).1 }
  | shuffle {s : Site} {m : AMap Nat Info} : m.Perm s.web.devices →
      Step measure s .shuffle { s with web := { s.web with devices := m } }

/-- The histories of the program, oldest step first. -/
inductive Run (measure : Measure) : Site → List Label → Site → Prop
  | nil {s : Site} : Run measure s [] s
  | step {s t u : Site} {ls : List Label} {l : Label} : Run measure s ls t → t.ended = false → t.sys.stopped = false →
      Step measure t l u → Run measure s (ls ++ [l]) u

end Site
end Pica
