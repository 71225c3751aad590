import Verif.Model.WebText
import Verif.Spec.WebText
import Verif.Spec.Http
/-!
The page of the web server, the script of `static/index.html` 70-226: the list `map.devices`, filled by one request to
/get-state and changed by the events of /events.

The browser is taken to follow the standards: `Spec.understood` for `EventSource`, `Spec.Json.read` for JSON. A listener is
described for the documents the server writes; it does not change the page for any other one. What the user does is in
`Verif/Model/Editor.lean`.
-/

namespace Pica
open Spec (WebOp serve understood)
open Spec.Json (Value)

/-- An object of `device.neighbors`, `static/index.html` 214-220. -/
structure Neighbor where
  mac : Text
  distance : Int
  azimuth : Int
  elevation : Int
  deriving DecidableEq

/-- An object of `map.devices`, `static/index.html` 79-91. -/
structure Marker where
  mac : Text
  x : Int
  y : Int
  z : Int
  yaw : Int
  pitch : Int
  roll : Int
  neighbors : List Neighbor
  deriving DecidableEq

/-- `map.devices` -/
abbrev Page := List Marker

namespace Page

/-- A member of a parsed document. -/
def field (k : String) : Value → Option Value
  | .obj ms => (ms.reverse.find? fun e => decide (e.1 = k.toList)).map Prod.snd
  | _ => none

def str (k : String) (v : Value) : Option Text :=
  match field k v with
  | some (.str s) => some s
  | _ => none

def int (k : String) (v : Value) : Option Int :=
  match field k v with
  | some (.int n) => some n
  | _ => none

/-- `parse_device`, `static/index.html` 79-91. -/
def parseDevice (v : Value) : Option Marker := do
  return ⟨← str "mac_address" v, ← int "x" v, ← int "y" v, ← int "z" v, ← int "yaw" v, ← int "pitch" v, ← int "roll" v, []⟩

/-- `find` and the assignments to the object found; `none` is the exception if there is none, `static/index.html` 185-192
and 210-222. -/
def change (mac : Text) (f : Marker → Marker) : Page → Option Page
  | [] => none
  | m :: r => if m.mac = mac then some (f m :: r) else (change mac f r).map (m :: ·)

/-- `static/index.html` 214-222: the first neighbor of this address is changed, or a new one is pushed. -/
def link (n : Neighbor) : List Neighbor → List Neighbor
  | [] => [n]
  | m :: r => if m.mac = n.mac then n :: r else m :: link n r

/-- `static/index.html` 145-153. -/
def added (page : Page) (v : Value) : Option Page := do
  return page ++ [← parseDevice v]

/-- `static/index.html` 155-175. -/
def removed (page : Page) (v : Value) : Option Page := do
  let mac ← str "mac_address" v
  return (page.filter fun m => decide (m.mac ≠ mac)).map fun m =>
    { m with neighbors := m.neighbors.filter fun n => decide (n.mac ≠ mac) }

/-- `static/index.html` 177-196. -/
def updated (page : Page) (v : Value) : Option Page := do
  let d ← parseDevice v
  change d.mac (fun m => { d with neighbors := m.neighbors }) page

/-- `static/index.html` 198-225. -/
def neighbor (page : Page) (v : Value) : Option Page := do
  let source ← str "source_mac_address" v
  let n : Neighbor := ⟨← str "destination_mac_address" v, ← int "distance" v, ← int "azimuth" v, ← int "elevation" v⟩
  change source (fun m => { m with neighbors := link n m.neighbors }) page

/-- The listener of an event; `none` if it raises an exception, which leaves the page as it was. -/
def handle (page : Page) : Text × Option Value → Option Page
  | (_, none) => none
  | (type, some v) =>
    if type = "device-added".toList then added page v
    else if type = "device-removed".toList then removed page v
    else if type = "device-updated".toList then updated page v
    else if type = "neighbor-updated".toList then neighbor page v
    else some page

/-- `update_state`, `static/index.html` 93-97; `none` if it raises an exception. -/
def receive (body : Text) : Option Page := do
  match field "devices" (← Spec.Json.read body) with
  | some (.arr vs) => vs.mapM parseDevice
  | _ => none

end Page

/-- The web server and one page. -/
structure World where
  web : Web
  page : Page
  /-- the texts of the events sent since the page listens to /events that the page has not handled, oldest first; `none` if
  it does not listen -/
  stream : Option (List Text)
  /-- the response of /get-state that the page has not handled -/
  body : Option Text
  /-- a listener of the page has raised an exception -/
  threw : Bool

namespace World

/-- A new server and a page that has sent its requests. -/
def new : World := ⟨.new, [], none, none, false⟩

inductive Label where
  /-- a handler of the server -/
  | serve (op : WebOp)
  /-- the registry is enumerated in another order -/
  | shuffle
  /-- the server handles the request of the page for /events -/
  | subscribe
  /-- the server handles the request of the page for /get-state -/
  | snapshot
  /-- the page handles the response -/
  | state
  /-- the page handles an event -/
  | event
  /-- the stream of events ends: the connection is lost, or the page lags by more than 1024 events,
  `src/bin/http-server/main.rs` 119; the browser will ask for a new one -/
  | breaks

/-- What the listeners do with the messages of the stream. -/
def dispatch (s : World) (ms : List (Text × Option Value)) : World :=
  ms.foldl (fun s m =>
    match s.page.handle m with
    | some page => { s with page }
    | none => { s with threw := true }) s

inductive Step (measure : Measure) (euler : Euler) : World → Label → World → Prop
  /-- the events of a handler find a listener if the page is one -/
  | serve {s : World} {op : WebOp} {heard : Nat → Bool} : (s.stream ≠ none → ∀ i, heard i = true) →
      Step measure euler s (.serve op)
        { s with
          web := (Spec.serve measure heard s.web op).1
          stream := s.stream.map (· ++ (Spec.serve measure heard s.web op).2.1.map (WebText.item euler)) }
  | shuffle {s : World} {m : AMap Nat Info} : m.Perm s.web.devices →
      Step measure euler s .shuffle { s with web := { s.web with devices := m } }
  | subscribe {s : World} : s.stream = none → Step measure euler s .subscribe { s with stream := some [] }
  | snapshot {s : World} {devices : List Info} : s.web.getState.2.2 = .state devices →
      Step measure euler s .snapshot { s with body := some (WebText.state euler devices) }
  | state {s : World} {body : Text} : s.body = some body →
      Step measure euler s .state
        (match Page.receive body with
        | some page => { s with body := none, page }
        | none => { s with body := none, threw := true })
  | event {s : World} {t : Text} {ts : List Text} : s.stream = some (t :: ts) →
      Step measure euler s .event ({ s with stream := some ts }.dispatch (understood t))
  | breaks {s : World} : Step measure euler s .breaks { s with stream := none }

/-- The histories whose steps satisfy `ok`, oldest step first. -/
inductive Run (measure : Measure) (euler : Euler) (ok : World → Label → Prop) : World → List Label → World → Prop
  | nil {s : World} : Run measure euler ok s [] s
  | step {s t u : World} {ls : List Label} {l : Label} : Run measure euler ok s ls t → ok t l → Step measure euler t l u →
      Run measure euler ok s (ls ++ [l]) u

end World
end Pica
