import Verif.Model.Position
import Verif.Model.MacAddress
import Verif.Model.Map
/-!
`src/bin/http-server/main.rs`: the registry of the web server and its requests.

A handler that holds the lock of the registry is one step. The subscribers of /events come and go while it runs: whether
the i-th event of a step finds one is `heard i`. A panic of a handler while it holds the lock poisons the lock. The
measurement of two positions (`compute_range_azimuth_elevation`) and the parser of JSON bodies (`serde_json::from_slice`)
are parameters. The texts of the events and of the state are in `Verif/Model/WebText.lean`.
-/

namespace Pica

/-- `enum Category`, `src/lib.rs` 147-150. -/
inductive Category where
  | uci
  | anchor
  deriving DecidableEq

/-- `struct DeviceInformation`, `src/bin/http-server/main.rs` 70-76. -/
structure Info where
  category : Category
  mac : MacAddress
  position : Position
  deriving DecidableEq

/-- `enum Event`, `src/bin/http-server/main.rs` 78-107. -/
inductive WebEvent where
  | added (category : Category) (mac : MacAddress) (position : Position)
  | removed (category : Category) (mac : MacAddress)
  | updated (category : Category) (mac : MacAddress) (position : Position)
  | neighbor (source : Category × MacAddress) (destination : Category × MacAddress) (m : RangingMeasurement)
  deriving DecidableEq

/-- `struct Context`, `src/bin/http-server/main.rs` 109-124, with the state of the lock. -/
structure Web where
  devices : AMap Nat Info
  poisoned : Bool
  deriving DecidableEq

/-- What comes out of a handler. -/
inductive Reply where
  /-- a response with a status code -/
  | status (code : Nat)
  /-- a static file, `src/bin/http-server/main.rs` 435-440 -/
  | file (path : List Char)
  /-- the stream of 171-185 -/
  | stream
  /-- the list of `http_get_state`, 334-351 -/
  | state (devices : List Info)
  | panic (x : WebPanic)
  deriving DecidableEq

/-- `compute_range_azimuth_elevation`. -/
abbrev Measure := Position → Position → Except WebPanic RangingMeasurement

namespace Web

/-- `Context::new`, `src/bin/http-server/main.rs` 118-124. -/
def new : Web where
  devices := []
  poisoned := false

/-- The panic of a task that holds the lock. -/
def poison (w : Web) : Web := { w with poisoned := true }

/-- The last lines of a handler: one event is sent, `src/bin/http-server/main.rs` 144-150, 157-162, 285-291, 319-324. -/
def announce (w : Web) (heard : Nat → Bool) (e : WebEvent) (r : Reply) : Web × List WebEvent × Reply :=
  if heard 0 then (w, [e], r) else (w.poison, [], .panic .noListener)

/-- One turn of the loop of `handle_connection_events`, `src/bin/http-server/main.rs` 131-167. The reply of a turn that
does not panic is of no importance. -/
def connection (w : Web) (heard : Nat → Bool) (e : PicaEvent) : Web × List WebEvent × Reply :=
  if w.poisoned then (w, [], .panic .poisoned) else
  match e with
  | .connected h mac =>
    { w with devices := w.devices.insert h ⟨.uci, mac, .default⟩ }.announce heard (.added .uci mac .default) (.status 200)
  | .disconnected h mac => { w with devices := w.devices.erase h }.announce heard (.removed .uci mac) (.status 200)

/-- The loop of `src/bin/http-server/main.rs` 191-199: the first device with the address is changed. -/
def place (mac : MacAddress) (position : Position) : AMap Nat Info → Option (AMap Nat Info × Info)
  | [] => none
  | (h, i) :: r =>
    if i.mac = mac then some ((h, { i with position }) :: r, { i with position })
    else (place mac position r).map fun (m, x) => ((h, i) :: m, x)

/-- The loop of `src/bin/http-server/main.rs` 216-251. `n` events have been sent before. -/
def neighbors (measure : Measure) (heard : Nat → Bool) (device : Info) : Nat → List Info → List WebEvent × Option WebPanic
  | _, [] => ([], none)
  | n, other :: r =>
    if other.mac ≠ device.mac then
      match measure device.position other.position with
      | .error x => ([], some x)
      | .ok l =>
        match measure other.position device.position with
        | .error x => ([], some x)
        | .ok m =>
          if l.range ≠ m.range then ([], some .asymmetric)
          else if heard n then
            if heard (n + 1) then
              let (es, x) := neighbors measure heard device (n + 2) r
              (.neighbor (device.category, device.mac) (other.category, other.mac) l ::
                .neighbor (other.category, other.mac) (device.category, device.mac) m :: es, x)
            else ([.neighbor (device.category, device.mac) (other.category, other.mac) l], some .noListener)
          else ([], some .noListener)
    else neighbors measure heard device n r

/-- `http_set_position`, `src/bin/http-server/main.rs` 187-257. -/
def setPosition (w : Web) (measure : Measure) (heard : Nat → Bool) (mac : MacAddress) (position : Position) :
    Web × List WebEvent × Reply :=
  if w.poisoned then (w, [], .panic .poisoned) else
  match place mac position w.devices with
  | none => (w, [], .status 404)
  | some (devices, device) =>
    let w := { w with devices }
    if heard 0 then
      match neighbors measure heard device 1 devices.values with
      | (es, none) => (w, .updated device.category mac position :: es, .status 200)
      | (es, some x) => (w.poison, .updated device.category mac position :: es, .panic x)
    else (w.poison, [], .panic .noListener)

/-- The second half of `http_create_anchor`, `src/bin/http-server/main.rs` 273-298: the answer of the emulator has come;
`none` if the channel was closed. -/
def created (w : Web) (heard : Nat → Bool) (mac : MacAddress) (position : Position) :
    Option (Except PicaCommandError Nat) → Web × List WebEvent × Reply
  | some (.ok h) =>
    if w.poisoned then (w, [], .panic .poisoned) else
    { w with devices := w.devices.insert h ⟨.anchor, mac, position⟩ }.announce heard (.added .anchor mac position)
      (.status 200)
  | some (.error (.deviceAlreadyExists _)) => (w, [], .status 409)
  | some (.error (.deviceNotFound _)) => (w, [], .status 404)
  | none => (w, [], .status 500)

/-- The second half of `http_destroy_anchor`, `src/bin/http-server/main.rs` 314-331. -/
def destroyed (w : Web) (heard : Nat → Bool) (mac : MacAddress) :
    Option (Except PicaCommandError Nat) → Web × List WebEvent × Reply
  | some (.ok h) =>
    if w.poisoned then (w, [], .panic .poisoned) else
    { w with devices := w.devices.erase h }.announce heard (.removed .anchor mac) (.status 200)
  | some (.error (.deviceAlreadyExists _)) => (w, [], .status 409)
  | some (.error (.deviceNotFound _)) => (w, [], .status 404)
  | none => (w, [], .status 500)

/-- `http_get_state`, `src/bin/http-server/main.rs` 334-351. -/
def getState (w : Web) : Web × List WebEvent × Reply :=
  if w.poisoned then (w, [], .panic .poisoned) else (w, [], .state w.devices.values)

/-- `estimate`, `src/bin/http-server/main.rs` 354-370. A panic of `measure` is outside this model: there is none (C55). -/
def estimate (w : Web) (measure : Measure) (left right : Nat) : Option RangingMeasurement :=
  if w.poisoned then none else do
    let l ← w.devices.get? left
    let r ← w.devices.get? right
    (measure l.position r.position).toOption

end Web

/-- The result of `serde_json::from_slice::<PositionBody>`, `src/bin/http-server/main.rs` 372-400. -/
inductive Json where
  | ok (p : Position)
  /-- an error of the category `Eof`: the text ends early -/
  | eof
  /-- any other error -/
  | bad
  deriving DecidableEq

/-- The paths of `STATIC_FILES`, `src/bin/http-server/main.rs` 40-67. -/
def staticPaths : List (List Char) :=
  ["/".toList, "/openapi".toList, "/openapi.yaml".toList, "/src/components/Map.js".toList,
    "/src/components/DeviceInfo.js".toList, "/src/components/Orientation.js".toList]

/-- `position!`, `src/bin/http-server/main.rs` 382-400; `none` is the response 406. -/
def bodyPosition : Json → Option Position
  | .ok p => some p
  | .eof => some .default
  | .bad => none

/-- `str::split` with a character. -/
def splitOn (c : Char) : List Char → List (List Char)
  | [] => [[]]
  | x :: r => if x = c then [] :: splitOn c r else
    match splitOn c r with
    | [] => [[x]]
    | p :: ps => (x :: p) :: ps

/-- What a request leads to. -/
inductive Action where
  /-- an answer at once -/
  | now (r : Reply)
  | setPosition (mac : MacAddress) (position : Position)
  | createAnchor (mac : MacAddress) (position : Position)
  | destroyAnchor (mac : MacAddress)
  | getState
  deriving DecidableEq

/-- `mac_address!` and `position!`, `src/bin/http-server/main.rs` 382-413, in the order of the arguments. -/
def macAndPosition (f : MacAddress → Position → Action) (mac : List Char) (body : Json) : Action :=
  match MacAddress.parse mac with
  | none => .now (.status 406)
  | some m =>
    match bodyPosition body with
    | none => .now (.status 406)
    | some p => f m p

/-- `http_request`, `src/bin/http-server/main.rs` 426-476, up to the call of the handler. The body is `none` if it cannot
be read. -/
def route (json : Bytes → Json) (path : List Char) (body : Option Bytes) : Action :=
  if path ∈ staticPaths then .now (.file path) else
  match body with
  | none => .now (.panic .body)
  | some body =>
    match splitOn '/' (path.dropWhile (· == '/')) with
    | [a] =>
      if a = "events".toList then .now .stream
      else if a = "get-state".toList then .getState
      else .now (.status 404)
    | [a, mac] =>
      if a = "init-uci-device".toList then macAndPosition .setPosition mac (json body)
      else if a = "set-position".toList then macAndPosition .setPosition mac (json body)
      else if a = "create-anchor".toList then macAndPosition .createAnchor mac (json body)
      else if a = "destroy-anchor".toList then
        match MacAddress.parse mac with
        | none => .now (.status 406)
        | some m => .destroyAnchor m
      else .now (.status 404)
    | _ => .now (.status 404)

/-- The rest of `http_request`; `none` for a handler that sends a command and waits, `Verif/Model/Site.lean`. -/
def Web.act (w : Web) (measure : Measure) (heard : Nat → Bool) : Action → Option (Web × List WebEvent × Reply)
  | .now r => some (w, [], r)
  | .setPosition mac p => some (w.setPosition measure heard mac p)
  | .getState => some w.getState
  | .createAnchor _ _ | .destroyAnchor _ => none

end Pica
