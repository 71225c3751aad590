import Verif.Model.Page
import Verif.Model.JsonBody
import Mathlib.Data.Rat.Floor
/-!
What the user does on the page: selecting, dragging and lifting devices on the map (`static/src/components/Map.js`), turning
them with the sliders (`static/src/components/DeviceInfo.js`), and the requests the page sends (`static/index.html` 103-141).

Numbers are exact: coordinates of markers are integers, far below 2^53. `movementY` is an integer. The sliders step by one.
What is drawn is up to date: the browser draws before the next event. A request is neither lost nor cut short, and the server may
handle requests in any order.
-/

namespace Pica
open Spec (understood)
open Spec.Json (Value)

/-- An object that `map.selected` or `info.device` refers to: one of `map.devices`, or one that has been there. -/
inductive Ref where
  | listed (i : Nat)
  | gone (k : Nat)
  deriving DecidableEq

/-- The server, the page, and what the user is doing. -/
structure Editor where
  world : World
  /-- `map.selected`, `Map.js` 49 -/
  selected : Option Ref
  /-- `info.device`, `DeviceInfo.js` 95 -/
  info : Option Ref
  /-- `map.dragging`, `Map.js` 50 -/
  dragging : Bool
  /-- `map.changingElevation`, `Map.js` 51 -/
  lifting : Bool
  /-- a slider has been moved and not been released -/
  sliding : Bool
  /-- the objects that have been in `map.devices`, oldest first -/
  past : List Marker
  /-- the requests sent and not yet handled, path and body, oldest first -/
  requests : List (Text × Bytes)

/-- `set_position`, `static/index.html` 110-132: path and body of the request. -/
def Marker.request (m : Marker) : Text × Bytes :=
  ("/set-position/".toList ++ m.mac,
    (WebText.object [("x", WebText.integer m.x), ("y", WebText.integer m.y), ("z", WebText.integer m.z),
      ("yaw", WebText.integer m.yaw), ("pitch", WebText.integer m.pitch), ("roll", WebText.integer m.roll)]).flatMap
        String.utf8EncodeChar)

/-- `onMouseMove` while dragging, `Map.js` 95-104, for the point `(x, y)` of `screenToSvg`. -/
def Marker.drag (x y : Rat) (m : Marker) : Marker :=
  { m with x := min (max (⌊-x⌋ + m.y) (-600 + 40)) (600 - 40), z := min (max (⌊y⌋ + m.y) (-600 + 40)) (600 - 40) }

/-- `onMouseMove` while changing the elevation, `Map.js` 107-109. -/
def Marker.lift (movement : Int) (m : Marker) : Marker := { m with y := m.y - min (movement * 2) m.y }

/-- The three sliders. -/
inductive Slider where
  | yaw
  | pitch
  | roll

/-- `min` and `max` of a slider, `DeviceInfo.js` 150-179. -/
def Slider.limit : Slider → Int
  | .yaw => 180
  | .pitch => 90
  | .roll => 180

/-- `setYaw`, `setPitch` and `setRoll`, `DeviceInfo.js` 98-110. -/
def Slider.set : Slider → Int → Marker → Marker
  | .yaw, v, m => { m with yaw := v }
  | .pitch, v, m => { m with pitch := v }
  | .roll, v, m => { m with roll := v }

/-- Where the mouse is pressed: on the handle of the selected marker, on a marker or elsewhere. -/
inductive Target where
  | handle
  | marker (i : Nat)
  | ground

namespace Editor

/-- A page just opened. -/
def opened (w : Web) : Editor := ⟨⟨w, [], none, none, false⟩, none, none, false, false, false, [], []⟩

/-- The object a reference stands for. -/
def look (s : Editor) : Ref → Option Marker
  | .listed i => s.world.page[i]?
  | .gone k => s.past[k]?

/-- An assignment to members of an object. -/
def put (s : Editor) (f : Marker → Marker) : Ref → Editor
  | .listed i => { s with world := { s.world with page := s.world.page.modify i f } }
  | .gone k => { s with past := s.past.modify k f }

/-- A reference after `filter` has taken the objects of this address out of the list, `static/index.html` 166-168. -/
def forget (page : Page) (past : List Marker) (mac : Text) : Ref → Ref
  | .listed i =>
    if (page[i]?.map Marker.mac) = some mac then
      .gone (past.length + ((page.take i).filter fun m => decide (m.mac = mac)).length)
    else .listed ((page.take i).filter fun m => decide (m.mac ≠ mac)).length
  | .gone k => .gone k

/-- A reference after the list has been replaced, `static/index.html` 96. -/
def replace (past : List Marker) : Ref → Ref
  | .listed i => .gone (past.length + i)
  | .gone k => .gone k

/-- The listener of device-removed, `static/index.html` 155-175, apart from the list itself. The sliders vanish with
`info.device`. -/
def removed (s : Editor) (mac : Text) : Editor :=
  let hit := (s.info.bind s.look).map Marker.mac = some mac
  { s with
    selected := s.selected.map (forget s.world.page s.past mac)
    info := if hit then none else s.info.map (forget s.world.page s.past mac)
    sliding := if hit then false else s.sliding
    past := s.past ++ s.world.page.filter fun m => decide (m.mac = mac) }

/-- The listeners of the events, `static/index.html` 145-225. -/
def handle (s : Editor) (m : Text × Option Value) : Editor :=
  match s.world.page.handle m with
  | none => { s with world := { s.world with threw := true } }
  | some page =>
    let s' :=
      match m.2.bind (Page.str "mac_address") with
      | some mac => if m.1 = "device-removed".toList then s.removed mac else s
      | none => s
    { s' with world := { s.world with page } }

/-- `update_state`, `static/index.html` 93-97. -/
def receive (s : Editor) (body : Text) : Editor :=
  match Page.receive body with
  | none => { s with world := { s.world with body := none, threw := true } }
  | some page =>
    { s with
      world := { s.world with body := none, page }
      selected := s.selected.map (replace s.past)
      info := s.info.map (replace s.past)
      past := s.past ++ s.world.page }

/-- `onMouseDown`, `Map.js` 65-82, and the listener of `select`, `static/index.html` 103-106. -/
def down (s : Editor) : Target → Editor
  | .handle => { s with lifting := true }
  | .marker i => { s with selected := some (.listed i), dragging := true, info := some (.listed i) }
  | .ground => { s with selected := none, info := none, sliding := false }

/-- `onMouseMove`, `Map.js` 94-115; without a selected device it raises an exception. -/
def move (s : Editor) (x y : Rat) (movement : Int) : Editor :=
  if s.dragging || s.lifting then
    match s.selected with
    | none => { s with world := { s.world with threw := true } }
    | some r =>
      let s := if s.dragging then s.put (Marker.drag x y) r else s
      if s.lifting then s.put (Marker.lift movement) r else s
  else s

/-- `set_position`, `static/index.html` 110-132; without a device it raises an exception. -/
def send (s : Editor) (r : Option Ref) : Editor :=
  match r.bind s.look with
  | none => { s with world := { s.world with threw := true } }
  | some m => { s with requests := s.requests ++ [m.request] }

/-- `onMouseUp`, `Map.js` 84-92, and the listener of `end-move`, `static/index.html` 134-136. -/
def up (s : Editor) : Editor :=
  { (if s.dragging || s.lifting then s.send s.selected else s) with dragging := false, lifting := false }

/-- The listener of a slider that is moved, `DeviceInfo.js` 98-110. -/
def slide (s : Editor) (a : Slider) (v : Int) (r : Ref) : Editor := { s.put (a.set v) r with sliding := true }

/-- The listener of a slider that is released, `DeviceInfo.js` 117-119, `static/index.html` 138-141. -/
def release (s : Editor) : Editor := { s.send s.info with sliding := false }

inductive Label where
  /-- a step of the server, the network or the loading of the page -/
  | world (l : World.Label)
  | down (t : Target)
  | move (x y : Rat) (movement : Int)
  | up
  | slide (a : Slider) (v : Int)
  | release
  /-- the server handles the request at this place among those under way -/
  | request (i : Nat)

inductive Step (measure : Measure) (euler : Euler) : Editor → Label → Editor → Prop
  | world {s : Editor} {l : World.Label} {w : World} : l ≠ .state → l ≠ .event → World.Step measure euler s.world l w →
      Step measure euler s (.world l) { s with world := w }
  | state {s : Editor} {body : Text} : s.world.body = some body → Step measure euler s (.world .state) (s.receive body)
  | event {s : Editor} {t : Text} {ts : List Text} : s.world.stream = some (t :: ts) →
      Step measure euler s (.world .event)
        ((understood t).foldl handle { s with world := { s.world with stream := some ts } })
  /-- the handle is drawn on the selected marker, `Map.js` 192-201 -/
  | handle {s : Editor} {i : Nat} : s.selected = some (.listed i) → Step measure euler s (.down .handle) (s.down .handle)
  | marker {s : Editor} {i : Nat} : i < s.world.page.length → Step measure euler s (.down (.marker i)) (s.down (.marker i))
  | ground {s : Editor} : Step measure euler s (.down .ground) (s.down .ground)
  | move {s : Editor} {x y : Rat} {movement : Int} : Step measure euler s (.move x y movement) (s.move x y movement)
  | up {s : Editor} : Step measure euler s .up s.up
  /-- the sliders are drawn if there is a selected device, `DeviceInfo.js` 125 -/
  | slide {s : Editor} {a : Slider} {v : Int} {r : Ref} : s.info = some r → -a.limit ≤ v → v ≤ a.limit →
      Step measure euler s (.slide a v) (s.slide a v r)
  | release {s : Editor} : s.sliding = true → s.info ≠ none → Step measure euler s .release s.release
  | request {s : Editor} {i : Nat} {path : Text} {body : Bytes} {heard : Nat → Bool} {web : Web} {es : List WebEvent}
      {reply : Reply} : s.requests[i]? = some (path, body) → (s.world.stream ≠ none → ∀ i, heard i = true) →
      s.world.web.act measure heard (route JsonBody.parse path (some body)) = some (web, es, reply) →
      Step measure euler s (.request i)
        { s with
          requests := s.requests.eraseIdx i
          world := { s.world with web, stream := s.world.stream.map (· ++ es.map (WebText.item euler)) } }

/-- The histories whose steps satisfy `ok`, oldest step first. -/
inductive Run (measure : Measure) (euler : Euler) (ok : Editor → Label → Prop) : Editor → List Label → Editor → Prop
  | nil {s : Editor} : Run measure euler ok s [] s
  | step {s t u : Editor} {ls : List Label} {l : Label} : Run measure euler ok s ls t → ok t l → Step measure euler t l u →
      Run measure euler ok s (ls ++ [l]) u

end Editor
end Pica
