import Verif.Model.Editor
import Verif.Spec.Page
import Verif.Spec.Rotation
/-! What the user of the page may expect. -/

namespace Pica.Spec

/-- Where a marker is drawn on the map, `static/src/components/Map.js` 181-183. -/
def drawn (m : Marker) : Rat × Rat := (-m.x + m.y, m.z - m.y)

/-- The place on the ground below the point `(x, y)` of the map for a device of this elevation: the coordinates at which it is
drawn there. -/
def below (elevation : Int) (x y : Rat) : Rat × Rat := (elevation - x, y + elevation)

/-- A place that devices can be dragged to. -/
def OnGrid (p : Rat × Rat) : Prop := -560 ≤ p.1 ∧ p.1 ≤ 560 ∧ -560 ≤ p.2 ∧ p.2 ≤ 560

/-- The position has the numbers of the marker. -/
def SameNumbers (p : Position) (m : Marker) : Prop :=
  p.x.toInt = m.x ∧ p.y.toInt = m.y ∧ p.z.toInt = m.z ∧ p.yaw.toInt = m.yaw ∧ p.pitch.toInt = m.pitch ∧ p.roll.toInt = m.roll

/-- The user has one mouse, presses one of its buttons at a time and lifts no device above 32767. -/
def CarefulUser (s : Editor) : Editor.Label → Prop
  | .down _ => s.dragging = false ∧ s.lifting = false ∧ s.sliding = false
  | .up => s.dragging = true ∨ s.lifting = true → ∀ r m, s.selected = some r → s.look r = some m → m.y ≤ 32767
  | .release => ∀ r m, s.info = some r → s.look r = some m → m.y ≤ 32767
  | .world l => FitsStep s.world l
  | .move .. | .slide .. | .request _ => True

/-- The user is not doing anything and the server has handled the requests of the page. -/
def Idle (s : Editor) : Prop := s.dragging = false ∧ s.lifting = false ∧ s.sliding = false ∧ s.requests = []

/-- A step of the user, of the server, or of the page with an event. -/
def InUse : Editor.Label → Prop
  | .world l => ServerStep l ∨ l = .event
  | .down _ | .move .. | .up | .slide .. | .release | .request _ => True

/-- The requests are handled in the order in which they were sent, and no other is sent. -/
def InOrder : Editor.Label → Prop
  | .request i => i = 0
  | .world l => l = .shuffle ∨ l = .event
  | .down _ | .move .. | .slide .. => True
  | .up | .release => False

/-- The user lets go of this object: the mouse or a slider. -/
def LetsGo (s : Editor) (r : Ref) : Editor.Label → Prop
  | .up => (s.dragging = true ∨ s.lifting = true) ∧ s.selected = some r
  | .release => s.info = some r
  | _ => False

/-- The address of the device that a reference of the page stands for. -/
def target (s : Editor) (r : Option Ref) : Option Text := (r.bind s.look).map Marker.mac

/-- The device is where it was and looks where it did. -/
def Unmoved (i j : Info) : Prop :=
  j.category = i.category ∧ j.mac = i.mac ∧ j.position.x = i.position.x ∧ j.position.y = i.position.y ∧
    j.position.z = i.position.z ∧ (|i.position.pitch.toInt| ≠ 90 → ∀ q, sight j.position q = sight i.position q)

end Pica.Spec
