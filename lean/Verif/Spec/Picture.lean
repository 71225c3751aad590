import Verif.Model.Page
import Verif.Spec.Rotation
/-! How things in space should look on the map. -/

namespace Pica.Spec
open Real

namespace Point

/-- `v` times a number. -/
def times (v : Point) (t : ℝ) : Point := ⟨t * v.x, t * v.y, t * v.z⟩

def minus (v w : Point) : Point := ⟨v.x - w.x, v.y - w.y, v.z - w.z⟩

def dot (v w : Point) : ℝ := v.x * w.x + v.y * w.y + v.z * w.z

end Point

/-- Seen from afar from above the first quadrant of the ground, at the same angle to all three axes: what points to the right,
down, and towards the viewer. -/
noncomputable def right : Point := ⟨-1 / √2, 0, 1 / √2⟩
noncomputable def down : Point := ⟨1 / √6, -2 / √6, 1 / √6⟩
noncomputable def towards : Point := ⟨1 / √3, 1 / √3, 1 / √3⟩

/-- Where a point is seen, at seven tenths of its size. -/
noncomputable def picture (v : Point) : ℝ × ℝ := (7 / 10 * v.dot right, 7 / 10 * v.dot down)

/-- The cube that stands for a device: the device is at its lowest corner, the farthest from the viewer. -/
def cube (m : Marker) : Set Point :=
  {p | m.x ≤ p.x ∧ p.x ≤ m.x + 40 ∧ m.y ≤ p.y ∧ p.y ≤ m.y + 40 ∧ m.z ≤ p.z ∧ p.z ≤ m.z + 40}

/-- The faces of the cube that look towards the viewer. -/
def sideX (m : Marker) : Set Point := {p | p ∈ cube m ∧ p.x = m.x + 40}
def sideY (m : Marker) : Set Point := {p | p ∈ cube m ∧ p.y = m.y + 40}
def sideZ (m : Marker) : Set Point := {p | p ∈ cube m ∧ p.z = m.z + 40}

/-- The edges between a face that looks towards the viewer and one that does not. -/
def rim (m : Marker) : Set Point :=
  {p | p ∈ cube m ∧ (p.x = m.x ∨ p.y = m.y ∨ p.z = m.z) ∧ (p.x = m.x + 40 ∨ p.y = m.y + 40 ∨ p.z = m.z + 40)}

/-- From the lowest corner of the cube that is seen, straight down (or up) to the ground. -/
def plumb (m : Marker) : Set Point :=
  {p | p.x = m.x + 40 ∧ p.z = m.z + 40 ∧ (0 ≤ p.y ∧ p.y ≤ m.y ∨ m.y ≤ p.y ∧ p.y ≤ 0)}

/-- A cross on the ground below this corner, along the axes. -/
def foot (m : Marker) : Set Point :=
  {p | p.y = 0 ∧ (p.x = m.x + 40 ∧ |p.z - (m.z + 40)| ≤ 10 ∨ p.z = m.z + 40 ∧ |p.x - (m.x + 40)| ≤ 10)}

/-- One step in the direction in which a device with this yaw and pitch sees things straight ahead. -/
def Ahead (yaw pitch : ℝ) (v : Point) : Prop := turned yaw pitch 0 v = ⟨0, 0, 1⟩

/-- From 0 up to this angle, or down to it, without the angle itself. -/
def Within (angle t : ℝ) : Prop := 0 ≤ t ∧ t < angle ∨ angle < t ∧ t ≤ 0

/-- The part of a disc between the forward axis and the yaw. -/
def yawSector (radius yaw : ℝ) : Set Point :=
  {v | ∃ ρ t w, 0 ≤ ρ ∧ ρ ≤ radius ∧ Within yaw t ∧ Ahead t 0 w ∧ v = w.times ρ}

/-- The part of an upright disc, turned by the yaw, between the ground and the pitch. -/
def pitchSector (radius yaw pitch : ℝ) : Set Point :=
  {v | ∃ ρ t w, 0 ≤ ρ ∧ ρ ≤ radius ∧ Within pitch t ∧ Ahead yaw t w ∧ v = w.times ρ}

end Pica.Spec
