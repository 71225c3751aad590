import Verif.Model.Position
/-! Distances and angles in space, in units of length and radians. -/

namespace Pica.Spec
open Real

/-- The distance of two positions. -/
noncomputable def dist (p q : Position) : ℝ :=
  √(((q.x.toInt : ℝ) - p.x.toInt) ^ 2 + ((q.y.toInt : ℝ) - p.y.toInt) ^ 2 + ((q.z.toInt : ℝ) - p.z.toInt) ^ 2)

/-- Looking along the z axis, the point is seen at the angle `θ`, to the side of the x axis if it is positive. -/
def Bearing (x z θ : ℝ) : Prop := -π < θ ∧ θ ≤ π ∧ ∃ r, 0 < r ∧ z = r * cos θ ∧ x = r * sin θ

/-- The point is seen at the angle `φ` above the plane of the x and z axes. -/
def Rise (x y z φ : ℝ) : Prop :=
  -(π / 2) ≤ φ ∧ φ ≤ π / 2 ∧ ∃ r, 0 < r ∧ y = r * sin φ ∧ √(x ^ 2 + z ^ 2) = r * cos φ

/-- Degrees. -/
noncomputable def degrees (θ : ℝ) : ℝ := θ * (180 / π)

/-- The vector of a finite number of units. -/
noncomputable def vec (x y z : ℝ) : Vec3 :=
  let f (v : ℝ) : F32 := ⟨v, decide (v < 0), fun h => decide_eq_false h.not_gt, fun h => decide_eq_true h⟩
  ⟨f x, f y, f z⟩

end Pica.Spec
