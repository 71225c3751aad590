import Verif.Spec.Geometry
/-! Turning a point about the axes, and how a turned device sees it. -/

namespace Pica.Spec
open Real

/-- A point in space. -/
structure Point where
  x : ℝ
  y : ℝ
  z : ℝ

namespace Point

noncomputable def norm (v : Point) : ℝ := √(v.x ^ 2 + v.y ^ 2 + v.z ^ 2)

/-- The distance from the vertical axis. -/
noncomputable def flat (v : Point) : ℝ := √(v.x ^ 2 + v.z ^ 2)

/-- A turn about the y axis, from the z to the x axis. -/
noncomputable def turnY (a : ℝ) (v : Point) : Point := ⟨v.x * cos a + v.z * sin a, v.y, v.z * cos a - v.x * sin a⟩

/-- A turn about the x axis, from the y to the z axis. -/
noncomputable def turnX (a : ℝ) (v : Point) : Point := ⟨v.x, v.y * cos a - v.z * sin a, v.z * cos a + v.y * sin a⟩

/-- A turn about the z axis, from the x to the y axis. -/
noncomputable def turnZ (a : ℝ) (v : Point) : Point := ⟨v.x * cos a - v.y * sin a, v.y * cos a + v.x * sin a, v.z⟩

end Point

/-- Radians. -/
noncomputable def radians (a : ℝ) : ℝ := a * (π / 180)

/-- The point turned by yaw, then by pitch, then by roll, in degrees. -/
noncomputable def turned (yaw pitch roll : ℝ) (v : Point) : Point :=
  ((v.turnY (radians yaw)).turnX (radians pitch)).turnZ (radians roll)

/-- From one position to another. -/
noncomputable def offset (p q : Position) : Point :=
  ⟨(q.x.toInt : ℝ) - p.x.toInt, (q.y.toInt : ℝ) - p.y.toInt, (q.z.toInt : ℝ) - p.z.toInt⟩

/-- The offset of the other position as it appears to a device that is turned. -/
noncomputable def sight (p q : Position) : Point := turned p.yaw.toInt p.pitch.toInt p.roll.toInt (offset p q)

/-- Angles in degrees that differ by at most `ε`, up to full turns. -/
def Agree (ε a b : ℝ) : Prop := ∃ k : ℤ, |a - (b + 360 * k)| ≤ ε

/-- The rotation is computed with an error of at most 2^-12 of the length in each coordinate. -/
def Accurate (rotate : Rotate) : Prop :=
  ∀ (yaw : Int16) (pitch : Int8) (roll : Int16) (x y z : ℝ),
    |(rotate yaw pitch roll x y z).x.val - (turned yaw.toInt pitch.toInt roll.toInt ⟨x, y, z⟩).x| ≤ 2⁻¹ ^ 12 * (⟨x, y, z⟩ : Point).norm ∧
    |(rotate yaw pitch roll x y z).y.val - (turned yaw.toInt pitch.toInt roll.toInt ⟨x, y, z⟩).y| ≤ 2⁻¹ ^ 12 * (⟨x, y, z⟩ : Point).norm ∧
    |(rotate yaw pitch roll x y z).z.val - (turned yaw.toInt pitch.toInt roll.toInt ⟨x, y, z⟩).z| ≤ 2⁻¹ ^ 12 * (⟨x, y, z⟩ : Point).norm

end Pica.Spec
