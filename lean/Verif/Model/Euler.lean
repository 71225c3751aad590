import Verif.Model.Glam
import Verif.Model.WebText
import Mathlib.Analysis.SpecialFunctions.Trigonometric.Inverse
/-!
The angles that are shown for a position: `src/bin/http-server/position.rs` 52-56, with `Quat::to_euler` of version 0.25 of the
`glam` crate. As in `Verif/Model/Glam.lean`, its functions are only described by how exact their results are. Nothing is said
of the angles of a rotation that is almost vertical, where the roll and the yaw are not determined by the rotation.
-/

namespace Pica
open Real Quaternion Spec

/-- `f32::atan2`. The angle of a negative number with zero may be half a turn to either side: the sign of the zero decides. -/
def Atan2 (n d t : ℝ) : Prop := ∃ θ r, |θ| ≤ π ∧ 0 ≤ r ∧ d = r * cos θ ∧ n = r * sin θ ∧ |t - θ| ≤ 2⁻¹ ^ 20

/-- `q.to_euler(EulerRot::ZXY)` is `(first, second, third)`: `atan2(-2(xy - wz), w² - x² + y² - z²)`, `asin(2(yz + wx))` and
`atan2(-2(xz - wy), w² - x² - y² + z²)`. -/
def ToEuler (q : ℍ[ℝ]) (first second third : ℝ) : Prop :=
  ∃ s, |s - 2 * (q.imJ * q.imK + q.re * q.imI)| ≤ 2⁻¹ ^ 18 ∧ (|s| ≤ 9999 / 10000 →
    |second - arcsin s| ≤ 2⁻¹ ^ 20 ∧
    (∃ n d, |n - -2 * (q.imI * q.imJ - q.re * q.imK)| ≤ 2⁻¹ ^ 18 ∧
      |d - (q.re ^ 2 - q.imI ^ 2 + q.imJ ^ 2 - q.imK ^ 2)| ≤ 2⁻¹ ^ 18 ∧ Atan2 n d first) ∧
    ∃ n d, |n - -2 * (q.imI * q.imK - q.re * q.imJ)| ≤ 2⁻¹ ^ 18 ∧
      |d - (q.re ^ 2 - q.imI ^ 2 - q.imJ ^ 2 + q.imK ^ 2)| ≤ 2⁻¹ ^ 18 ∧ Atan2 n d third)

/-- The angles written by `src/bin/http-server/position.rs` 52-56 for the rotation of 93-98. -/
def Shown (A : Arith) (euler : Euler) : Prop :=
  ∀ p : Position, ∃ q : ℍ[ℝ], ∃ roll pitch yaw : ℝ, FromEuler A p.yaw p.pitch p.roll q ∧ ToEuler q roll pitch yaw ∧
    euler p = (Int16.ofInt (roundAway (A.toDegrees yaw)), Int8.ofInt (roundAway (A.toDegrees pitch)),
      Int16.ofInt (roundAway (A.toDegrees roll)))

end Pica
