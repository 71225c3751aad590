import Verif.Spec.Rotation
import Mathlib.Analysis.Quaternion
/-!
The rotation of a position: `src/bin/http-server/position.rs` 93-98 and 106, with `Quat::from_euler` and `Quat::mul_vec3` of
version 0.25 of the `glam` crate, which is not part of this repository.

A quaternion is made of three turns about the axes by half of each angle, and a vector is multiplied by it with the formula
of `mulVec`. Each of these functions is only described by how exact its results are; the bounds leave room for the errors of
a few operations with `f32`, in any order.
-/

namespace Pica
open Real Quaternion Spec

/-- The factor of `f32::to_radians`. -/
noncomputable def radF : ℝ := 9370165 / 536870912

/-- `(n as f32).to_radians()`, `src/bin/http-server/position.rs` 95-97. -/
noncomputable def Arith.toRadians (A : Arith) (n : ℤ) : ℝ := A.rnd (n * radF)

/-- `Quat::from_rotation_x`. -/
noncomputable def halfX (a : ℝ) : ℍ[ℝ] := ⟨cos (a / 2), sin (a / 2), 0, 0⟩
/-- `Quat::from_rotation_y`. -/
noncomputable def halfY (a : ℝ) : ℍ[ℝ] := ⟨cos (a / 2), 0, sin (a / 2), 0⟩
/-- `Quat::from_rotation_z`. -/
noncomputable def halfZ (a : ℝ) : ℍ[ℝ] := ⟨cos (a / 2), 0, 0, sin (a / 2)⟩

/-- `Quat::mul_vec3`: `v * (w² - b·b) + b * 2(v·b) + (b × v) * 2w`. -/
noncomputable def mulVec (q : ℍ[ℝ]) (v : Point) : Point :=
  let s := q.re ^ 2 - (q.imI ^ 2 + q.imJ ^ 2 + q.imK ^ 2)
  let t := 2 * (v.x * q.imI + v.y * q.imJ + v.z * q.imK)
  let u := 2 * q.re
  ⟨v.x * s + q.imI * t + (q.imJ * v.z - q.imK * v.y) * u,
   v.y * s + q.imJ * t + (q.imK * v.x - q.imI * v.z) * u,
   v.z * s + q.imK * t + (q.imI * v.y - q.imJ * v.x) * u⟩

/-- `Quat::from_euler(EulerRot::ZXY, roll, pitch, yaw)`, `src/bin/http-server/position.rs` 93-98: the product of the turns about
the z, x and y axes. -/
def FromEuler (A : Arith) (yaw : Int16) (pitch : Int8) (roll : Int16) (q : ℍ[ℝ]) : Prop :=
  ∃ qz qx qy q₁ : ℍ[ℝ],
    ‖qz - halfZ (A.toRadians roll.toInt)‖ ≤ 2⁻¹ ^ 20 ∧ ‖qx - halfX (A.toRadians pitch.toInt)‖ ≤ 2⁻¹ ^ 20 ∧
    ‖qy - halfY (A.toRadians yaw.toInt)‖ ≤ 2⁻¹ ^ 20 ∧ ‖q₁ - qz * qx‖ ≤ 2⁻¹ ^ 18 ∧ ‖q - q₁ * qy‖ ≤ 2⁻¹ ^ 18

/-- `rotation.mul_vec3(delta)`, `src/bin/http-server/position.rs` 106, for the rotation of 93-98. -/
def Glam (A : Arith) (rotate : Rotate) : Prop :=
  ∀ (yaw : Int16) (pitch : Int8) (roll : Int16) (x y z : ℝ), ∃ q : ℍ[ℝ], FromEuler A yaw pitch roll q ∧
    |(rotate yaw pitch roll x y z).x.val - (mulVec q ⟨x, y, z⟩).x| ≤ 2⁻¹ ^ 18 * (⟨x, y, z⟩ : Point).norm ∧
    |(rotate yaw pitch roll x y z).y.val - (mulVec q ⟨x, y, z⟩).y| ≤ 2⁻¹ ^ 18 * (⟨x, y, z⟩ : Point).norm ∧
    |(rotate yaw pitch roll x y z).z.val - (mulVec q ⟨x, y, z⟩).z| ≤ 2⁻¹ ^ 18 * (⟨x, y, z⟩ : Point).norm

end Pica
