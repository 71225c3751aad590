import Verif.Model.Pica
import Mathlib.Analysis.SpecialFunctions.Trigonometric.Arctan
/-!
`src/bin/http-server/position.rs`: positions, distances and angles.

Floating point numbers are real numbers, and an operation of `f32` is the real operation followed by a rounding. The
rounding is a parameter: the properties hold for all of those described by `Arith`, among them the IEEE 754 one
(`Verif/Proofs/Binary32.lean`). Overflow and NaN are left out: the values of this file stay below 2^34. The rotation of
a vector, `Quat::from_euler` and `Quat::mul_vec3` of the `glam` crate, is any function with finite results. The length of
a vector is the one of `glam`: the square root of `x * x + y * y + z * z`.
-/

namespace Pica

/-- An arithmetic of floating point numbers: how results are rounded, and `f32::atan`. -/
structure Arith where
  rnd : ℝ → ℝ
  atan : ℝ → ℝ
  /-- small integers are floating point numbers -/
  exact : ∀ n : ℤ, |n| ≤ 2 ^ 24 → rnd n = n
  nonneg : ∀ x, 0 ≤ x → 0 ≤ rnd x
  nonpos : ∀ x, x ≤ 0 → rnd x ≤ 0
  /-- the error is at most one unit in the last place, or below the normal numbers -/
  err : ∀ x, |rnd x - x| ≤ 2⁻¹ ^ 23 * |x| + 2⁻¹ ^ 126
  atan_nonneg : ∀ x, 0 ≤ x → 0 ≤ atan x
  atan_nonpos : ∀ x, x ≤ 0 → atan x ≤ 0
  /-- the same for `atan`, with twice the error -/
  atan_err : ∀ x, |atan x - Real.arctan x| ≤ 2⁻¹ ^ 22 * |Real.arctan x| + 2⁻¹ ^ 126

/-- A finite `f32`: its value and its sign bit, which only matters for zero. -/
structure F32 where
  val : ℝ
  neg : Bool
  pos_sign : 0 < val → neg = false
  neg_sign : val < 0 → neg = true

/-- `f32::signum`: 1 for +0 and -1 for -0. -/
noncomputable def F32.signum (f : F32) : ℝ := if f.neg then -1 else 1

/-- `Vec3`. -/
structure Vec3 where
  x : F32
  y : F32
  z : F32

/-- `std::f32::consts::PI`. -/
noncomputable def piF : ℝ := 13176795 / 4194304
/-- `std::f32::consts::FRAC_PI_2`. -/
noncomputable def halfPiF : ℝ := 13176795 / 8388608
/-- The factor of `f32::to_degrees`, 57.2957795… as `f32`. -/
noncomputable def degF : ℝ := 15019745 / 262144

/-- `struct Position`, `src/bin/http-server/position.rs` 20-24: the arguments of `Position::new` (90-100), from which the
vector and the quaternion are computed. -/
structure Position where
  x : Int16
  y : Int16
  z : Int16
  yaw : Int16
  pitch : Int8
  roll : Int16
  deriving DecidableEq

/-- `Position::default`, `src/bin/http-server/position.rs` 123-127. -/
def Position.default : Position := ⟨0, 0, 0, 0, 0, 0⟩

/-- `self.rotation.mul_vec3(delta)`, `src/bin/http-server/position.rs` 106, with the rotation of 93-98. -/
abbrev Rotate := Int16 → Int8 → Int16 → ℝ → ℝ → ℝ → Vec3

namespace Arith
variable (A : Arith)

open Classical in
/-- `azimuth`, `src/bin/http-server/position.rs` 69-82, with `checked_div` (61-67). -/
noncomputable def azimuth (d : Vec3) : ℝ :=
  A.rnd ((if d.z.val = 0 then (if d.x.val = 0 then 0 else A.rnd (d.x.signum * halfPiF))
      else A.atan (A.rnd (d.x.val / d.z.val))) +
    if 0 ≤ d.z.val then 0 else A.rnd (d.x.signum * piF))

/-- The root of `src/bin/http-server/position.rs` 85: `f32::sqrt(delta.x.powi(2) + delta.z.powi(2))`. -/
noncomputable def flat (d : Vec3) : ℝ :=
  A.rnd (Real.sqrt (A.rnd (A.rnd (d.x.val * d.x.val) + A.rnd (d.z.val * d.z.val))))

open Classical in
/-- `elevation`, `src/bin/http-server/position.rs` 84-87. -/
noncomputable def elevation (d : Vec3) : ℝ :=
  if A.flat d = 0 then A.rnd (d.y.signum * halfPiF) else A.atan (A.rnd (d.y.val / A.flat d))

/-- `f32::to_degrees`. -/
noncomputable def toDegrees (v : ℝ) : ℝ := A.rnd (v * degF)

end Arith

/-- `f32::round`: halves are rounded away from zero. -/
noncomputable def roundAway (v : ℝ) : ℤ := if 0 ≤ v then ⌊v + 1 / 2⌋ else -⌊-v + 1 / 2⌋

/-- A panic of the web server. -/
inductive WebPanic where
  /-- the assertions of `src/bin/http-server/position.rs` 111-112 -/
  | angle
  /-- the assertion of `src/bin/http-server/main.rs` 224 -/
  | asymmetric
  /-- `events.send(..).unwrap()` without receiver -/
  | noListener
  /-- `devices.lock().unwrap()` after a panic of a task that held the lock -/
  | poisoned
  /-- `body::to_bytes(..).await.unwrap()` -/
  | body
  deriving DecidableEq

namespace Arith
variable (A : Arith)

/-- The difference of two coordinates, `src/bin/http-server/position.rs` 103. -/
noncomputable def diff (a b : Int16) : ℝ := A.rnd (b.toInt - a.toInt)

/-- `delta.length()`, `src/bin/http-server/position.rs` 105. -/
noncomputable def length (x y z : ℝ) : ℝ :=
  A.rnd (Real.sqrt (A.rnd (A.rnd (A.rnd (x * x) + A.rnd (y * y)) + A.rnd (z * z))))

/-- The distance of `src/bin/http-server/position.rs` 103-105 before it is cut off. -/
noncomputable def distance (p q : Position) : ℝ := A.length (A.diff p.x q.x) (A.diff p.y q.y) (A.diff p.z q.z)

open Classical in
/-- `compute_range_azimuth_elevation`, `src/bin/http-server/position.rs` 102-120. -/
noncomputable def compute (rotate : Rotate) (p q : Position) : Except WebPanic RangingMeasurement :=
  let direction := rotate p.yaw p.pitch p.roll (A.diff p.x q.x) (A.diff p.y q.y) (A.diff p.z q.z)
  let azimuth := roundAway (A.toDegrees (A.azimuth direction))
  let elevation := roundAway (A.toDegrees (A.elevation direction))
  if ¬(-180 ≤ azimuth ∧ azimuth ≤ 180) then .error .angle
  else if ¬(-90 ≤ elevation ∧ elevation ≤ 90) then .error .angle
  else .ok {
    range := UInt16.ofNat ⌊min (A.distance p q) 65535⌋₊
    azimuth := Int16.ofInt azimuth
    elevation := Int8.ofInt elevation }

end Arith
end Pica
