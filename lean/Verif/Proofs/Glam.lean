import Verif.Model.Glam
import Verif.Proofs.Rotation
import Mathlib.Analysis.SpecialFunctions.Trigonometric.Bounds
/-! The rotation by quaternions is accurate. -/

namespace Pica
open Real Quaternion Spec

/-- A vector as a quaternion. -/
noncomputable def pure (v : Point) : ℍ[ℝ] := ⟨0, v.x, v.y, v.z⟩

theorem pure_re (v : Point) : (pure v).re = 0 := rfl
theorem pure_imI (v : Point) : (pure v).imI = v.x := rfl
theorem pure_imJ (v : Point) : (pure v).imJ = v.y := rfl
theorem pure_imK (v : Point) : (pure v).imK = v.z := rfl
theorem halfX_re (a : ℝ) : (halfX a).re = cos (a / 2) := rfl
theorem halfX_imI (a : ℝ) : (halfX a).imI = sin (a / 2) := rfl
theorem halfX_imJ (a : ℝ) : (halfX a).imJ = 0 := rfl
theorem halfX_imK (a : ℝ) : (halfX a).imK = 0 := rfl
theorem halfY_re (a : ℝ) : (halfY a).re = cos (a / 2) := rfl
theorem halfY_imI (a : ℝ) : (halfY a).imI = 0 := rfl
theorem halfY_imJ (a : ℝ) : (halfY a).imJ = sin (a / 2) := rfl
theorem halfY_imK (a : ℝ) : (halfY a).imK = 0 := rfl
theorem halfZ_re (a : ℝ) : (halfZ a).re = cos (a / 2) := rfl
theorem halfZ_imI (a : ℝ) : (halfZ a).imI = 0 := rfl
theorem halfZ_imJ (a : ℝ) : (halfZ a).imJ = 0 := rfl
theorem halfZ_imK (a : ℝ) : (halfZ a).imK = sin (a / 2) := rfl

theorem quat_norm (q : ℍ[ℝ]) : ‖q‖ = √(q.re ^ 2 + q.imI ^ 2 + q.imJ ^ 2 + q.imK ^ 2) := by
  have h := normSq_eq_norm_mul_self q
  rw [normSq_def'] at h
  rw [h, Real.sqrt_mul_self (norm_nonneg _)]

theorem norm_pure (v : Point) : ‖pure v‖ = v.norm := by
  rw [quat_norm]; simp only [pure_re, pure_imI, pure_imJ, pure_imK]; unfold Point.norm; congr 1; ring

theorem norm_halfX (a : ℝ) : ‖halfX a‖ = 1 := by
  rw [quat_norm]; simp [halfX_re, halfX_imI, halfX_imJ, halfX_imK]
theorem norm_halfY (a : ℝ) : ‖halfY a‖ = 1 := by
  rw [quat_norm]; simp [halfY_re, halfY_imI, halfY_imJ, halfY_imK]
theorem norm_halfZ (a : ℝ) : ‖halfZ a‖ = 1 := by
  rw [quat_norm]; simp [halfZ_re, halfZ_imI, halfZ_imJ, halfZ_imK]

theorem chord (a b : ℝ) : √((cos (a / 2) - cos (b / 2)) ^ 2 + (sin (a / 2) - sin (b / 2)) ^ 2) ≤ |a - b| / 2 := by
  rw [Real.sqrt_le_left (by positivity), div_pow, sq_abs]
  have h1 := sin_sq_add_cos_sq (a / 2)
  have h2 := sin_sq_add_cos_sq (b / 2)
  have h3 : 1 - (a / 2 - b / 2) ^ 2 / 2 ≤ cos (a / 2 - b / 2) := one_sub_sq_div_two_le_cos
  rw [cos_sub] at h3
  nlinarith

theorem halfX_close (a b : ℝ) : ‖halfX a - halfX b‖ ≤ |a - b| / 2 := by
  rw [quat_norm]; refine le_trans (le_of_eq ?_) (chord a b); simp [halfX_re, halfX_imI, halfX_imJ, halfX_imK]
theorem halfY_close (a b : ℝ) : ‖halfY a - halfY b‖ ≤ |a - b| / 2 := by
  rw [quat_norm]; refine le_trans (le_of_eq ?_) (chord a b); simp [halfY_re, halfY_imI, halfY_imJ, halfY_imK]
theorem halfZ_close (a b : ℝ) : ‖halfZ a - halfZ b‖ ≤ |a - b| / 2 := by
  rw [quat_norm]; refine le_trans (le_of_eq ?_) (chord a b); simp [halfZ_re, halfZ_imI, halfZ_imJ, halfZ_imK]

/-- The formula of `mulVec` is conjugation. -/
theorem mulVec_eq (q : ℍ[ℝ]) (v : Point) : pure (mulVec q v) = q * pure v * star q := by
  ext <;> simp [pure_re, pure_imI, pure_imJ, pure_imK, mulVec] <;> ring

theorem pure_turnX (a : ℝ) (v : Point) : pure (v.turnX a) = halfX a * pure v * star (halfX a) := by
  have h1 : cos a = cos (a / 2) ^ 2 - sin (a / 2) ^ 2 := by
    rw [← cos_two_mul' (a / 2)]; congr 1; ring
  have h2 : sin a = 2 * sin (a / 2) * cos (a / 2) := by rw [← sin_two_mul]; congr 1; ring
  have h3 := sin_sq_add_cos_sq (a / 2)
  ext
  · simp [pure_re, pure_imI, pure_imJ, pure_imK, halfX_re, halfX_imI, halfX_imJ, halfX_imK, Point.turnX]; ring
  · simp [pure_re, pure_imI, pure_imJ, pure_imK, halfX_re, halfX_imI, halfX_imJ, halfX_imK, Point.turnX]; linear_combination (-v.x) * h3
  · simp [pure_re, pure_imI, pure_imJ, pure_imK, halfX_re, halfX_imI, halfX_imJ, halfX_imK, Point.turnX]; rw [h1, h2]; ring
  · simp [pure_re, pure_imI, pure_imJ, pure_imK, halfX_re, halfX_imI, halfX_imJ, halfX_imK, Point.turnX]; rw [h1, h2]; ring

theorem pure_turnY (a : ℝ) (v : Point) : pure (v.turnY a) = halfY a * pure v * star (halfY a) := by
  have h1 : cos a = cos (a / 2) ^ 2 - sin (a / 2) ^ 2 := by
    rw [← cos_two_mul' (a / 2)]; congr 1; ring
  have h2 : sin a = 2 * sin (a / 2) * cos (a / 2) := by rw [← sin_two_mul]; congr 1; ring
  have h3 := sin_sq_add_cos_sq (a / 2)
  ext
  · simp [pure_re, pure_imI, pure_imJ, pure_imK, halfY_re, halfY_imI, halfY_imJ, halfY_imK, Point.turnY]; ring
  · simp [pure_re, pure_imI, pure_imJ, pure_imK, halfY_re, halfY_imI, halfY_imJ, halfY_imK, Point.turnY]; rw [h1, h2]; ring
  · simp [pure_re, pure_imI, pure_imJ, pure_imK, halfY_re, halfY_imI, halfY_imJ, halfY_imK, Point.turnY]; linear_combination (-v.y) * h3
  · simp [pure_re, pure_imI, pure_imJ, pure_imK, halfY_re, halfY_imI, halfY_imJ, halfY_imK, Point.turnY]; rw [h1, h2]; ring

theorem pure_turnZ (a : ℝ) (v : Point) : pure (v.turnZ a) = halfZ a * pure v * star (halfZ a) := by
  have h1 : cos a = cos (a / 2) ^ 2 - sin (a / 2) ^ 2 := by
    rw [← cos_two_mul' (a / 2)]; congr 1; ring
  have h2 : sin a = 2 * sin (a / 2) * cos (a / 2) := by rw [← sin_two_mul]; congr 1; ring
  have h3 := sin_sq_add_cos_sq (a / 2)
  ext
  · simp [pure_re, pure_imI, pure_imJ, pure_imK, halfZ_re, halfZ_imI, halfZ_imJ, halfZ_imK, Point.turnZ]; ring
  · simp [pure_re, pure_imI, pure_imJ, pure_imK, halfZ_re, halfZ_imI, halfZ_imJ, halfZ_imK, Point.turnZ]; rw [h1, h2]; ring
  · simp [pure_re, pure_imI, pure_imJ, pure_imK, halfZ_re, halfZ_imI, halfZ_imJ, halfZ_imK, Point.turnZ]; rw [h1, h2]; ring
  · simp [pure_re, pure_imI, pure_imJ, pure_imK, halfZ_re, halfZ_imI, halfZ_imJ, halfZ_imK, Point.turnZ]; linear_combination (-v.z) * h3

theorem pure_turned (yaw pitch roll : ℝ) (v : Point) : pure (turned yaw pitch roll v) =
    (halfZ (radians roll) * halfX (radians pitch) * halfY (radians yaw)) * pure v *
      star (halfZ (radians roll) * halfX (radians pitch) * halfY (radians yaw)) := by
  unfold turned
  rw [pure_turnZ, pure_turnX, pure_turnY]
  simp only [star_mul, mul_assoc]

theorem mul_close {a b a' b' : ℍ[ℝ]} {δ ε : ℝ} (ha : ‖a' - a‖ ≤ δ) (hb : ‖b' - b‖ ≤ ε) (h1 : ‖a‖ = 1) (h2 : ‖b‖ = 1) :
    ‖a' * b' - a * b‖ ≤ δ + ε + δ * ε := by
  have e : a' * b' - a * b = (a' - a) * b + a * (b' - b) + (a' - a) * (b' - b) := by noncomm_ring
  rw [e]
  refine (norm_add_le _ _).trans (add_le_add ((norm_add_le _ _).trans (add_le_add ?_ ?_)) ?_)
  · rw [norm_mul, h2, mul_one]; exact ha
  · rw [norm_mul, h1, one_mul]; exact hb
  · rw [norm_mul]; exact mul_le_mul ha hb (norm_nonneg _) ((norm_nonneg _).trans ha)

theorem conj_close {a a' : ℍ[ℝ]} {δ : ℝ} (v : Point) (ha : ‖a' - a‖ ≤ δ) (h1 : ‖a‖ = 1) :
    ‖a' * pure v * star a' - a * pure v * star a‖ ≤ (2 * δ + δ ^ 2) * v.norm := by
  have e : a' * pure v * star a' - a * pure v * star a = (a' - a) * pure v * star a + a * pure v * star (a' - a) +
      (a' - a) * pure v * star (a' - a) := by rw [star_sub]; noncomm_ring
  have hd := (norm_nonneg _).trans ha
  have hv := v.norm_nonneg
  have b1 : ‖(a' - a) * pure v * star a‖ ≤ δ * v.norm := by
    rw [norm_mul, norm_mul, norm_star, norm_pure, h1, mul_one]; exact mul_le_mul_of_nonneg_right ha hv
  have b2 : ‖a * pure v * star (a' - a)‖ ≤ δ * v.norm := by
    rw [norm_mul, norm_mul, norm_star, norm_pure, h1, one_mul, mul_comm]; exact mul_le_mul_of_nonneg_right ha hv
  have b3 : ‖(a' - a) * pure v * star (a' - a)‖ ≤ δ ^ 2 * v.norm := by
    rw [norm_mul, norm_mul, norm_star, norm_pure]
    have : ‖a' - a‖ * ‖a' - a‖ ≤ δ ^ 2 := by rw [sq]; exact mul_le_mul ha ha (norm_nonneg _) hd
    nlinarith
  rw [e]
  have b4 := norm_add_le ((a' - a) * pure v * star a) (a * pure v * star (a' - a))
  have b5 := norm_add_le ((a' - a) * pure v * star a + a * pure v * star (a' - a)) ((a' - a) * pure v * star (a' - a))
  linarith

theorem radF_err : |radF - π / 180| ≤ 15 / 10 ^ 11 := by
  have h1 := pi_gt_d20
  have h2 := pi_lt_d20
  unfold radF
  rw [abs_le]
  constructor <;> norm_num at * <;> linarith

theorem Arith.radians_err (A : Arith) (n : ℤ) (b : ℝ) (h : |(n : ℝ)| ≤ b) :
    |A.toRadians n - radians n| ≤ 225 / 10 ^ 11 * b + 1 / 10 ^ 9 := by
  have h1 := A.err' (n * radF)
  have h2 : |(n : ℝ) * radF - n * (π / 180)| ≤ 15 / 10 ^ 11 * b := by
    rw [← mul_sub, abs_mul, mul_comm]
    exact mul_le_mul radF_err h (abs_nonneg _) (by norm_num)
  have h3 : |(n : ℝ) * radF| ≤ b * (175 / 10000) := by
    rw [abs_mul]
    exact mul_le_mul h (by unfold radF; norm_num [abs_of_pos]) (abs_nonneg _) ((abs_nonneg _).trans h)
  have h4 := abs_sub_le (A.toRadians n) ((n : ℝ) * radF) (n * (π / 180))
  have hb : 0 ≤ b := (abs_nonneg _).trans h
  unfold Arith.toRadians radians at *
  norm_num at *
  linarith

theorem coord_close {v w : Point} {δ : ℝ} (h : ‖pure v - pure w‖ ≤ δ) : |v.x - w.x| ≤ δ ∧ |v.y - w.y| ≤ δ ∧ |v.z - w.z| ≤ δ := by
  rw [quat_norm] at h
  simp only [re_sub, imI_sub, imJ_sub, imK_sub, pure_re, pure_imI, pure_imJ, pure_imK, sub_zero] at h
  have key : ∀ t s : ℝ, t ^ 2 ≤ s → |t| ≤ √s := fun t s h => Real.abs_le_sqrt h
  refine ⟨(key _ _ ?_).trans h, (key _ _ ?_).trans h, (key _ _ ?_).trans h⟩ <;>
    nlinarith [sq_nonneg (v.x - w.x), sq_nonneg (v.y - w.y), sq_nonneg (v.z - w.z)]

theorem glam_accurate {A : Arith} {rotate : Rotate} (h : Glam A rotate) : Accurate rotate := by
  intro yaw pitch roll x y z
  obtain ⟨q, ⟨qz, qx, qy, q₁, hz, hx, hy, h1, h2⟩, hrx, hry, hrz⟩ := h yaw pitch roll x y z
  have by1 := A.radians_err yaw.toInt 32768 (by
    have h1 := Arith.int16_bounds yaw
    rw [abs_le]; constructor <;> norm_cast <;> omega)
  have by2 := A.radians_err roll.toInt 32768 (by
    have h1 := Arith.int16_bounds roll
    rw [abs_le]; constructor <;> norm_cast <;> omega)
  have by3 := A.radians_err pitch.toInt 128 (by
    have h1 := pitch.le_toInt
    have h2 := pitch.toInt_lt
    rw [abs_le]; constructor <;> norm_cast <;> omega)
  have tri : ∀ {u v w : ℍ[ℝ]} {δ ε : ℝ}, ‖u - v‖ ≤ δ → ‖v - w‖ ≤ ε → ‖u - w‖ ≤ δ + ε := by
    intro u v w δ ε h1 h2
    have : u - w = (u - v) + (v - w) := by abel
    rw [this]
    exact (norm_add_le _ _).trans (add_le_add h1 h2)
  have ez : ‖qz - halfZ (radians roll.toInt)‖ ≤ 39 / 10 ^ 6 :=
    (tri hz (halfZ_close _ _)).trans (by norm_num at *; linarith)
  have ey : ‖qy - halfY (radians yaw.toInt)‖ ≤ 39 / 10 ^ 6 :=
    (tri hy (halfY_close _ _)).trans (by norm_num at *; linarith)
  have ex : ‖qx - halfX (radians pitch.toInt)‖ ≤ 2 / 10 ^ 6 :=
    (tri hx (halfX_close _ _)).trans (by norm_num at *; linarith)
  have e1 : ‖q₁ - halfZ (radians roll.toInt) * halfX (radians pitch.toInt)‖ ≤ 46 / 10 ^ 6 :=
    (tri h1 (mul_close ez ex (norm_halfZ _) (norm_halfX _))).trans (by norm_num)
  have n1 : ‖halfZ (radians roll.toInt) * halfX (radians pitch.toInt)‖ = 1 := by
    rw [norm_mul, norm_halfZ, norm_halfX, one_mul]
  have e2 : ‖q - halfZ (radians roll.toInt) * halfX (radians pitch.toInt) * halfY (radians yaw.toInt)‖ ≤ 90 / 10 ^ 6 :=
    (tri h2 (mul_close e1 ey n1 (norm_halfY _))).trans (by norm_num)
  have n2 : ‖halfZ (radians roll.toInt) * halfX (radians pitch.toInt) * halfY (radians yaw.toInt)‖ = 1 := by
    rw [norm_mul, n1, norm_halfY, one_mul]
  have e3 := conj_close ⟨x, y, z⟩ e2 n2
  rw [← mulVec_eq, ← pure_turned] at e3
  have hn := (⟨x, y, z⟩ : Point).norm_nonneg
  obtain ⟨c1, c2, c3⟩ := coord_close e3
  have tri2 : ∀ {u v w n : ℝ}, 0 ≤ n → |u - v| ≤ 2⁻¹ ^ 18 * n → |v - w| ≤ (2 * (90 / 10 ^ 6) + (90 / 10 ^ 6) ^ 2) * n →
      |u - w| ≤ 2⁻¹ ^ 12 * n := by
    intro u v w n h0 h1 h2
    have h3 := abs_sub_le u v w
    norm_num at *
    linarith
  exact ⟨tri2 hn hrx c1, tri2 hn hry c2, tri2 hn hrz c3⟩

end Pica
