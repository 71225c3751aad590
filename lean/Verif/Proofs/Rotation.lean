import Verif.Proofs.Angles
import Verif.Spec.Rotation
import Mathlib.Analysis.SpecialFunctions.Complex.Arg
/-! Turned points and the angles of points that are close to each other. -/

namespace Pica
open Real Spec

/-! ### Angles -/

/-- An angle is small, up to full turns, if its sine is and its cosine is positive. -/
theorem angle_small {t : ℝ} (hc : 0 < cos t) : ∃ k : ℤ, |t - 2 * π * k| ≤ π / 2 * |sin t| := by
  have hpos := pi_pos
  -- the nearest full turn
  obtain ⟨k, hk⟩ : ∃ k : ℤ, |t - 2 * π * k| ≤ π := by
    refine ⟨round (t / (2 * π)), ?_⟩
    have h := abs_sub_round (t / (2 * π))
    have e : t - 2 * π * (round (t / (2 * π)) : ℝ) = (2 * π) * (t / (2 * π) - round (t / (2 * π))) := by field_simp
    rw [e, abs_mul, abs_of_pos (by linarith)]
    nlinarith
  refine ⟨k, ?_⟩
  have es : sin (t - 2 * π * k) = sin t := by
    rw [show 2 * π * (k : ℝ) = k * (2 * π) by ring]; exact sin_sub_int_mul_two_pi t k
  have ec : cos (t - 2 * π * k) = cos t := by
    rw [show 2 * π * (k : ℝ) = k * (2 * π) by ring]; exact cos_sub_int_mul_two_pi t k
  rw [← es]
  rw [← ec] at hc
  generalize t - 2 * π * k = u at *
  have hu : |u| < π / 2 := by
    by_contra hn
    have : cos |u| ≤ 0 := cos_nonpos_of_pi_div_two_le_of_le (not_lt.mp hn) (by linarith)
    rw [cos_abs] at this
    linarith
  have h1 := mul_le_sin (abs_nonneg u) hu.le
  have h2 : |sin u| = sin |u| := by
    rcases le_total 0 u with h | h
    · rw [abs_of_nonneg h] at hu ⊢
      exact abs_of_nonneg (sin_nonneg_of_nonneg_of_le_pi h (by linarith))
    · rw [abs_of_nonpos h] at hu ⊢
      rw [sin_neg]
      exact abs_of_nonpos (sin_nonpos_of_nonpos_of_neg_pi_le h (by linarith))
  rw [h2]
  have : |u| = π / 2 * (2 / π * |u|) := by field_simp
  calc |u| = π / 2 * (2 / π * |u|) := this
    _ ≤ π / 2 * sin |u| := mul_le_mul_of_nonneg_left h1 (by linarith)

/-- The angle between two vectors of the plane that are close. -/
theorem angle_close {a b a' b' ρ ρ' α β δ : ℝ} (hρ' : 0 < ρ') (ha : a = ρ * cos α) (hb : b = ρ * sin α)
    (ha' : a' = ρ' * cos β) (hb' : b' = ρ' * sin β) (h1 : |a' - a| ≤ δ) (h2 : |b' - b| ≤ δ) (hd : 2 * δ < ρ) :
    ∃ k : ℤ, |β - α - 2 * π * k| ≤ π * δ / ρ' := by
  have hδ : 0 ≤ δ := (abs_nonneg _).trans h1
  have hc : ρ' * cos (β - α) = ρ + (a' - a) * cos α + (b' - b) * sin α := by
    rw [cos_sub, ha', hb', ha, hb]
    have := sin_sq_add_cos_sq α
    linear_combination ρ * this
  have hs : ρ' * sin (β - α) = (b' - b) * cos α - (a' - a) * sin α := by
    rw [sin_sub, ha', hb', ha, hb]
    ring
  have hca := abs_cos_le_one α
  have hsa := abs_sin_le_one α
  have b1 : |(a' - a) * cos α| ≤ δ := by rw [abs_mul]; nlinarith [abs_nonneg (a' - a), abs_nonneg (cos α)]
  have b2 : |(b' - b) * sin α| ≤ δ := by rw [abs_mul]; nlinarith [abs_nonneg (b' - b), abs_nonneg (sin α)]
  have b3 : |(b' - b) * cos α| ≤ δ := by rw [abs_mul]; nlinarith [abs_nonneg (b' - b), abs_nonneg (cos α)]
  have b4 : |(a' - a) * sin α| ≤ δ := by rw [abs_mul]; nlinarith [abs_nonneg (a' - a), abs_nonneg (sin α)]
  have hcp : 0 < cos (β - α) := by
    have : 0 < ρ' * cos (β - α) := by rw [hc]; linarith [(abs_le.mp b1).1, (abs_le.mp b2).1]
    exact pos_of_mul_pos_right this hρ'.le
  obtain ⟨k, hk⟩ := angle_small hcp
  refine ⟨k, hk.trans ?_⟩
  have hsb : |sin (β - α)| ≤ 2 * δ / ρ' := by
    have e : |sin (β - α)| * ρ' = |ρ' * sin (β - α)| := by rw [abs_mul, abs_of_pos hρ', mul_comm]
    rw [le_div_iff₀ hρ', e, hs]
    refine (abs_sub _ _).trans ?_
    linarith
  calc π / 2 * |sin (β - α)| ≤ π / 2 * (2 * δ / ρ') := mul_le_mul_of_nonneg_left hsb (by linarith [pi_pos])
    _ = π * δ / ρ' := by ring

/-- Every vector of the plane has an angle. -/
theorem exists_angle (a b : ℝ) :
    ∃ t, -π < t ∧ t ≤ π ∧ a = √(a ^ 2 + b ^ 2) * cos t ∧ b = √(a ^ 2 + b ^ 2) * sin t ∧ (0 ≤ a → |t| ≤ π / 2) := by
  have hn : ‖(⟨a, b⟩ : ℂ)‖ = √(a ^ 2 + b ^ 2) := by
    rw [Complex.norm_eq_sqrt_sq_add_sq]
  refine ⟨Complex.arg ⟨a, b⟩, Complex.neg_pi_lt_arg _, Complex.arg_le_pi _, ?_, ?_, ?_⟩
  · rw [← hn]; exact (Complex.norm_mul_cos_arg ⟨a, b⟩).symm
  · rw [← hn]; exact (Complex.norm_mul_sin_arg ⟨a, b⟩).symm
  · exact fun h => Complex.abs_arg_le_pi_div_two_iff.mpr h

/-! ### Elevations of almost vertical directions -/

namespace Arith
variable (A : Arith)

theorem flat_small {d : Vec3} (h : d.x.val ^ 2 + d.z.val ^ 2 ≤ 1 / 10 ^ 18) : 0 ≤ A.flat d ∧ A.flat d ≤ 1 / 10 ^ 8 := by
  have hx := abs_le.mp (A.err_fine (mul_self_nonneg d.x.val))
  have hz := abs_le.mp (A.err_fine (mul_self_nonneg d.z.val))
  have hx0 := A.nonneg _ (mul_self_nonneg d.x.val)
  have hz0 := A.nonneg _ (mul_self_nonneg d.z.val)
  have hs := abs_le.mp (A.err_fine (add_nonneg hx0 hz0))
  have hs0 := A.nonneg _ (add_nonneg hx0 hz0)
  have h2 : A.rnd (A.rnd (d.x.val * d.x.val) + A.rnd (d.z.val * d.z.val)) ≤ (1 / (2 * 10 ^ 8)) ^ 2 := by
    have : d.x.val * d.x.val + d.z.val * d.z.val ≤ 1 / 10 ^ 18 := by nlinarith
    norm_num at *
    linarith
  have h3 : √(A.rnd (A.rnd (d.x.val * d.x.val) + A.rnd (d.z.val * d.z.val))) ≤ 1 / (2 * 10 ^ 8) :=
    (Real.sqrt_le_left (by positivity)).mpr h2
  have h4 := abs_le.mp (A.err_fine (Real.sqrt_nonneg (A.rnd (A.rnd (d.x.val * d.x.val) + A.rnd (d.z.val * d.z.val)))))
  unfold flat
  refine ⟨A.nonneg _ (Real.sqrt_nonneg _), ?_⟩
  norm_num at *
  linarith

theorem arctan_big {t : ℝ} (h : 10 ^ 7 ≤ t) : |arctan t - π / 2| ≤ 1 / 10 ^ 7 := by
  have ht : 0 < t := lt_of_lt_of_le (by norm_num) h
  have e := arctan_inv_of_pos ht
  have h1 := arctan_abs_le t⁻¹
  rw [e] at h1
  rw [abs_sub_comm]
  refine h1.trans ?_
  rw [abs_of_pos (inv_pos.mpr ht), inv_eq_one_div]
  exact one_div_le_one_div_of_le (by norm_num) h

theorem elevation_steep (d : Vec3) (h : d.x.val ^ 2 + d.z.val ^ 2 ≤ 1 / 10 ^ 18) (hy : 1 / 4 ≤ |d.y.val|) :
    |A.elevation d - d.y.signum * (π / 2)| ≤ 1 / 250000 := by
  have hpi := abs_le.mp piF_err
  obtain ⟨hf0, hf⟩ := A.flat_small h
  have hsg : d.y.signum = 1 ∨ d.y.signum = -1 := by unfold F32.signum; split <;> simp
  unfold elevation
  split
  · have hb := abs_le.mp (A.rnd_const hsg halfPiF_le)
    rw [halfPiF_eq] at hb ⊢
    rcases hsg with e | e <;> rw [e] at hb ⊢ <;> rw [abs_le] <;> constructor <;> linarith
  · rename_i hne
    have hpos : 0 < A.flat d := lt_of_le_of_ne hf0 (Ne.symm hne)
    have ha := abs_le.mp (A.atan_rnd (d.y.val / A.flat d))
    have hq : 10 ^ 7 ≤ |d.y.val| / A.flat d := by
      rw [le_div_iff₀ hpos]
      calc 10 ^ 7 * A.flat d ≤ 10 ^ 7 * (1 / 10 ^ 8) := mul_le_mul_of_nonneg_left hf (by norm_num)
        _ ≤ 1 / 4 := by norm_num
        _ ≤ _ := hy
    have hb := abs_le.mp (arctan_big hq)
    rcases lt_or_ge d.y.val 0 with hv | hv
    · rw [signum_neg (d.y.neg_sign hv)]
      rw [abs_of_neg hv, neg_div, arctan_neg] at hb
      norm_num at *
      rw [abs_le]
      constructor <;> linarith
    · have hv : 0 < d.y.val := by
        rcases hv.lt_or_eq with hv | hv
        · exact hv
        · rw [← hv] at hy; norm_num at hy
      rw [signum_pos (d.y.pos_sign hv)]
      rw [abs_of_pos hv] at hb
      norm_num at *
      rw [abs_le]
      constructor <;> linarith

/-- The elevation of any direction that is not tiny. -/
theorem elevation_any (d : Vec3) {r φ : ℝ} (hr : 1 / 2 ≤ r) (h1 : -(π / 2) ≤ φ) (h2 : φ ≤ π / 2) (hy : d.y.val = r * sin φ)
    (hh : d.x.val ^ 2 + d.z.val ^ 2 = (r * cos φ) ^ 2) : |A.elevation d - φ| ≤ 1 / 200000 := by
  have hpos := pi_pos
  have hr0 : 0 < r := lt_of_lt_of_le (by norm_num) hr
  have hc0 : 0 ≤ cos φ := cos_nonneg_of_mem_Icc ⟨h1, h2⟩
  rcases le_or_gt (1 / 10 ^ 9) (r * cos φ) with hc | hc
  · exact A.elevation_err d hr0 h1 h2 hy hh (.inr hc)
  have hc' : cos φ ≤ 2 / 10 ^ 9 := by
    have : 1 / 2 * cos φ ≤ r * cos φ := mul_le_mul_of_nonneg_right hr hc0
    norm_num at *
    linarith
  have hsteep : d.x.val ^ 2 + d.z.val ^ 2 ≤ 1 / 10 ^ 18 := by
    rw [hh]
    have := pow_le_pow_left₀ (mul_nonneg hr0.le hc0) hc.le 2
    norm_num at this ⊢
    linarith
  -- the angle is close to a right one
  have hright : ∀ u : ℝ, 0 ≤ u → u ≤ π / 2 → cos u ≤ 2 / 10 ^ 9 → π / 2 - u ≤ 1 / 10 ^ 8 := by
    intro u hu0 hu1 hcu
    have := mul_le_sin (x := π / 2 - u) (by linarith) (by linarith)
    rw [sin_pi_div_two_sub] at this
    have e : π / 2 - u = π / 2 * (2 / π * (π / 2 - u)) := by field_simp
    have h3 := pi_lt_d6
    have h4 : 2 / π * (π / 2 - u) ≤ 2 / 10 ^ 9 := this.trans hcu
    rw [e]
    calc π / 2 * (2 / π * (π / 2 - u)) ≤ π / 2 * (2 / 10 ^ 9) := mul_le_mul_of_nonneg_left h4 (by linarith)
      _ ≤ 1 / 10 ^ 8 := by norm_num at *; linarith
  have hsin : 1 / 2 ≤ |sin φ| := by
    have := sin_sq_add_cos_sq φ
    have hc2 : cos φ ^ 2 ≤ (2 / 10 ^ 9) ^ 2 := pow_le_pow_left₀ hc0 hc' 2
    rw [← sq_abs (sin φ)] at this
    by_contra hn
    have hn := not_le.mp hn
    have hs2 : |sin φ| ^ 2 < 1 / 4 := by nlinarith [abs_nonneg (sin φ)]
    have hc3 : ((2 : ℝ) / 10 ^ 9) ^ 2 ≤ 1 / 4 := by norm_num
    linarith
  have hyb : 1 / 4 ≤ |d.y.val| := by
    rw [hy, abs_mul, abs_of_pos hr0]
    nlinarith
  have he := abs_le.mp (A.elevation_steep d hsteep hyb)
  rcases le_total 0 φ with h0 | h0
  · have hs : 0 ≤ sin φ := sin_nonneg_of_nonneg_of_le_pi h0 (by linarith)
    rw [abs_of_nonneg hs] at hsin
    have hyp : 0 < d.y.val := by rw [hy]; exact mul_pos hr0 (by linarith)
    rw [signum_pos (d.y.pos_sign hyp)] at he
    have := hright φ h0 h2 hc'
    norm_num at *
    rw [abs_le]
    constructor <;> linarith
  · have hs : sin φ ≤ 0 := sin_nonpos_of_nonpos_of_neg_pi_le h0 (by linarith)
    rw [abs_of_nonpos hs] at hsin
    have hyn : d.y.val < 0 := by rw [hy]; exact mul_neg_of_pos_of_neg hr0 (by linarith)
    rw [signum_neg (d.y.neg_sign hyn)] at he
    have := hright (-φ) (by linarith) (by linarith) (by rwa [cos_neg])
    norm_num at *
    rw [abs_le]
    constructor <;> linarith

/-- The azimuth of any direction with a bearing, up to a full turn. -/
theorem azimuth_any (d : Vec3) {r θ : ℝ} (hr : 0 < r) (h1 : -π < θ) (h2 : θ ≤ π) (hz : d.z.val = r * cos θ)
    (hx : d.x.val = r * sin θ) : |A.azimuth d - θ| ≤ 1 / 200000 ∨ |A.azimuth d - (-π)| ≤ 1 / 200000 ∧ θ = π := by
  by_cases hs : θ = π → d.x.neg = false
  · exact .inl (A.azimuth_err d hr h1 h2 hz hx hs)
  · right
    obtain ⟨ht, hn⟩ := Classical.not_imp.mp hs
    refine ⟨?_, ht⟩
    have hpi := abs_le.mp piF_err
    have hpos := pi_pos
    rw [ht, cos_pi] at hz
    rw [ht, sin_pi, mul_zero] at hx
    have hz' : d.z.val < 0 := by rw [hz]; linarith
    unfold azimuth
    refine A.azimuth_sum ?_ (by rw [abs_neg, abs_of_pos hpos])
    rw [if_neg hz'.ne, if_neg (not_le.mpr hz'), hx, zero_div, signum_neg (by simpa using hn)]
    have ha := abs_le.mp (A.atan_rnd 0)
    rw [arctan_zero] at ha
    have hb := abs_le.mp (A.rnd_const (s := -1) (.inr rfl) piF_le)
    rw [abs_le]
    constructor <;> linarith

end Arith

/-! ### Turned points -/

namespace Spec.Point

theorem norm_sq (v : Point) : v.norm ^ 2 = v.x ^ 2 + v.y ^ 2 + v.z ^ 2 := Real.sq_sqrt (by positivity)
theorem flat_sq (v : Point) : v.flat ^ 2 = v.x ^ 2 + v.z ^ 2 := Real.sq_sqrt (by positivity)
theorem norm_nonneg (v : Point) : 0 ≤ v.norm := Real.sqrt_nonneg _
theorem flat_nonneg (v : Point) : 0 ≤ v.flat := Real.sqrt_nonneg _

theorem norm_turnY (a : ℝ) (v : Point) : (v.turnY a).norm = v.norm := by
  unfold norm turnY
  congr 1
  have := sin_sq_add_cos_sq a
  linear_combination (v.x ^ 2 + v.z ^ 2) * this

theorem norm_turnX (a : ℝ) (v : Point) : (v.turnX a).norm = v.norm := by
  unfold norm turnX
  congr 1
  have := sin_sq_add_cos_sq a
  linear_combination (v.y ^ 2 + v.z ^ 2) * this

theorem norm_turnZ (a : ℝ) (v : Point) : (v.turnZ a).norm = v.norm := by
  unfold norm turnZ
  congr 1
  have := sin_sq_add_cos_sq a
  linear_combination (v.x ^ 2 + v.y ^ 2) * this

theorem norm_turned (yaw pitch roll : ℝ) (v : Point) : (turned yaw pitch roll v).norm = v.norm := by
  unfold turned
  rw [norm_turnZ, norm_turnX, norm_turnY]

theorem flat_turnY (a : ℝ) (v : Point) : (v.turnY a).flat = v.flat := by
  unfold flat turnY
  congr 1
  have := sin_sq_add_cos_sq a
  linear_combination (v.x ^ 2 + v.z ^ 2) * this

theorem turnX_zero (v : Point) : v.turnX 0 = v := by simp [turnX]
theorem turnY_zero (v : Point) : v.turnY 0 = v := by simp [turnY]
theorem turnZ_zero (v : Point) : v.turnZ 0 = v := by simp [turnZ]

end Spec.Point

/-! ### Directions that are close to a point -/

/-- The direction differs from the point by at most `δ` in each coordinate. -/
structure Near (δ : ℝ) (d : Vec3) (v : Point) : Prop where
  x : |d.x.val - v.x| ≤ δ
  y : |d.y.val - v.y| ≤ δ
  z : |d.z.val - v.z| ≤ δ

theorem norm2_close {a b a' b' δ : ℝ} (h1 : |a' - a| ≤ δ) (h2 : |b' - b| ≤ δ) :
    |√(a' ^ 2 + b' ^ 2) - √(a ^ 2 + b ^ 2)| ≤ 3 / 2 * δ := by
  have hδ : 0 ≤ δ := (abs_nonneg _).trans h1
  have key : ∀ u v u' v' : ℝ, |u' - u| ≤ δ → |v' - v| ≤ δ → √(u' ^ 2 + v' ^ 2) ≤ √(u ^ 2 + v ^ 2) + 3 / 2 * δ := by
    intro u v u' v' h1 h2
    have hn := Real.sqrt_nonneg (u ^ 2 + v ^ 2)
    have hs := Real.sq_sqrt (show 0 ≤ u ^ 2 + v ^ 2 by positivity)
    rw [Real.sqrt_le_left (by positivity)]
    generalize √(u ^ 2 + v ^ 2) = n at *
    obtain ⟨a1, a2⟩ := abs_le.mp h1
    obtain ⟨b1, b2⟩ := abs_le.mp h2
    generalize hp : u' - u = p at *
    generalize hq : v' - v = q at *
    have e1 : u' = u + p := by linarith
    have e2 : v' = v + q := by linarith
    have hc : (u * p + v * q) ^ 2 ≤ (n * (3 / 2 * δ)) ^ 2 := by
      have : (u * p + v * q) ^ 2 ≤ (u ^ 2 + v ^ 2) * (p ^ 2 + q ^ 2) := by nlinarith [sq_nonneg (u * q - v * p)]
      have hpq : p ^ 2 + q ^ 2 ≤ (3 / 2 * δ) ^ 2 := by nlinarith
      rw [mul_pow, hs]
      exact this.trans (mul_le_mul_of_nonneg_left hpq (by positivity))
    have hc' : u * p + v * q ≤ n * (3 / 2 * δ) := by
      have := abs_le_of_sq_le_sq hc (by positivity)
      exact (abs_le.mp this).2
    have hpq : p ^ 2 + q ^ 2 ≤ (3 / 2 * δ) ^ 2 := by nlinarith
    rw [e1, e2]
    nlinarith
  have k1 := key a b a' b' h1 h2
  have k2 := key a' b' a b (by rwa [abs_sub_comm]) (by rwa [abs_sub_comm])
  rw [abs_le]
  constructor <;> linarith

namespace Arith
variable (A : Arith)

/-- The elevation of a direction close to a point. -/
theorem elevation_near {d : Vec3} {v : Point} {φ : ℝ} (hv : 1 ≤ v.norm) (hn : Near (2⁻¹ ^ 12 * v.norm) d v)
    (hφ : Rise v.x v.y v.z φ) : |(roundAway (A.toDegrees (A.elevation d)) : ℝ) - degrees φ| ≤ 6 / 10 := by
  obtain ⟨h1, h2, r, hr, hy, hf⟩ := hφ
  have hpos := pi_pos
  have hp6 := pi_lt_d6
  have hrn : r = v.norm := by
    have h3 := v.norm_sq
    have h4 := Real.sq_sqrt (show 0 ≤ v.x ^ 2 + v.z ^ 2 by positivity)
    rw [hf] at h4
    have h5 : r ^ 2 = v.norm ^ 2 := by
      rw [h3]
      have := sin_sq_add_cos_sq φ
      rw [hy]
      linear_combination (-r ^ 2) * this + h4
    exact (pow_left_inj₀ hr.le v.norm_nonneg (by norm_num)).mp h5
  subst hrn
  generalize hr' : v.norm = r at *
  have hε : (2⁻¹ : ℝ) ^ 12 = 1 / 4096 := by norm_num
  rw [hε] at hn
  -- the angle of the direction itself
  obtain ⟨ψ, -, -, hc', hs', hq⟩ := exists_angle (√(d.x.val ^ 2 + d.z.val ^ 2)) d.y.val
  have hq := abs_le.mp (hq (Real.sqrt_nonneg _))
  have hflat := norm2_close (a := v.x) (b := v.z) hn.x hn.z
  rw [hf] at hflat
  have hnorm := norm2_close (a := r * cos φ) (b := v.y) (a' := √(d.x.val ^ 2 + d.z.val ^ 2)) (b' := d.y.val)
    (δ := 3 / 2 * (1 / 4096 * r)) hflat (hn.y.trans (by linarith))
  have e : √((r * cos φ) ^ 2 + v.y ^ 2) = r := by
    rw [hy, Real.sqrt_eq_iff_mul_self_eq (by positivity) hr.le]
    have := sin_sq_add_cos_sq φ
    linear_combination (r ^ 2) * this
  rw [e] at hnorm
  generalize hρ : √(√(d.x.val ^ 2 + d.z.val ^ 2) ^ 2 + d.y.val ^ 2) = ρ at *
  have hρb := abs_le.mp hnorm
  have hρ1 : r * (999 / 1000) ≤ ρ := by linarith
  have hclose := angle_close (ρ := r) (ρ' := ρ) (α := φ) (β := ψ) (δ := 3 / 2 * (1 / 4096 * r)) (by linarith) rfl hy hc' hs' hflat
    (hn.y.trans (by linarith)) (by linarith)
  obtain ⟨k, hk⟩ := hclose
  have hb : π * (3 / 2 * (1 / 4096 * r)) / ρ ≤ 116 / 100000 := by
    rw [div_le_iff₀ (by linarith)]
    nlinarith
  have hk := abs_le.mp (hk.trans hb)
  have hk0 : k = 0 := by
    have hp3 := pi_gt_d6
    have h3 : (-1 : ℝ) < k := by
      by_contra hn
      have := mul_le_mul_of_nonneg_left (not_lt.mp hn) hpos.le
      linarith
    have h4 : (k : ℝ) < 1 := by
      by_contra hn
      have := mul_le_mul_of_nonneg_left (not_lt.mp hn) hpos.le
      linarith
    have h3 : -1 < k := by exact_mod_cast h3
    have h4 : k < 1 := by exact_mod_cast h4
    omega
  rw [hk0] at hk
  simp only [Int.cast_zero, mul_zero, sub_zero] at hk
  have hel := A.elevation_any d (r := ρ) (φ := ψ) (by linarith) (by linarith) (by linarith) hs' (by
    rw [← hc', Real.sq_sqrt (by positivity)])
  have hdeg := abs_le.mp (A.degrees_err hel (abs_le.mpr ⟨by linarith, by linarith⟩))
  unfold degrees
  have hdd : |(ψ - φ) * (180 / π)| ≤ 7 / 100 := by
    rw [abs_mul, abs_of_pos (show 0 < 180 / π by positivity), mul_div_assoc', div_le_iff₀ hpos]
    have := abs_le.mpr hk
    have := pi_gt_d6
    nlinarith
  have hdd := abs_le.mp hdd
  rw [abs_le]
  constructor <;> linarith

/-- The azimuth of a direction close to a point, away from the vertical axis. -/
theorem azimuth_near {d : Vec3} {v : Point} {θ : ℝ} (hn : Near (2⁻¹ ^ 12 * v.norm) d v) (hf : v.norm ≤ 1000 * v.flat)
    (hθ : Bearing v.x v.z θ) :
    Agree (501 / 1000 + 7 / 100 * (v.norm / v.flat)) (roundAway (A.toDegrees (A.azimuth d))) (degrees θ) := by
  obtain ⟨h1, h2, r, hr, hz, hx⟩ := hθ
  have hpos := pi_pos
  have hp6 := pi_lt_d6
  have hrf : v.flat = r := by
    unfold Point.flat
    rw [hx, hz, Real.sqrt_eq_iff_mul_self_eq (by positivity) hr.le]
    have := sin_sq_add_cos_sq θ
    linear_combination (r ^ 2) * this
  rw [hrf] at hf ⊢
  have hε : (2⁻¹ : ℝ) ^ 12 = 1 / 4096 := by norm_num
  rw [hε] at hn
  have hN := v.norm_nonneg
  generalize v.norm = n at *
  obtain ⟨ψ, hp1, hp2, hc', hs', -⟩ := exists_angle d.z.val d.x.val
  have hflat := norm2_close (a := v.z) (b := v.x) hn.z hn.x
  have e : √(v.z ^ 2 + v.x ^ 2) = r := by
    rw [add_comm]; exact hrf
  rw [e] at hflat
  generalize hρ : √(d.z.val ^ 2 + d.x.val ^ 2) = ρ at *
  have hρb := abs_le.mp hflat
  have hρ1 : r * (633 / 1000) ≤ ρ := by linarith
  have hρ0 : 0 < ρ := by linarith
  obtain ⟨k, hk⟩ := angle_close (ρ := r) (ρ' := ρ) (α := θ) (β := ψ) hρ0 hz hx hc' hs' hn.z hn.x (by linarith)
  have hb : π * (1 / 4096 * n) / ρ ≤ 1215 / 1000000 * (n / r) := by
    rw [div_le_iff₀ hρ0]
    have h3 : 1215 / 1000000 * (n / r) * (r * (633 / 1000)) ≤ 1215 / 1000000 * (n / r) * ρ :=
      mul_le_mul_of_nonneg_left hρ1 (by positivity)
    have h4 : 1215 / 1000000 * (n / r) * (r * (633 / 1000)) = 1215 / 1000000 * (633 / 1000) * n := by field_simp
    rw [h4] at h3
    nlinarith
  have hk := hk.trans hb
  have hd : |degrees ψ - (degrees θ + 360 * k)| ≤ 697 / 10000 * (n / r) := by
    have e : degrees ψ - (degrees θ + 360 * k) = (ψ - θ - 2 * π * k) * (180 / π) := by
      unfold degrees
      field_simp
      ring
    rw [e, abs_mul, abs_of_pos (show 0 < 180 / π by positivity), mul_div_assoc', div_le_iff₀ hpos]
    have := pi_gt_d6
    have : 0 ≤ n / r := by positivity
    nlinarith
  have hd := abs_le.mp hd
  have hnr : 0 ≤ n / r := by positivity
  rcases A.azimuth_any d hρ0 hp1 hp2 hc' hs' with ha | ⟨ha, he⟩
  · have hg := abs_le.mp (A.degrees_err ha (abs_le.mpr ⟨hp1.le, hp2⟩))
    refine ⟨k, ?_⟩
    unfold degrees at hd ⊢
    rw [abs_le]
    constructor <;> linarith
  · have hg := abs_le.mp (A.degrees_err ha (by rw [abs_neg, abs_of_pos hpos]))
    refine ⟨k - 1, ?_⟩
    have e1 : -π * (180 / π) = -180 := by field_simp
    have e2 : degrees ψ = 180 := by unfold degrees; rw [he]; field_simp
    rw [e1] at hg
    rw [e2] at hd
    push_cast
    rw [abs_le]
    constructor <;> linarith

end Arith
end Pica
