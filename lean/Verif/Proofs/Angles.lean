import Verif.Proofs.Position
import Mathlib.Analysis.SpecialFunctions.Trigonometric.Bounds
/-! The angles computed by `src/bin/http-server/position.rs` are close to the true ones. -/

namespace Pica
open Real

theorem arctan_abs_le (u : ℝ) : |arctan u| ≤ |u| := by
  have key : ∀ v : ℝ, 0 ≤ v → arctan v ≤ v := by
    intro v hv
    have := le_tan (arctan_nonneg.mpr hv) (arctan_lt_pi_div_two v)
    rwa [tan_arctan] at this
  rcases le_total 0 u with h | h
  · rw [abs_of_nonneg h, abs_of_nonneg (arctan_nonneg.mpr h)]; exact key u h
  · rw [abs_of_nonpos h, abs_of_nonpos (arctan_le_zero.mpr h), ← arctan_neg]
    exact key (-u) (by linarith)

theorem arctan_close {a b : ℝ} (hab : 0 ≤ a * b) (h : |a - b| ≤ 1 / 800000 * |b| + 1 / 100000000000) :
    |arctan a - arctan b| ≤ 1 / 1000000 := by
  have e : arctan a - arctan b = arctan ((a - b) / (1 + a * b)) := by
    have := arctan_add (x := a) (y := -b) (by linarith)
    rw [arctan_neg] at this
    rw [sub_eq_add_neg, this]
    congr 2
    ring
  rw [e]
  refine (arctan_abs_le _).trans ?_
  rw [abs_div, abs_of_pos (show 0 < 1 + a * b by linarith), div_le_iff₀ (by linarith)]
  have hm : a * b = |a| * |b| := by rw [← abs_mul, abs_of_nonneg hab]
  have hl : |b| - |a| ≤ |a - b| := by rw [abs_sub_comm]; exact abs_sub_abs_le_abs_sub b a
  have hb := abs_nonneg b
  have h1 : |b| * (1 - 1 / 800000) - 1 / 100000000000 ≤ |a| := by linarith
  have h2 : (|b| * (1 - 1 / 800000) - 1 / 100000000000) * |b| ≤ |a| * |b| := mul_le_mul_of_nonneg_right h1 hb
  rw [hm]
  nlinarith [sq_nonneg (|b| - 1)]

namespace Arith
variable (A : Arith)

theorem err' (x : ℝ) : |A.rnd x - x| ≤ 1 / 8388608 * |x| + 1 / 100000000000 := by
  have he := A.err x
  have h1 : (2⁻¹ : ℝ) ^ 23 = 1 / 8388608 := by norm_num
  have h2 : (2⁻¹ : ℝ) ^ 126 ≤ 1 / 100000000000 := by norm_num
  rw [h1] at he
  linarith

theorem atan_err' (x : ℝ) : |A.atan x - arctan x| ≤ 1 / 2000000 := by
  have h := A.atan_err x
  have h1 : (2⁻¹ : ℝ) ^ 22 = 1 / 4194304 := by norm_num
  have h2 : (2⁻¹ : ℝ) ^ 126 ≤ 1 / 100000000000 := by norm_num
  have h3 : |arctan x| ≤ π / 2 :=
    abs_le.mpr ⟨(neg_pi_div_two_lt_arctan x).le, (arctan_lt_pi_div_two x).le⟩
  have h4 := pi_lt_d6
  rw [h1] at h
  linarith

theorem rnd_sign (x : ℝ) : 0 ≤ A.rnd x * x := by
  rcases le_total 0 x with h | h
  · exact mul_nonneg (A.nonneg x h) h
  · exact mul_nonneg_of_nonpos_of_nonpos (A.nonpos x h) h

theorem atan_rnd (x : ℝ) : |A.atan (A.rnd x) - arctan x| ≤ 3 / 2000000 := by
  have h1 := abs_le.mp (A.atan_err' (A.rnd x))
  have h2 := abs_le.mp (arctan_close (A.rnd_sign x) ((A.err' x).trans (by linarith [abs_nonneg x])))
  rw [abs_le]
  constructor <;> linarith

theorem signum_pos {f : F32} (h : f.neg = false) : f.signum = 1 := by unfold F32.signum; rw [h]; simp
theorem signum_neg {f : F32} (h : f.neg = true) : f.signum = -1 := by unfold F32.signum; rw [h]; simp

theorem piF_err : |piF - π| ≤ 1 / 1000000 := by
  have h1 := pi_gt_d6
  have h2 := pi_lt_d6
  unfold piF
  rw [abs_le]
  norm_num at *
  constructor <;> linarith

theorem halfPiF_eq : halfPiF = piF / 2 := by unfold halfPiF piF; norm_num

theorem rnd_const {c s : ℝ} (hs : s = 1 ∨ s = -1) (hc : |c| ≤ 4) : |A.rnd (s * c) - s * c| ≤ 1 / 2000000 := by
  refine (A.err' _).trans ?_
  have : |s * c| = |c| := by rcases hs with h | h <;> simp [h]
  rw [this]
  linarith

theorem piF_le : |piF| ≤ 4 := by unfold piF; rw [abs_le]; norm_num
theorem halfPiF_le : |halfPiF| ≤ 4 := by unfold halfPiF; rw [abs_le]; norm_num

/-- The last addition of `azimuth`. -/
theorem azimuth_sum {v θ : ℝ} (hv : |v - θ| ≤ 1 / 250000) (hθ : |θ| ≤ π) : |A.rnd v - θ| ≤ 1 / 200000 := by
  have h1 := A.err' v
  have h2 : |v| ≤ 4 := by
    have := abs_sub_abs_le_abs_sub v θ
    have := pi_lt_d6
    linarith
  have h3 := abs_le.mp (h1.trans (show _ ≤ (1 / 1000000 : ℝ) by linarith))
  have h4 := abs_le.mp hv
  rw [abs_le]
  constructor <;> linarith

theorem azimuth_err (d : Vec3) {r θ : ℝ} (hr : 0 < r) (h1 : -π < θ) (h2 : θ ≤ π) (hz : d.z.val = r * cos θ)
    (hx : d.x.val = r * sin θ) (hs : θ = π → d.x.neg = false) : |A.azimuth d - θ| ≤ 1 / 200000 := by
  have hpi := abs_le.mp piF_err
  have hpos := pi_pos
  unfold azimuth
  refine A.azimuth_sum ?_ (abs_le.mpr ⟨h1.le, h2⟩)
  have hq : d.x.val / d.z.val = tan θ := by
    rw [hx, hz, mul_div_mul_left _ _ hr.ne', tan_eq_sin_div_cos]
  rcases lt_trichotomy θ (-(π / 2)) with ht | ht | ht
  · -- behind, on the left
    have hc : cos θ < 0 := by
      rw [← cos_neg]; exact cos_neg_of_pi_div_two_lt_of_lt (by linarith) (by linarith)
    have hn : sin θ < 0 := sin_neg_of_neg_of_neg_pi_lt (by linarith) h1
    have hz' : d.z.val < 0 := by rw [hz]; exact mul_neg_of_pos_of_neg hr hc
    have hx' : d.x.val < 0 := by rw [hx]; exact mul_neg_of_pos_of_neg hr hn
    rw [if_neg hz'.ne, if_neg (not_le.mpr hz'), hq, signum_neg (d.x.neg_sign hx')]
    have ha := abs_le.mp (A.atan_rnd (tan θ))
    have he : arctan (tan θ) = θ + π := by
      rw [← tan_add_pi]; exact arctan_tan (by linarith) (by linarith)
    rw [he] at ha
    have hb := abs_le.mp (A.rnd_const (s := -1) (.inr rfl) piF_le)
    rw [abs_le]
    constructor <;> linarith
  · have hz' : d.z.val = 0 := by rw [hz, ht, cos_neg, cos_pi_div_two, mul_zero]
    have hx' : d.x.val < 0 := by rw [hx, ht, sin_neg, sin_pi_div_two]; linarith
    rw [if_pos hz', if_neg hx'.ne, if_pos hz'.ge, signum_neg (d.x.neg_sign hx')]
    have hb := abs_le.mp (A.rnd_const (s := -1) (.inr rfl) halfPiF_le)
    rw [halfPiF_eq] at hb ⊢
    rw [abs_le]
    constructor <;> linarith
  rcases lt_trichotomy θ (π / 2) with ht' | ht' | ht'
  · have hc : 0 < cos θ := cos_pos_of_mem_Ioo ⟨ht, ht'⟩
    have hz' : 0 < d.z.val := by rw [hz]; exact mul_pos hr hc
    rw [if_neg hz'.ne', if_pos hz'.le, hq, add_zero]
    have ha := A.atan_rnd (tan θ)
    rw [arctan_tan ht ht'] at ha
    exact ha.trans (by norm_num)
  · have hz' : d.z.val = 0 := by rw [hz, ht', cos_pi_div_two, mul_zero]
    have hx' : 0 < d.x.val := by rw [hx, ht', sin_pi_div_two]; linarith
    rw [if_pos hz', if_neg hx'.ne', if_pos hz'.ge, signum_pos (d.x.pos_sign hx')]
    have hb := abs_le.mp (A.rnd_const (s := 1) (.inl rfl) halfPiF_le)
    rw [halfPiF_eq] at hb ⊢
    rw [abs_le]
    constructor <;> linarith
  · have hc : cos θ < 0 := cos_neg_of_pi_div_two_lt_of_lt ht' (by linarith)
    have hz' : d.z.val < 0 := by rw [hz]; exact mul_neg_of_pos_of_neg hr hc
    have hsg : d.x.neg = false := by
      rcases h2.lt_or_eq with hl | hl
      · exact d.x.pos_sign (by rw [hx]; exact mul_pos hr (sin_pos_of_pos_of_lt_pi (by linarith) hl))
      · exact hs hl
    rw [if_neg hz'.ne, if_neg (not_le.mpr hz'), hq, signum_pos hsg]
    have ha := abs_le.mp (A.atan_rnd (tan θ))
    have he : arctan (tan θ) = θ - π := by
      rw [← tan_sub_pi]; exact arctan_tan (by linarith) (by linarith)
    rw [he] at ha
    have hb := abs_le.mp (A.rnd_const (s := 1) (.inl rfl) piF_le)
    rw [abs_le]
    constructor <;> linarith

theorem round_err (v : ℝ) : |(roundAway v : ℝ) - v| ≤ 1 / 2 := by
  unfold roundAway
  split
  · have h1 := Int.floor_le (v + 1 / 2)
    have h2 := Int.lt_floor_add_one (v + 1 / 2)
    rw [abs_le]; constructor <;> linarith
  · have h1 := Int.floor_le (-v + 1 / 2)
    have h2 := Int.lt_floor_add_one (-v + 1 / 2)
    push_cast
    rw [abs_le]; constructor <;> linarith

theorem degrees_err {v θ : ℝ} (h : |v - θ| ≤ 1 / 200000) (hθ : |θ| ≤ π) :
    |(roundAway (A.toDegrees v) : ℝ) - θ * (180 / π)| ≤ 501 / 1000 := by
  have hp1 := pi_gt_d6
  have hp2 := pi_lt_d6
  have hv : |v| ≤ 4 := by have := abs_sub_abs_le_abs_sub v θ; linarith
  have hd : |degF| = degF := abs_of_pos (by unfold degF; norm_num)
  have hd0 : 0 ≤ degF := by unfold degF; norm_num
  have hd1 : degF ≤ 58 := by unfold degF; norm_num
  have h1 := abs_le.mp (round_err (A.toDegrees v))
  have h2 : |A.toDegrees v - v * degF| ≤ 1 / 10000 := by
    refine (A.err' (v * degF)).trans ?_
    have : |v * degF| ≤ 4 * 58 := by
      rw [abs_mul, hd]; exact mul_le_mul hv hd1 hd0 (by norm_num)
    linarith
  have h2 := abs_le.mp h2
  have h3 : |v * degF - θ * degF| ≤ 3 / 10000 := by
    rw [← sub_mul, abs_mul, hd]
    have := mul_le_mul h hd1 hd0 (by norm_num)
    linarith
  have h3 := abs_le.mp h3
  have h4 : |θ * degF - θ * (180 / π)| ≤ 1 / 10000 := by
    have e : θ * degF - θ * (180 / π) = θ / π * (degF * π - 180) := by field_simp
    rw [e, abs_mul, abs_div, abs_of_pos pi_pos]
    have h5 : |θ| / π ≤ 1 := (div_le_one pi_pos).mpr hθ
    have h6 : |degF * π - 180| ≤ 1 / 10000 := by
      unfold degF
      rw [abs_le]; norm_num at hp1 hp2 ⊢
      constructor <;> linarith
    calc |θ| / π * |degF * π - 180| ≤ 1 * (1 / 10000) := mul_le_mul h5 h6 (abs_nonneg _) (by norm_num)
      _ = _ := by norm_num
  have h4 := abs_le.mp h4
  rw [abs_le]
  constructor <;> linarith

theorem flat_zero {d : Vec3} (hx : d.x.val = 0) (hz : d.z.val = 0) : A.flat d = 0 := by
  unfold flat
  simp [hx, hz, rnd_zero]

theorem err_fine {x : ℝ} (h : 0 ≤ x) : |A.rnd x - x| ≤ 1 / 8388608 * x + 1 / 10 ^ 36 := by
  have he := A.err x
  rw [abs_of_nonneg h] at he
  have h1 : (2⁻¹ : ℝ) ^ 23 = 1 / 8388608 := by norm_num
  have h2 : (2⁻¹ : ℝ) ^ 126 ≤ 1 / 10 ^ 36 := by norm_num
  rw [h1] at he
  linarith

theorem flat_err {d : Vec3} {h : ℝ} (h0 : 1 / 10 ^ 9 ≤ h) (hs : d.x.val ^ 2 + d.z.val ^ 2 = h ^ 2) :
    |A.flat d - h| ≤ 7 / 8388608 * h := by
  have hh : 0 < h := lt_of_lt_of_le (by norm_num) h0
  have hsq : 1 / 10 ^ 18 ≤ h ^ 2 := by
    have := pow_le_pow_left₀ (by norm_num) h0 2
    norm_num at this ⊢
    exact this
  have hxx : d.x.val * d.x.val + d.z.val * d.z.val = h ^ 2 := by rw [← hs]; ring
  have n1 := mul_self_nonneg d.x.val
  have n2 := mul_self_nonneg d.z.val
  have e1 := abs_le.mp (A.err_fine n1)
  have e2 := abs_le.mp (A.err_fine n2)
  have m1 := A.nonneg _ n1
  have m2 := A.nonneg _ n2
  have e3 := abs_le.mp (A.err_fine (add_nonneg m1 m2))
  have m3 := A.nonneg _ (add_nonneg m1 m2)
  have e4 : |A.rnd (A.rnd (d.x.val * d.x.val) + A.rnd (d.z.val * d.z.val)) - h ^ 2| ≤ 5 / 8388608 * h ^ 2 := by
    rw [abs_le]
    constructor <;> linarith
  have e5 := sqrt_err (by positivity) m3 e4
  rw [Real.sqrt_sq hh.le] at e5
  have e5 := abs_le.mp e5
  have e6 := abs_le.mp (A.err_fine (Real.sqrt_nonneg (A.rnd (A.rnd (d.x.val * d.x.val) + A.rnd (d.z.val * d.z.val)))))
  unfold flat
  rw [abs_le]
  constructor <;> linarith

theorem elevation_err (d : Vec3) {r φ : ℝ} (hr : 0 < r) (h1 : -(π / 2) ≤ φ) (h2 : φ ≤ π / 2) (hy : d.y.val = r * sin φ)
    (hh : d.x.val ^ 2 + d.z.val ^ 2 = (r * cos φ) ^ 2) (h0 : cos φ = 0 ∨ 1 / 10 ^ 9 ≤ r * cos φ) :
    |A.elevation d - φ| ≤ 1 / 200000 := by
  have hpi := abs_le.mp piF_err
  have hpos := pi_pos
  unfold elevation
  rcases h0 with hc | hc
  · rw [hc, mul_zero] at hh
    have hx : d.x.val = 0 := by nlinarith [sq_nonneg d.x.val, sq_nonneg d.z.val]
    have hz : d.z.val = 0 := by nlinarith [sq_nonneg d.x.val, sq_nonneg d.z.val]
    rw [if_pos (A.flat_zero hx hz)]
    have hcase : φ = π / 2 ∨ φ = -(π / 2) := by
      rcases h2.lt_or_eq with hl | hl
      · rcases h1.lt_or_eq with hl' | hl'
        · exact absurd hc (cos_pos_of_mem_Ioo ⟨hl', hl⟩).ne'
        · exact .inr hl'.symm
      · exact .inl hl
    rcases hcase with h | h
    · have hy' : 0 < d.y.val := by rw [hy, h, sin_pi_div_two]; linarith
      rw [signum_pos (d.y.pos_sign hy'), h]
      have hb := abs_le.mp (A.rnd_const (s := 1) (.inl rfl) halfPiF_le)
      rw [halfPiF_eq] at hb ⊢
      rw [abs_le]
      constructor <;> linarith
    · have hy' : d.y.val < 0 := by rw [hy, h, sin_neg, sin_pi_div_two]; linarith
      rw [signum_neg (d.y.neg_sign hy'), h]
      have hb := abs_le.mp (A.rnd_const (s := -1) (.inr rfl) halfPiF_le)
      rw [halfPiF_eq] at hb ⊢
      rw [abs_le]
      constructor <;> linarith
  · have hf := abs_le.mp (A.flat_err hc hh)
    have hpc : 0 < r * cos φ := lt_of_lt_of_le (by norm_num) hc
    have hcos : 0 < cos φ := pos_of_mul_pos_right hpc hr.le
    have hflat : 0 < A.flat d := by linarith
    rw [if_neg hflat.ne']
    have hlt : φ < π / 2 := by
      rcases h2.lt_or_eq with hl | hl
      · exact hl
      · rw [hl, cos_pi_div_two] at hcos; exact absurd hcos (lt_irrefl _)
    have hgt : -(π / 2) < φ := by
      rcases h1.lt_or_eq with hl | hl
      · exact hl
      · rw [← hl, cos_neg, cos_pi_div_two] at hcos; exact absurd hcos (lt_irrefl _)
    have ht : tan φ = d.y.val / (r * cos φ) := by rw [hy, mul_div_mul_left _ _ hr.ne', tan_eq_sin_div_cos]
    have hq : d.y.val = tan φ * (r * cos φ) := by rw [ht]; field_simp
    -- the quotient is close to the tangent
    have hquot : |d.y.val / A.flat d - tan φ| ≤ 8 / 8388608 * |tan φ| := by
      have e : d.y.val / A.flat d - tan φ = tan φ * ((r * cos φ - A.flat d) / A.flat d) := by
        rw [hq]; field_simp
      rw [e, abs_mul, mul_comm]
      refine mul_le_mul_of_nonneg_right ?_ (abs_nonneg _)
      rw [abs_div, abs_of_pos hflat, div_le_iff₀ hflat, abs_le]
      constructor <;> linarith
    have hsame : 0 ≤ A.rnd (d.y.val / A.flat d) * tan φ := by
      rcases le_total 0 (tan φ) with h | h
      · exact mul_nonneg (A.nonneg _ (div_nonneg (by rw [hq]; exact mul_nonneg h hpc.le) hflat.le)) h
      · exact mul_nonneg_of_nonpos_of_nonpos (A.nonpos _ (div_nonpos_of_nonpos_of_nonneg
          (by rw [hq]; exact mul_nonpos_of_nonpos_of_nonneg h hpc.le) hflat.le)) h
    have hr := A.err' (d.y.val / A.flat d)
    have habs : |d.y.val / A.flat d| ≤ |tan φ| + 8 / 8388608 * |tan φ| := by
      have := abs_sub_abs_le_abs_sub (d.y.val / A.flat d) (tan φ)
      linarith
    have hclose : |A.rnd (d.y.val / A.flat d) - tan φ| ≤ 1 / 800000 * |tan φ| + 1 / 100000000000 := by
      have := abs_sub_le (A.rnd (d.y.val / A.flat d)) (d.y.val / A.flat d) (tan φ)
      linarith [abs_nonneg (tan φ)]
    have ha := abs_le.mp (arctan_close hsame hclose)
    rw [arctan_tan hgt hlt] at ha
    have hb := abs_le.mp (A.atan_err' (A.rnd (d.y.val / A.flat d)))
    rw [abs_le]
    constructor <;> linarith

end Arith
end Pica
