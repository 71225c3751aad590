import Verif.Props.Rotation
import Verif.Proofs.RangeExact
import Verif.Spec.UnitTests
import Mathlib.Analysis.Real.Pi.Bounds
/-! The angles of the unit tests. -/

namespace Pica
open Real Spec Props

theorem cos_small {x : ℝ} (h : |x| ≤ 1 / 10) : |cos x - (1 - x ^ 2 / 2)| ≤ 1 / 100000 := by
  have h1 := Real.cos_bound (x := x) (by linarith)
  have h2 : |x| ^ 4 ≤ (1 / 10) ^ 4 := pow_le_pow_left₀ (abs_nonneg x) h 4
  linarith

theorem sin_small {x : ℝ} (h : |x| ≤ 1 / 10) : |sin x - (x - x ^ 3 / 6)| ≤ 1 / 100000 := by
  have h1 := Real.sin_bound (x := x) (by linarith)
  have h2 : |x| ^ 5 ≤ (1 / 10) ^ 5 := pow_le_pow_left₀ (abs_nonneg x) h 5
  linarith

theorem sqrt2_bounds : 1.41421 < √2 ∧ √2 < 1.41422 :=
  ⟨Real.lt_sqrt_of_sq_lt (by norm_num), (Real.sqrt_lt' (by norm_num)).mpr (by norm_num)⟩

theorem sqrt3_bounds : 1.73205 < √3 ∧ √3 < 1.73206 :=
  ⟨Real.lt_sqrt_of_sq_lt (by norm_num), (Real.sqrt_lt' (by norm_num)).mpr (by norm_num)⟩

/-- The sine and the cosine of five degrees. -/
theorem five : (0.9961 < cos (π / 36) ∧ cos (π / 36) < 0.9963) ∧ 0.0871 < sin (π / 36) ∧ sin (π / 36) < 0.0872 := by
  have hp1 := pi_gt_d6
  have hp2 := pi_lt_d6
  have h : |π / 36| ≤ 1 / 10 := by rw [abs_of_pos (by linarith)]; linarith
  have hc := abs_le.mp (cos_small h)
  have hs := abs_le.mp (sin_small h)
  have h1 : 0.08726 < π / 36 := by linarith
  have h2 : π / 36 < 0.08727 := by linarith
  generalize π / 36 = x at hc hs h1 h2
  have e1 : x ^ 2 < 0.08727 ^ 2 := by nlinarith
  have e2 : 0.08726 ^ 2 < x ^ 2 := by nlinarith
  have e3 : x ^ 3 < 0.08727 ^ 3 := by nlinarith
  have e4 : 0.08726 ^ 3 < x ^ 3 := by nlinarith
  refine ⟨⟨?_, ?_⟩, ?_, ?_⟩ <;> norm_num at * <;> linarith [hc.1, hc.2, hs.1, hs.2]

/-- 35 degrees. -/
theorem thirtyFive : |cos (radians 35) - √2 * sin (radians 35)| ≤ 0.009 := by
  have e : radians 35 = π / 6 + π / 36 := by unfold radians; ring
  rw [e, cos_add, sin_add, cos_pi_div_six, sin_pi_div_six]
  obtain ⟨⟨c1, c2⟩, s1, s2⟩ := five
  have h2 := sqrt2_bounds
  have h3 := sqrt3_bounds
  generalize cos (π / 36) = c at *
  generalize sin (π / 36) = s at *
  have m6 : √2 * √3 < 1.41422 * 1.73206 := by nlinarith [h2.1, h2.2, h3.1, h3.2]
  have m6' : 1.41421 * 1.73205 < √2 * √3 := by nlinarith [h2.1, h2.2, h3.1, h3.2]
  have a1 : √3 * c < 1.73206 * 0.9963 := by nlinarith [h3.1, h3.2]
  have a2 : 1.73205 * 0.9961 < √3 * c := by nlinarith [h3.1, h3.2]
  have b1 : √2 * c < 1.41422 * 0.9963 := by nlinarith [h2.1, h2.2]
  have b2 : 1.41421 * 0.9961 < √2 * c := by nlinarith [h2.1, h2.2]
  have d1 : (√2 * √3) * s < 1.41422 * 1.73206 * 0.0872 := by nlinarith
  have d2 : 1.41421 * 1.73205 * 0.0871 < (√2 * √3) * s := by nlinarith
  have key : √3 / 2 * c - 1 / 2 * s - √2 * (1 / 2 * c + √3 / 2 * s) = (√3 * c) / 2 - s / 2 - (√2 * c) / 2 - ((√2 * √3) * s) / 2 := by ring
  rw [key, abs_le]
  constructor <;> norm_num at * <;> linarith

/-- The elevation of the corner of a cube. -/
noncomputable def corner : ℝ := arcsin (1 / √3)

theorem sin_corner : sin corner = 1 / √3 := by
  have h := sqrt3_bounds
  have h0 : 0 < √3 := by linarith [h.1]
  unfold corner
  refine sin_arcsin (by have : 0 < 1 / √3 := by positivity
                        linarith) ?_
  rw [div_le_one h0]; linarith [h.1]

theorem cos_corner : cos corner = √2 / √3 := by
  unfold corner
  rw [cos_arcsin, div_pow, sq_sqrt (by norm_num), ← Real.sqrt_div (by norm_num)]
  norm_num

theorem corner_range : 0 ≤ corner ∧ corner ≤ π / 2 := ⟨arcsin_nonneg.mpr (by positivity), arcsin_le_pi_div_two _⟩

theorem sin_corner_sub : |sin (corner - radians 35)| ≤ 0.0052 := by
  have h := sqrt3_bounds
  have h0 : 0 < √3 := by linarith [h.1]
  have e : sin (corner - radians 35) = (cos (radians 35) - √2 * sin (radians 35)) / √3 := by
    rw [sin_sub, sin_corner, cos_corner]; field_simp
  rw [e, abs_div, abs_of_pos h0, div_le_iff₀ h0]
  have := thirtyFive
  norm_num at *
  linarith [h.1]

theorem tiny_of_sin {u : ℝ} (h2 : |u| ≤ π / 2) {s : ℝ} (hs : |sin u| ≤ s) (h1 : s ≤ 0.0053) : |u| ≤ s + 0.00002 := by
  have hp1 := pi_gt_d6
  have hp2 := pi_lt_d6
  have h3 := small_of_sin h2 hs
  have h4 : |sin u| = sin |u| := by
    rcases le_total 0 u with h0 | h0
    · rw [abs_of_nonneg h0] at h2 ⊢
      exact abs_of_nonneg (sin_nonneg_of_nonneg_of_le_pi h0 (by linarith))
    · rw [abs_of_nonpos h0] at h2 ⊢
      rw [sin_neg]
      exact abs_of_nonpos (sin_nonpos_of_nonpos_of_neg_pi_le h0 (by linarith))
  have hs0 : 0 ≤ s := (abs_nonneg _).trans hs
  rw [h4] at hs
  have h5 : |u| ≤ 0.0084 := by
    have : π / 2 * s ≤ 1.58 * 0.0053 := mul_le_mul (by norm_num; linarith) h1 hs0 (by norm_num)
    norm_num at *; linarith
  have h6 := abs_le.mp (sin_small (x := |u|) (by rw [abs_abs]; norm_num at *; linarith))
  have h0 := abs_nonneg u
  have h7 : |u| ^ 3 ≤ 0.0084 ^ 3 := pow_le_pow_left₀ h0 h5 3
  norm_num at *
  linarith [h6.1]

theorem corner_sub : |corner - radians 35| ≤ 0.00522 := by
  have hp1 := pi_gt_d6
  have hp2 := pi_lt_d6
  have hr : radians 35 = 35 * (π / 180) := rfl
  have hc := corner_range
  have h2 : |corner - radians 35| ≤ π / 2 := by rw [abs_le]; constructor <;> linarith [hc.1, hc.2]
  refine (tiny_of_sin h2 sin_corner_sub (by norm_num)).trans (by norm_num)

theorem abs_arctan_le (t : ℝ) : |arctan t| ≤ |t| := by
  have key : ∀ t : ℝ, 0 ≤ t → |arctan t| ≤ |t| := by
    intro t ht
    rw [abs_of_nonneg ht, abs_of_nonneg (arctan_nonneg.mpr ht)]
    have := le_tan (arctan_nonneg.mpr ht) (arctan_lt_pi_div_two t)
    rwa [tan_arctan] at this
  rcases le_total 0 t with h | h
  · exact key t h
  · have := key (-t) (by linarith)
    rwa [arctan_neg, abs_neg, abs_neg] at this

theorem degrees_corner : |degrees corner - 35| ≤ 3 / 10 := by
  have hp1 := pi_gt_d6
  have hp2 := pi_lt_d6
  have e : degrees corner - 35 = (corner - radians 35) * (180 / π) := by unfold degrees radians; field_simp
  have h := corner_sub
  have h0 : 0 < 180 / π := by positivity
  rw [e, abs_mul, abs_of_pos h0, ← le_div_iff₀ h0]
  refine h.trans ?_
  rw [div_div_eq_mul_div, le_div_iff₀ (by norm_num)]
  norm_num at *
  linarith

theorem passes_angles {A : Arith} {rotate : Rotate} (hacc : Accurate rotate) (t : PosTest) (v : Point) (θ φ : ℝ) (n e : ℤ)
    (hne : (t.a.x, t.a.y, t.a.z) ≠ (t.b.x, t.b.y, t.b.z)) (hs : sight t.a t.b = v) (h0 : 0 < v.flat)
    (hf : v.norm ≤ 3 / 2 * v.flat) (hθ : Bearing v.x v.z θ) (hφ : Rise v.x v.y v.z φ) (hn : |degrees θ - n| ≤ 39 / 100)
    (he : |degrees φ - e| ≤ 39 / 100) (hr : t.range = [])
    (ha : ∀ a : Int16, -180 ≤ a.toInt → a.toInt ≤ 180 → (∃ k : ℤ, a.toInt = n + 360 * k) → a ∈ t.azimuth)
    (hel : ∀ a : Int8, a.toInt = e → a ∈ t.elevation) : t.Passes A rotate := by
  obtain ⟨m, hm, a1, a2, -⟩ := C55_angles A rotate t.a t.b
  obtain ⟨m', hm', b⟩ := C85_elevation A rotate hacc t.a t.b hne φ (by rw [hs]; exact hφ)
  obtain rfl : m = m' := by rw [hm] at hm'; exact Except.ok.inj hm'
  obtain ⟨m', hm', c⟩ := C85_azimuth A rotate hacc t.a t.b θ (by rw [hs]; exact hθ) (by rw [hs]; linarith)
  obtain rfl : m = m' := by rw [hm] at hm'; exact Except.ok.inj hm'
  clear hm'
  refine ⟨m, hm, fun h => absurd hr h, fun _ => ha _ a1 a2 ?_, fun _ => hel _ ?_⟩
  · rw [hs] at c
    obtain ⟨k, hk⟩ := c
    have hd : v.norm / v.flat ≤ 3 / 2 := by rw [div_le_iff₀ h0]; exact hf
    refine ⟨k, ?_⟩
    have h1 := abs_le.mp hk
    have h2 := abs_le.mp hn
    have h3 : (m.azimuth.toInt : ℝ) < (n + 360 * k : ℤ) + 1 := by push_cast; linarith [h1.2, h2.2]
    have h4 : ((n + 360 * k : ℤ) : ℝ) < m.azimuth.toInt + 1 := by push_cast; linarith [h1.1, h2.1]
    have h5 : m.azimuth.toInt < n + 360 * k + 1 := by exact_mod_cast h3
    have h6 : n + 360 * k < m.azimuth.toInt + 1 := by exact_mod_cast h4
    omega
  · have h1 := abs_le.mp b
    have h2 := abs_le.mp he
    have h3 : (m.elevation.toInt : ℝ) < e + 1 := by linarith [h1.2, h2.2]
    have h4 : (e : ℝ) < m.elevation.toInt + 1 := by linarith [h1.1, h2.1]
    have h5 : m.elevation.toInt < e + 1 := by exact_mod_cast h3
    have h6 : e < m.elevation.toInt + 1 := by exact_mod_cast h4
    omega

theorem passes_range {A : Arith} {rotate : Rotate} (t : PosTest) (hs : Arith.sq t.a t.b < 2000 ^ 2)
    (hr : ∀ r : UInt16, r.toNat = Nat.sqrt (Arith.sq t.a t.b).toNat → r ∈ t.range) (ha : t.azimuth = [])
    (he : t.elevation = []) : t.Passes A rotate := by
  obtain ⟨m, hm, h⟩ := A.range_exact rotate hs
  exact ⟨m, hm, fun _ => hr _ h, fun h => absurd ha h, fun h => absurd he h⟩

theorem bearing_of {x z r θ : ℝ} (h1 : -π < θ) (h2 : θ ≤ π) (hr : 0 < r) (hz : z = r * cos θ) (hx : x = r * sin θ) :
    Bearing x z θ := ⟨h1, h2, r, hr, hz, hx⟩

theorem rise_of {x y z r f φ : ℝ} (h1 : -(π / 2) ≤ φ) (h2 : φ ≤ π / 2) (hr : 0 < r) (hy : y = r * sin φ)
    (hf : 0 ≤ f) (hxz : x ^ 2 + z ^ 2 = f ^ 2) (hc : f = r * cos φ) : Rise x y z φ :=
  ⟨h1, h2, r, hr, hy, by rw [hxz, sqrt_sq hf, hc]⟩

theorem sq2 : √2 * √2 = (2 : ℝ) := mul_self_sqrt (by norm_num)
theorem sq3 : √3 * √3 = (3 : ℝ) := mul_self_sqrt (by norm_num)

/-- A diagonal of the square, at an angle of 45 degrees. -/
theorem bearing_45 : Bearing 10 10 (π / 4) := by
  have hp := pi_pos
  refine bearing_of (r := 10 * √2) (by linarith) (by linarith) (by positivity) ?_ ?_
  · rw [cos_pi_div_four]; linarith [sq2]
  · rw [sin_pi_div_four]; linarith [sq2]

theorem bearing_neg45 : Bearing (-10) 10 (-(π / 4)) := by
  have hp := pi_pos
  refine bearing_of (r := 10 * √2) (by linarith) (by linarith) (by positivity) ?_ ?_
  · rw [cos_neg, cos_pi_div_four]; linarith [sq2]
  · rw [sin_neg, sin_pi_div_four]; linarith [sq2]

theorem bearing_135 : Bearing 10 (-10) (π - π / 4) := by
  have hp := pi_pos
  refine bearing_of (r := 10 * √2) (by linarith) (by linarith) (by positivity) ?_ ?_
  · rw [cos_pi_sub, cos_pi_div_four]; linarith [sq2]
  · rw [sin_pi_sub, sin_pi_div_four]; linarith [sq2]

theorem bearing_neg135 : Bearing (-10) (-10) (-(π - π / 4)) := by
  have hp := pi_pos
  refine bearing_of (r := 10 * √2) (by linarith) (by linarith) (by positivity) ?_ ?_
  · rw [cos_neg, cos_pi_sub, cos_pi_div_four]; linarith [sq2]
  · rw [sin_neg, sin_pi_sub, sin_pi_div_four]; linarith [sq2]

theorem bearing_0 {z : ℝ} (hz : 0 < z) : Bearing 0 z 0 := by
  have hp := pi_pos
  exact bearing_of (r := z) (by linarith) (by linarith) hz (by rw [cos_zero, mul_one]) (by rw [sin_zero, mul_zero])

theorem bearing_180 {z : ℝ} (hz : z < 0) : Bearing 0 z π := by
  have hp := pi_pos
  exact bearing_of (r := -z) (by linarith) (by linarith) (by linarith) (by rw [cos_pi]; ring) (by rw [sin_pi, mul_zero])

theorem rise_0 {x z : ℝ} (h : 0 < x ^ 2 + z ^ 2) : Rise x 0 z 0 := by
  have hp := pi_pos
  exact rise_of (r := √(x ^ 2 + z ^ 2)) (f := √(x ^ 2 + z ^ 2)) (by linarith) (by linarith) (sqrt_pos.mpr h)
    (by rw [sin_zero, mul_zero]) (sqrt_nonneg _) (by rw [sq_sqrt h.le]) (by rw [cos_zero, mul_one])

theorem rise_45 {z f : ℝ} (hf : 0 < f) (hz : z ^ 2 = f ^ 2) : Rise 0 f z (π / 4) := by
  have hp := pi_pos
  refine rise_of (r := f * √2) (f := f) (by linarith) (by linarith) (by positivity) ?_ hf.le (by rw [hz]; ring) ?_
  · rw [sin_pi_div_four]; linear_combination (-(f / 2)) * sq2
  · rw [cos_pi_div_four]; linear_combination (-(f / 2)) * sq2

theorem rise_neg45 {z f : ℝ} (hf : 0 < f) (hz : z ^ 2 = f ^ 2) : Rise 0 (-f) z (-(π / 4)) := by
  have hp := pi_pos
  refine rise_of (r := f * √2) (f := f) (by linarith) (by linarith) (by positivity) ?_ hf.le (by rw [hz]; ring) ?_
  · rw [sin_neg, sin_pi_div_four]; linear_combination (f / 2) * sq2
  · rw [cos_neg, cos_pi_div_four]; linear_combination (-(f / 2)) * sq2

theorem rise_corner {x z : ℝ} (hx : x ^ 2 = 100) (hz : z ^ 2 = 100) : Rise x 10 z corner := by
  have hp := pi_pos
  have h3 : √3 ≠ 0 := by positivity
  refine rise_of (r := 10 * √3) (f := 10 * √2) (by linarith [corner_range.1]) corner_range.2 (by positivity) ?_ (by positivity) ?_ ?_
  · rw [sin_corner]; field_simp
  · rw [hx, hz]; linear_combination (-100) * sq2
  · rw [cos_corner]; field_simp

theorem rise_neg_corner {x z : ℝ} (hx : x ^ 2 = 100) (hz : z ^ 2 = 100) : Rise x (-10) z (-corner) := by
  have hp := pi_pos
  have h3 : √3 ≠ 0 := by positivity
  refine rise_of (r := 10 * √3) (f := 10 * √2) (by linarith [corner_range.2]) (by linarith [corner_range.1]) (by positivity) ?_ (by positivity) ?_ ?_
  · rw [sin_neg, sin_corner]; field_simp
  · rw [hx, hz]; linear_combination (-100) * sq2
  · rw [cos_neg, cos_corner]; field_simp

theorem flat_ok {v : Point} (h0 : 0 < v.x ^ 2 + v.z ^ 2) (h : v.y ^ 2 ≤ 5 / 4 * (v.x ^ 2 + v.z ^ 2)) :
    0 < v.flat ∧ v.norm ≤ 3 / 2 * v.flat := by
  unfold Point.flat Point.norm
  refine ⟨sqrt_pos.mpr h0, ?_⟩
  rw [Real.sqrt_le_left (by positivity), mul_pow, sq_sqrt h0.le]
  linarith

theorem sight_facing (yaw : Int16) (pitch : Int8) (roll x y z : Int16) :
    sight (facing yaw pitch roll) (spot x y z) = turned yaw.toInt pitch.toInt roll.toInt ⟨x.toInt, y.toInt, z.toInt⟩ := by
  simp [sight, facing, spot, offset]

theorem turned_zero (v : Point) : turned 0 0 0 v = v := by
  simp [turned, radians, Point.turnX, Point.turnY, Point.turnZ]

theorem radians_45 : radians 45 = π / 4 := by unfold radians; ring
theorem radians_90 : radians 90 = π / 2 := by unfold radians; ring
theorem degrees_0 : degrees 0 = 0 := by unfold degrees; ring
theorem degrees_45 : degrees (π / 4) = 45 := by have := pi_ne_zero; unfold degrees; field_simp; norm_num
theorem degrees_135 : degrees (π - π / 4) = 135 := by have := pi_ne_zero; unfold degrees; field_simp; norm_num
theorem degrees_180 : degrees π = 180 := by have := pi_ne_zero; unfold degrees; field_simp
theorem degrees_neg (x : ℝ) : degrees (-x) = -degrees x := by unfold degrees; ring

/-- One test of the angles. -/
theorem passes_case {A : Arith} {rotate : Rotate} (hacc : Accurate rotate) {yaw : Int16} {pitch : Int8} {roll x y z : Int16}
    {as : List Int16} {es : List Int8} (v : Point) {θ φ : ℝ} (n e : ℤ) (hne : (0, 0, 0) ≠ (x, y, z))
    (hs : turned yaw.toInt pitch.toInt roll.toInt ⟨x.toInt, y.toInt, z.toInt⟩ = v) (h0 : 0 < v.x ^ 2 + v.z ^ 2)
    (hf : v.y ^ 2 ≤ 5 / 4 * (v.x ^ 2 + v.z ^ 2)) (hθ : Bearing v.x v.z θ) (hφ : Rise v.x v.y v.z φ)
    (hn : |degrees θ - n| ≤ 39 / 100) (he : |degrees φ - e| ≤ 39 / 100)
    (ha : ∀ a : Int16, -180 ≤ a.toInt → a.toInt ≤ 180 → (∃ k : ℤ, a.toInt = n + 360 * k) → a ∈ as)
    (hel : ∀ a : Int8, a.toInt = e → a ∈ es) :
    PosTest.Passes A rotate { a := facing yaw pitch roll, b := spot x y z, azimuth := as, elevation := es } :=
  have h := flat_ok h0 hf
  passes_angles hacc _ v θ φ n e hne (by rw [sight_facing, hs]) h.1 h.2 hθ hφ hn he rfl ha hel

theorem mem_one {a b : Int16} {n : ℤ} (h1 : -180 ≤ a.toInt) (h2 : a.toInt ≤ 180) (h : ∃ k : ℤ, a.toInt = n + 360 * k)
    (hb : b.toInt = n) (hn : -180 < n ∧ n < 180) : a ∈ [b] := by
  obtain ⟨k, hk⟩ := h
  rw [List.mem_singleton]
  exact Int16.toInt_inj.mp (by omega)

theorem mem_el {a b : Int8} {n : ℤ} (h : a.toInt = n) (hb : b.toInt = n) : a ∈ [b] := by
  rw [List.mem_singleton]
  exact Int8.toInt_inj.mp (by omega)

theorem mem_half {a : Int16} (h1 : -180 ≤ a.toInt) (h2 : a.toInt ≤ 180) (h : ∃ k : ℤ, a.toInt = 180 + 360 * k) :
    a ∈ [180, -180] := by
  obtain ⟨k, hk⟩ := h
  have : a.toInt = 180 ∨ a.toInt = -180 := by omega
  rw [List.mem_cons, List.mem_singleton]
  exact this.imp (fun h => Int16.toInt_inj.mp h) (fun h => Int16.toInt_inj.mp h)

theorem sees {A : Arith} {rotate : Rotate} (hacc : Accurate rotate) {x y z : Int16}
    {as : List Int16} {es : List Int8} {θ φ : ℝ} (n e : ℤ) (hne : (0, 0, 0) ≠ (x, y, z))
    (h0 : (0 : ℝ) < x.toInt ^ 2 + z.toInt ^ 2)
    (hf : (y.toInt : ℝ) ^ 2 ≤ 5 / 4 * (x.toInt ^ 2 + z.toInt ^ 2)) (hθ : Bearing x.toInt z.toInt θ) (hφ : Rise x.toInt y.toInt z.toInt φ)
    (hn : |degrees θ - n| ≤ 39 / 100) (he : |degrees φ - e| ≤ 39 / 100)
    (ha : ∀ a : Int16, -180 ≤ a.toInt → a.toInt ≤ 180 → (∃ k : ℤ, a.toInt = n + 360 * k) → a ∈ as)
    (hel : ∀ a : Int8, a.toInt = e → a ∈ es) :
    PosTest.Passes A rotate { a := facing 0 0 0, b := spot x y z, azimuth := as, elevation := es } :=
  passes_case hacc ⟨x.toInt, y.toInt, z.toInt⟩ n e hne
    (by rw [show (0 : Int16).toInt = 0 from rfl, show (0 : Int8).toInt = 0 from rfl]; push_cast; exact turned_zero _) h0 hf hθ hφ hn he ha hel

theorem int16_10 : (((10 : Int16).toInt : ℤ) : ℝ) = 10 := by rw [show (10 : Int16).toInt = 10 from rfl]; norm_num
theorem int16_m10 : (((-10 : Int16).toInt : ℤ) : ℝ) = -10 := by rw [show (-10 : Int16).toInt = -10 from rfl]; norm_num
theorem int16_0 : (((0 : Int16).toInt : ℤ) : ℝ) = 0 := by rw [show (0 : Int16).toInt = 0 from rfl]; norm_num
theorem int8_0 : (((0 : Int8).toInt : ℤ) : ℝ) = 0 := by rw [show (0 : Int8).toInt = 0 from rfl]; norm_num
theorem int16_45 : (((45 : Int16).toInt : ℤ) : ℝ) = 45 := by rw [show (45 : Int16).toInt = 45 from rfl]; norm_num
theorem int8_45 : (((45 : Int8).toInt : ℤ) : ℝ) = 45 := by rw [show (45 : Int8).toInt = 45 from rfl]; norm_num
theorem int16_90 : (((90 : Int16).toInt : ℤ) : ℝ) = 90 := by rw [show (90 : Int16).toInt = 90 from rfl]; norm_num
theorem int8_90 : (((90 : Int8).toInt : ℤ) : ℝ) = 90 := by rw [show (90 : Int8).toInt = 90 from rfl]; norm_num
theorem int16_m45 : (((-45 : Int16).toInt : ℤ) : ℝ) = -45 := by rw [show (-45 : Int16).toInt = -45 from rfl]; norm_num
theorem int8_35 : (((35 : Int8).toInt : ℤ) : ℝ) = 35 := by rw [show (35 : Int8).toInt = 35 from rfl]; norm_num
theorem int16_42 : (((42 : Int16).toInt : ℤ) : ℝ) = 42 := by rw [show (42 : Int16).toInt = 42 from rfl]; norm_num

theorem range_tests (A : Arith) (rotate : Rotate) : ∀ t ∈ rangeTests, t.Passes A rotate := by
  intro t ht
  simp only [rangeTests, List.mem_cons, List.not_mem_nil, or_false] at ht
  obtain rfl | rfl | rfl | rfl := ht
  · refine passes_range _ (by decide) (fun r h => List.mem_singleton.mpr (UInt16.toNat_inj.mp (h.trans ?_))) rfl rfl
    with_unfolding_all rfl
  · refine passes_range _ (by decide) (fun r h => List.mem_singleton.mpr (UInt16.toNat_inj.mp (h.trans ?_))) rfl rfl
    with_unfolding_all rfl
  · refine passes_range _ (by decide) (fun r h => List.mem_singleton.mpr (UInt16.toNat_inj.mp (h.trans ?_))) rfl rfl
    with_unfolding_all rfl
  · refine passes_range _ (by decide) (fun r h => List.mem_singleton.mpr (UInt16.toNat_inj.mp (h.trans ?_))) rfl rfl
    with_unfolding_all rfl

local macro "unit_angle" : tactic => `(tactic| (simp only [degrees_neg, degrees_0, degrees_45, degrees_135, degrees_180]; norm_num))
local macro "unit_num" : tactic => `(tactic| (simp only [int16_10, int16_m10, int16_0]; norm_num))

theorem azimuth_tests (A : Arith) (rotate : Rotate) (hacc : Accurate rotate) : ∀ t ∈ azimuthTests, t.Passes A rotate := by
  intro t ht
  simp only [azimuthTests, List.mem_cons, List.not_mem_nil, or_false] at ht
  obtain rfl | rfl | rfl | rfl := ht
  · refine sees hacc (θ := π / 4) (φ := 0) 45 0 (by decide) (by unit_num) (by unit_num) ?_ ?_ (by unit_angle) (by unit_angle) (fun a h1 h2 h => mem_one h1 h2 h rfl (by decide)) (fun a h => mem_el h rfl)
    · rw [int16_10]; exact bearing_45
    · rw [int16_10, int16_0]; exact rise_0 (by norm_num)
  · refine sees hacc (θ := -(π / 4)) (φ := 0) (-45) 0 (by decide) (by unit_num) (by unit_num) ?_ ?_ (by unit_angle) (by unit_angle) (fun a h1 h2 h => mem_one h1 h2 h rfl (by decide)) (fun a h => mem_el h rfl)
    · rw [int16_10, int16_m10]; exact bearing_neg45
    · rw [int16_10, int16_m10, int16_0]; exact rise_0 (by norm_num)
  · refine sees hacc (θ := π - π / 4) (φ := 0) 135 0 (by decide) (by unit_num) (by unit_num) ?_ ?_ (by unit_angle) (by unit_angle) (fun a h1 h2 h => mem_one h1 h2 h rfl (by decide)) (fun a h => mem_el h rfl)
    · rw [int16_10, int16_m10]; exact bearing_135
    · rw [int16_10, int16_m10, int16_0]; exact rise_0 (by norm_num)
  · refine sees hacc (θ := -(π - π / 4)) (φ := 0) (-135) 0 (by decide) (by unit_num) (by unit_num) ?_ ?_ (by unit_angle) (by unit_angle) (fun a h1 h2 h => mem_one h1 h2 h rfl (by decide)) (fun a h => mem_el h rfl)
    · rw [int16_m10]; exact bearing_neg135
    · rw [int16_m10, int16_0]; exact rise_0 (by norm_num)

theorem elevation_tests (A : Arith) (rotate : Rotate) (hacc : Accurate rotate) : ∀ t ∈ elevationTests, t.Passes A rotate := by
  intro t ht
  simp only [elevationTests, List.mem_cons, List.not_mem_nil, or_false] at ht
  obtain rfl | rfl | rfl | rfl := ht
  · refine sees hacc (θ := 0) (φ := π / 4) 0 45 (by decide) (by unit_num) (by unit_num) ?_ ?_ (by unit_angle) (by unit_angle) (fun a h1 h2 h => mem_one h1 h2 h rfl (by decide)) (fun a h => mem_el h rfl)
    · rw [int16_10, int16_0]; exact bearing_0 (by norm_num)
    · rw [int16_10, int16_0]; exact rise_45 (by norm_num) (by norm_num)
  · refine sees hacc (θ := 0) (φ := -(π / 4)) 0 (-45) (by decide) (by unit_num) (by unit_num) ?_ ?_ (by unit_angle) (by unit_angle) (fun a h1 h2 h => mem_one h1 h2 h rfl (by decide)) (fun a h => mem_el h rfl)
    · rw [int16_10, int16_0]; exact bearing_0 (by norm_num)
    · rw [int16_10, int16_0, int16_m10]; exact rise_neg45 (by norm_num) (by norm_num)
  · refine sees hacc (θ := π) (φ := π / 4) 180 45 (by decide) (by unit_num) (by unit_num) ?_ ?_ (by unit_angle) (by unit_angle) (fun a h1 h2 h => mem_half h1 h2 h) (fun a h => mem_el h rfl)
    · rw [int16_m10, int16_0]; exact bearing_180 (by norm_num)
    · rw [int16_10, int16_0, int16_m10]; exact rise_45 (by norm_num) (by norm_num)
  · refine sees hacc (θ := π) (φ := -(π / 4)) 180 (-45) (by decide) (by unit_num) (by unit_num) ?_ ?_ (by unit_angle) (by unit_angle) (fun a h1 h2 h => mem_half h1 h2 h) (fun a h => mem_el h rfl)
    · rw [int16_m10, int16_0]; exact bearing_180 (by norm_num)
    · rw [int16_0, int16_m10]; exact rise_neg45 (by norm_num) (by norm_num)

theorem rotation_tests (A : Arith) (rotate : Rotate) (hacc : Accurate rotate) : ∀ t ∈ rotationTests, t.Passes A rotate := by
  intro t ht
  have hp := pi_pos
  have h4 : 0 < √2 / 2 := by positivity
  simp only [rotationTests, List.mem_cons, List.not_mem_nil, or_false] at ht
  obtain rfl | rfl | rfl | rfl := ht
  · refine sees hacc (θ := 0) (φ := 0) 0 0 (by decide) (by unit_num) (by unit_num) ?_ ?_ (by unit_angle) (by unit_angle) (fun a h1 h2 h => mem_one h1 h2 h rfl (by decide)) (fun a h => mem_el h rfl)
    · rw [int16_10, int16_0]; exact bearing_0 (by norm_num)
    · rw [int16_10, int16_0]; exact rise_0 (by norm_num)
  · refine passes_case hacc ⟨10 * sin (π / 4), 0, 10 * cos (π / 4)⟩ (θ := π / 4) (φ := 0) 45 0 (by decide) ?_ ?_ ?_ ?_ ?_ (by unit_angle) (by unit_angle) (fun a h1 h2 h => mem_one h1 h2 h rfl (by decide)) (fun a h => mem_el h rfl)
    · simp only [int16_0, int16_10, int8_0, int16_45, turned, radians_45, Point.turnX, Point.turnY, Point.turnZ]
      simp [radians]
    · simp only [sin_pi_div_four, cos_pi_div_four]; positivity
    · simp only [sin_pi_div_four, cos_pi_div_four]; norm_num; positivity
    · exact bearing_of (r := 10) (by linarith) (by linarith) (by norm_num) rfl rfl
    · exact rise_0 (by rw [sin_pi_div_four, cos_pi_div_four]; positivity)
  · refine passes_case hacc ⟨0, -(10 * (√2 / 2)), 10 * (√2 / 2)⟩ (θ := 0) (φ := -(π / 4)) 0 (-45) (by decide) ?_ ?_ ?_ ?_ ?_ (by unit_angle) (by unit_angle) (fun a h1 h2 h => mem_one h1 h2 h rfl (by decide)) (fun a h => mem_el h rfl)
    · simp only [int16_0, int16_10, int8_0, int8_45, turned, radians_45, Point.turnX, Point.turnY, Point.turnZ, sin_pi_div_four, cos_pi_div_four]
      simp [radians]
    · simp only []; positivity
    · simp only []; nlinarith [sq_nonneg (10 * (√2 / 2))]
    · exact bearing_0 (by positivity)
    · exact rise_neg45 (by positivity) rfl
  · refine passes_case hacc ⟨0, 0, 10⟩ (θ := 0) (φ := 0) 0 0 (by decide) ?_ (by norm_num) (by norm_num) (bearing_0 (by norm_num)) (rise_0 (by norm_num)) (by unit_angle) (by unit_angle) (fun a h1 h2 h => mem_one h1 h2 h rfl (by decide)) (fun a h => mem_el h rfl)
    simp only [int16_0, int16_10, int8_0, int16_45, turned, Point.turnX, Point.turnY, Point.turnZ]
    simp [radians]

/-- Looking at the corner of the cube. -/
theorem last_sight : turned (-45) 35 42 ⟨10, 10, 10⟩ =
    ⟨-(10 * √3 * sin (corner - radians 35) * sin (radians 42)), 10 * √3 * sin (corner - radians 35) * cos (radians 42),
      10 * √3 * cos (corner - radians 35)⟩ := by
  have e : radians (-45) = -(π / 4) := by unfold radians; ring
  have h3 : √3 ≠ 0 := by positivity
  have hs : 10 * √3 * sin (corner - radians 35) = 10 * cos (radians 35) - 10 * √2 * sin (radians 35) := by
    rw [sin_sub, sin_corner, cos_corner]; field_simp
  have hc : 10 * √3 * cos (corner - radians 35) = 10 * √2 * cos (radians 35) + 10 * sin (radians 35) := by
    rw [cos_sub, sin_corner, cos_corner]; field_simp
  rw [hs, hc]
  simp only [turned, e, Point.turnX, Point.turnY, Point.turnZ, cos_neg, sin_neg, cos_pi_div_four, sin_pi_div_four]
  congr 1 <;> ring

theorem last_case (A : Arith) (rotate : Rotate) (hacc : Accurate rotate) :
    PosTest.Passes A rotate { a := facing (-45) 35 42, b := spot 10 10 10, azimuth := [0], elevation := [0] } := by
  have hp1 := pi_gt_d6
  have hp2 := pi_lt_d6
  have h3 := sqrt3_bounds
  have hδ := abs_le.mp corner_sub
  generalize hd : corner - radians 35 = δ at hδ
  have hb : |δ| ≤ 1 / 10 := by rw [abs_le]; norm_num at *; constructor <;> linarith [hδ.1, hδ.2]
  have hsin : |sin δ| ≤ 0.0053 := by rw [← hd]; refine sin_corner_sub.trans (by norm_num)
  have hcos : 0.999 ≤ cos δ := by
    have h := one_sub_sq_div_two_le_cos (x := δ)
    have : δ ^ 2 ≤ 0.00522 ^ 2 := by rw [← sq_abs]; exact pow_le_pow_left₀ (abs_nonneg _) (abs_le.mpr hδ) 2
    norm_num at *; linarith
  have hs := last_sight
  rw [hd] at hs
  generalize radians 42 = ρ at hs
  have hR : 0 < 10 * √3 := by linarith [h3.1]
  generalize hRe : 10 * √3 = R at hs hR
  have h42 : |sin ρ| ≤ 1 := abs_sin_le_one ρ
  have h42' : |cos ρ| ≤ 1 := abs_cos_le_one ρ
  have hx1 : |sin δ * sin ρ| ≤ 0.0053 := by
    rw [abs_mul]; exact (mul_le_mul hsin h42 (abs_nonneg _) (by norm_num)).trans (by norm_num)
  have hy1 : |sin δ * cos ρ| ≤ 0.0053 := by
    rw [abs_mul]; exact (mul_le_mul hsin h42' (abs_nonneg _) (by norm_num)).trans (by norm_num)
  have hz : 0 < R * cos δ := mul_pos hR (by norm_num at *; linarith)
  have hsq : (sin δ * sin ρ) ^ 2 + cos δ ^ 2 + (sin δ * cos ρ) ^ 2 = 1 := by
    have a := sin_sq_add_cos_sq δ; have b := sin_sq_add_cos_sq ρ
    linear_combination (sin δ) ^ 2 * b + a
  have hx2 := abs_le.mp hx1
  have hy2 := abs_le.mp hy1
  generalize hX : sin δ * sin ρ = X at *
  generalize hY : sin δ * cos ρ = Y at *
  generalize cos δ = C at *
  have hv : (⟨-(R * sin δ * sin ρ), R * sin δ * cos ρ, R * C⟩ : Point) = ⟨-(R * X), R * Y, R * C⟩ := by
    rw [← hX, ← hY]; simp only [mul_assoc]
  rw [hv] at hs
  have hC1 : (998 : ℝ) / 1000 ≤ C ^ 2 := by norm_num at *; nlinarith
  have hY2 : Y ^ 2 ≤ 1 / 1000 := by rw [← sq_abs]; refine (pow_le_pow_left₀ (abs_nonneg _) hy1 2).trans (by norm_num)
  have hX2 : X ^ 2 ≤ 1 / 1000 := by rw [← sq_abs]; refine (pow_le_pow_left₀ (abs_nonneg _) hx1 2).trans (by norm_num)
  have hR2 : 0 < R ^ 2 := by positivity
  have hC0 : 0 < C := by norm_num at *; linarith
  have hdeg : ∀ u : ℝ, |u| ≤ 0.0066 → |degrees u - (0 : ℤ)| ≤ 39 / 100 := by
    intro u hu
    have h0 : 0 < 180 / π := by positivity
    rw [Int.cast_zero, sub_zero, degrees, abs_mul, abs_of_pos h0, ← le_div_iff₀ h0]
    refine hu.trans ?_
    rw [div_div_eq_mul_div, le_div_iff₀ (by norm_num)]
    norm_num at *
    linarith
  refine passes_case hacc ⟨-(R * X), R * Y, R * C⟩ (θ := arctan (-X / C)) (φ := arcsin Y) 0 0 (by decide) ?_ ?_ ?_ ?_ ?_ (hdeg _ ?_) (hdeg _ ?_)
    (fun a h1 h2 h => mem_one h1 h2 h rfl (by decide)) (fun a h => mem_el h rfl)
  · simp only [int16_10, int16_m45, int8_35, int16_42]; exact hs
  · simp only []; positivity
  · simp only []; nlinarith
  · have h := cos_arctan_pos (-X / C)
    refine bearing_of (r := R * C / cos (arctan (-X / C))) (by linarith [neg_pi_div_two_lt_arctan (-X / C)])
      (by linarith [arctan_lt_pi_div_two (-X / C)]) (by positivity) (by field_simp) ?_
    have ht : sin (arctan (-X / C)) = -X / C * cos (arctan (-X / C)) := by
      conv_lhs => rw [← tan_mul_cos h.ne', tan_arctan]
    rw [ht]
    field_simp
  · refine rise_of (r := R) (f := √((R * X) ^ 2 + (R * C) ^ 2)) (neg_pi_div_two_le_arcsin _) (arcsin_le_pi_div_two _) hR ?_ (sqrt_nonneg _) ?_ ?_
    · simp only []; rw [sin_arcsin (by norm_num at *; linarith [hy2.1]) (by norm_num at *; linarith [hy2.2])]
    · simp only []; rw [sq_sqrt (by positivity)]; ring
    · rw [cos_arcsin, ← Real.sqrt_sq hR.le, ← Real.sqrt_mul (by positivity)]
      congr 1
      rw [Real.sqrt_sq hR.le]
      linear_combination R ^ 2 * hsq
  · refine (abs_arctan_le _).trans ?_
    rw [abs_div, abs_neg, abs_of_pos hC0, div_le_iff₀ hC0]
    norm_num at *; linarith
  · refine (tiny_of_sin (s := 0.0053) (abs_le.mpr ⟨neg_pi_div_two_le_arcsin _, arcsin_le_pi_div_two _⟩) ?_ le_rfl).trans (by norm_num)
    rw [sin_arcsin (by norm_num at *; linarith [hy2.1]) (by norm_num at *; linarith [hy2.2])]
    exact hy1

theorem complex_tests (A : Arith) (rotate : Rotate) (hacc : Accurate rotate) : ∀ t ∈ complexTests, t.Passes A rotate := by
  intro t ht
  have hco := abs_le.mp degrees_corner
  have hp1 : |degrees corner - (35 : ℤ)| ≤ 39 / 100 := by push_cast; exact degrees_corner.trans (by norm_num)
  have hp2 : |degrees (-corner) - (-35 : ℤ)| ≤ 39 / 100 := by
    rw [degrees_neg, abs_le]; push_cast; constructor <;> linarith [hco.1, hco.2]
  simp only [complexTests, List.mem_cons, List.not_mem_nil, or_false] at ht
  obtain rfl | rfl | rfl | rfl | rfl := ht
  · refine sees hacc (θ := π / 4) (φ := corner) 45 35 (by decide) (by unit_num) (by unit_num) ?_ ?_ (by unit_angle) hp1 (fun a h1 h2 h => mem_one h1 h2 h rfl (by decide)) (fun a h => mem_el h rfl)
    · rw [int16_10]; exact bearing_45
    · rw [int16_10]; exact rise_corner (by norm_num) (by norm_num)
  · refine passes_case hacc ⟨10, 10, -10⟩ (θ := π - π / 4) (φ := corner) 135 35 (by decide) ?_ (by norm_num) (by norm_num) bearing_135 (rise_corner (by norm_num) (by norm_num)) (by unit_angle) hp1 (fun a h1 h2 h => mem_one h1 h2 h rfl (by decide)) (fun a h => mem_el h rfl)
    simp only [int16_0, int16_10, int8_0, int16_90, turned, radians_90, Point.turnX, Point.turnY, Point.turnZ]
    simp [radians]
  · refine passes_case hacc ⟨10, -10, 10⟩ (θ := π / 4) (φ := -corner) 45 (-35) (by decide) ?_ (by norm_num) (by norm_num) bearing_45 (rise_neg_corner (by norm_num) (by norm_num)) (by unit_angle) hp2 (fun a h1 h2 h => mem_one h1 h2 h rfl (by decide)) (fun a h => mem_el h rfl)
    simp only [int16_0, int16_10, int8_0, int8_90, turned, radians_90, Point.turnX, Point.turnY, Point.turnZ]
    simp [radians]
  · refine passes_case hacc ⟨-10, 10, 10⟩ (θ := -(π / 4)) (φ := corner) (-45) 35 (by decide) ?_ (by norm_num) (by norm_num) bearing_neg45 (rise_corner (by norm_num) (by norm_num)) (by unit_angle) hp1 (fun a h1 h2 h => mem_one h1 h2 h rfl (by decide)) (fun a h => mem_el h rfl)
    simp only [int16_0, int16_10, int8_0, int16_90, turned, radians_90, Point.turnX, Point.turnY, Point.turnZ]
    simp [radians]
  · exact last_case A rotate hacc

end Pica
