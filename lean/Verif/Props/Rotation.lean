import Verif.Props.Position
import Verif.Proofs.Glam
/-! C85: how a turned device sees its peers. -/

namespace Pica.Props
open Pica.Spec Real

/-- C85: the rotation by quaternions is accurate. -/
theorem C85_accurate (A : Arith) (rotate : Rotate) (h : Glam A rotate) : Accurate rotate := glam_accurate h

theorem near_sight {rotate : Rotate} (hacc : Accurate rotate) (A : Arith) (p q : Position) :
    Near (2⁻¹ ^ 12 * (sight p q).norm)
      (rotate p.yaw p.pitch p.roll (A.diff p.x q.x) (A.diff p.y q.y) (A.diff p.z q.z)) (sight p q) := by
  have e : ∀ a b : Int16, A.diff a b = (b.toInt : ℝ) - a.toInt := by intro a b; rw [A.diff_eq]; push_cast; rfl
  rw [e, e, e]
  have h := hacc p.yaw p.pitch p.roll (q.x.toInt - p.x.toInt) (q.y.toInt - p.y.toInt) (q.z.toInt - p.z.toInt)
  unfold sight
  rw [Point.norm_turned]
  exact ⟨h.1, h.2.1, h.2.2⟩

theorem norm_offset {p q : Position} (h : (p.x, p.y, p.z) ≠ (q.x, q.y, q.z)) : 1 ≤ (offset p q).norm := by
  unfold Point.norm offset
  rw [Real.one_le_sqrt]
  have key : (1 : ℤ) ≤ (q.x.toInt - p.x.toInt) ^ 2 + (q.y.toInt - p.y.toInt) ^ 2 + (q.z.toInt - p.z.toInt) ^ 2 := by
    by_contra hn
    apply h
    have hx : (q.x.toInt - p.x.toInt) ^ 2 = 0 := by
      nlinarith [sq_nonneg (q.x.toInt - p.x.toInt), sq_nonneg (q.y.toInt - p.y.toInt), sq_nonneg (q.z.toInt - p.z.toInt)]
    have hy : (q.y.toInt - p.y.toInt) ^ 2 = 0 := by
      nlinarith [sq_nonneg (q.x.toInt - p.x.toInt), sq_nonneg (q.y.toInt - p.y.toInt), sq_nonneg (q.z.toInt - p.z.toInt)]
    have hz : (q.z.toInt - p.z.toInt) ^ 2 = 0 := by
      nlinarith [sq_nonneg (q.x.toInt - p.x.toInt), sq_nonneg (q.y.toInt - p.y.toInt), sq_nonneg (q.z.toInt - p.z.toInt)]
    have hx := pow_eq_zero_iff (two_ne_zero) |>.mp hx
    have hy := pow_eq_zero_iff (two_ne_zero) |>.mp hy
    have hz := pow_eq_zero_iff (two_ne_zero) |>.mp hz
    simp only [Prod.mk.injEq]
    exact ⟨Int16.toInt_inj.mp (by omega), Int16.toInt_inj.mp (by omega), Int16.toInt_inj.mp (by omega)⟩
  dsimp only
  exact_mod_cast key

theorem norm_sight {p q : Position} (h : (p.x, p.y, p.z) ≠ (q.x, q.y, q.z)) : 1 ≤ (sight p q).norm := by
  unfold sight
  rw [Point.norm_turned]
  exact norm_offset h

/-- C85: the elevation is that of the offset of the peer turned by yaw, pitch and roll. -/
theorem C85_elevation (A : Arith) (rotate : Rotate) (hacc : Accurate rotate) (p q : Position)
    (hne : (p.x, p.y, p.z) ≠ (q.x, q.y, q.z)) (φ : ℝ) (hφ : Rise (sight p q).x (sight p q).y (sight p q).z φ) :
    ∃ m, A.compute rotate p q = .ok m ∧ |(m.elevation.toInt : ℝ) - degrees φ| ≤ 6 / 10 := by
  obtain ⟨m, hm, -, -, he⟩ := A.compute_ok rotate p q
  refine ⟨m, hm, ?_⟩
  rw [he]
  exact A.elevation_near (norm_sight hne) (near_sight hacc A p q) hφ

/-- C85: the azimuth is that of the offset of the peer turned by yaw, pitch and roll, the more exactly the further the peer
appears from the vertical axis. -/
theorem C85_azimuth (A : Arith) (rotate : Rotate) (hacc : Accurate rotate) (p q : Position) (θ : ℝ)
    (hθ : Bearing (sight p q).x (sight p q).z θ) (hf : (sight p q).norm ≤ 1000 * (sight p q).flat) :
    ∃ m, A.compute rotate p q = .ok m ∧
      Agree (501 / 1000 + 7 / 100 * ((sight p q).norm / (sight p q).flat)) m.azimuth.toInt (degrees θ) := by
  obtain ⟨m, hm, -, ha, -⟩ := A.compute_ok rotate p q
  refine ⟨m, hm, ?_⟩
  rw [ha]
  exact A.azimuth_near (near_sight hacc A p q) hf hθ

theorem bearing_turnY {v : Point} {θ a : ℝ} (h : Bearing v.x v.z θ) :
    ∃ ψ, Bearing (v.turnY a).x (v.turnY a).z ψ ∧ ∃ k : ℤ, ψ = θ + a + 2 * π * k := by
  obtain ⟨-, -, r, hr, hz, hx⟩ := h
  have hpos := pi_pos
  have hper : (0 : ℝ) < 2 * π := by linarith
  obtain ⟨k, hk, -⟩ := existsUnique_add_zsmul_mem_Ioc hper (θ + a) (-π)
  rw [zsmul_eq_mul] at hk
  obtain ⟨h1, h2⟩ := hk
  refine ⟨θ + a + 2 * π * k, ⟨by linarith, by linarith, r, hr, ?_, ?_⟩, k, rfl⟩
  · rw [show θ + a + 2 * π * (k : ℝ) = θ + a + k * (2 * π) by ring, cos_add_int_mul_two_pi, cos_add]
    simp only [Point.turnY]
    rw [hz, hx]; ring
  · rw [show θ + a + 2 * π * (k : ℝ) = θ + a + k * (2 * π) by ring, sin_add_int_mul_two_pi, sin_add]
    simp only [Point.turnY]
    rw [hz, hx]; ring

/-- C85: a yaw is added to the azimuth of the unturned device and leaves the elevation as it is. -/
theorem C85_yaw (A : Arith) (rotate : Rotate) (hacc : Accurate rotate) (p q : Position) (hp : (p.pitch, p.roll) = (0, 0))
    (hne : (p.x, p.y, p.z) ≠ (q.x, q.y, q.z)) (θ φ : ℝ) (hθ : Bearing (offset p q).x (offset p q).z θ)
    (hφ : Rise (offset p q).x (offset p q).y (offset p q).z φ) (hf : (offset p q).norm ≤ 1000 * (offset p q).flat) :
    ∃ m, A.compute rotate p q = .ok m ∧ |(m.elevation.toInt : ℝ) - degrees φ| ≤ 6 / 10 ∧
      Agree (501 / 1000 + 7 / 100 * ((offset p q).norm / (offset p q).flat)) m.azimuth.toInt (degrees θ + p.yaw.toInt) := by
  simp only [Prod.mk.injEq] at hp
  have hs : sight p q = (offset p q).turnY (radians p.yaw.toInt) := by
    unfold sight turned
    rw [hp.1, hp.2]
    have e1 : radians ((0 : Int8).toInt : ℤ) = 0 := by simp [radians]
    have e2 : radians ((0 : Int16).toInt : ℤ) = 0 := by simp [radians]
    rw [e1, e2, Point.turnX_zero, Point.turnZ_zero]
  obtain ⟨ψ, hψ, k, hk⟩ := bearing_turnY (a := radians p.yaw.toInt) hθ
  rw [← hs] at hψ
  have hfl : (sight p q).flat = (offset p q).flat := by rw [hs, Point.flat_turnY]
  have hno : (sight p q).norm = (offset p q).norm := by rw [hs, Point.norm_turnY]
  obtain ⟨m, hm, j, ha⟩ := C85_azimuth A rotate hacc p q ψ hψ (by rw [hfl, hno]; exact hf)
  obtain ⟨m', hm', he⟩ := C85_elevation A rotate hacc p q hne φ (by
    obtain ⟨h1, h2, r, hr, hy, hh⟩ := hφ
    refine ⟨h1, h2, r, hr, by rw [hs]; exact hy, ?_⟩
    have : √((sight p q).x ^ 2 + (sight p q).z ^ 2) = (sight p q).flat := rfl
    rw [this, hfl]; exact hh)
  rw [hm] at hm'
  cases hm'
  refine ⟨m, hm, he, j + k, ?_⟩
  rw [hfl, hno] at ha
  have e : degrees ψ + 360 * (j : ℝ) = degrees θ + p.yaw.toInt + 360 * ((j + k : ℤ) : ℝ) := by
    rw [hk]
    unfold degrees radians
    have := pi_pos
    push_cast
    field_simp
    ring
  rw [← e]
  exact ha

/-- C85: for a peer straight ahead, above or below, a pitch lowers the elevation. -/
theorem C85_pitch (A : Arith) (rotate : Rotate) (hacc : Accurate rotate) (p q : Position) (hp : (p.yaw, p.roll) = (0, 0))
    (hne : (p.x, p.y, p.z) ≠ (q.x, q.y, q.z)) (hx : p.x = q.x) (hz : 0 ≤ (offset p q).z) (φ : ℝ)
    (hφ : Rise (offset p q).x (offset p q).y (offset p q).z φ) (hr : |degrees φ - p.pitch.toInt| ≤ 90) :
    ∃ m, A.compute rotate p q = .ok m ∧ |(m.elevation.toInt : ℝ) - (degrees φ - p.pitch.toInt)| ≤ 6 / 10 := by
  simp only [Prod.mk.injEq] at hp
  have hpos := pi_pos
  have hs : sight p q = (offset p q).turnX (radians p.pitch.toInt) := by
    unfold sight turned
    rw [hp.1, hp.2]
    have e2 : radians ((0 : Int16).toInt : ℤ) = 0 := by simp [radians]
    rw [e2, Point.turnY_zero, Point.turnZ_zero]
  have hx0 : (offset p q).x = 0 := by unfold offset; rw [hx]; simp
  obtain ⟨-, -, r, hr0, hy, hh⟩ := hφ
  rw [hx0] at hh
  have hz' : (offset p q).z = r * cos φ := by
    rw [← hh, show (0 : ℝ) ^ 2 + (offset p q).z ^ 2 = (offset p q).z ^ 2 by ring, Real.sqrt_sq hz]
  have hd : degrees (φ - radians p.pitch.toInt) = degrees φ - p.pitch.toInt := by
    unfold degrees radians; field_simp
  have hr' := abs_le.mp hr
  rw [← hd] at hr'
  have hb : -(π / 2) ≤ φ - radians p.pitch.toInt ∧ φ - radians p.pitch.toInt ≤ π / 2 := by
    unfold degrees at hr'
    generalize φ - radians p.pitch.toInt = u at *
    rw [mul_div_assoc', le_div_iff₀ hpos, div_le_iff₀ hpos] at hr'
    constructor <;> linarith
  have hzs : (sight p q).z = r * cos (φ - radians p.pitch.toInt) := by
    rw [hs, cos_sub]; simp only [Point.turnX]; rw [hz', hy]; ring
  obtain ⟨m, hm, he⟩ := C85_elevation A rotate hacc p q hne (φ - radians p.pitch.toInt) (by
    refine ⟨hb.1, hb.2, r, hr0, ?_, ?_⟩
    · rw [hs, sin_sub]; simp only [Point.turnX]; rw [hz', hy]; ring
    · have hxs : (sight p q).x = 0 := by rw [hs]; exact hx0
      have hc : 0 ≤ cos (φ - radians p.pitch.toInt) := cos_nonneg_of_mem_Icc hb
      rw [hxs, hzs, show (0 : ℝ) ^ 2 + (r * cos (φ - radians p.pitch.toInt)) ^ 2 =
        (r * cos (φ - radians p.pitch.toInt)) ^ 2 by ring, Real.sqrt_sq (by positivity)])
  exact ⟨m, hm, by rwa [hd] at he⟩

theorem sin_agree {a b ε : ℝ} (h : Agree ε a b) : |sin (radians a - radians b)| ≤ radians ε ∧
    1 - radians ε ^ 2 / 2 ≤ cos (radians a - radians b) := by
  obtain ⟨k, hk⟩ := h
  have hpos := pi_pos
  have e : radians a - radians b = radians (a - (b + 360 * k)) + k * (2 * π) := by
    unfold radians; field_simp; ring
  rw [e, sin_add_int_mul_two_pi, cos_add_int_mul_two_pi]
  generalize a - (b + 360 * (k : ℝ)) = u at *
  have hu : |radians u| ≤ radians ε := by
    unfold radians
    rw [abs_mul, abs_of_pos (show 0 < π / 180 by positivity)]
    exact mul_le_mul_of_nonneg_right hk (by positivity)
  refine ⟨abs_sin_le_abs.trans hu, le_trans ?_ one_sub_sq_div_two_le_cos⟩
  have : radians u ^ 2 ≤ radians ε ^ 2 := by
    rw [← sq_abs]
    exact pow_le_pow_left₀ (abs_nonneg _) hu 2
  linarith

/-- An angle of at most a right one is small if its sine is. -/
theorem small_of_sin {u : ℝ} (h : |u| ≤ π / 2) {s : ℝ} (hs : |sin u| ≤ s) : |u| ≤ π / 2 * s := by
  have hpos := pi_pos
  have h1 := mul_le_sin (abs_nonneg u) h
  have h2 : |sin u| = sin |u| := by
    rcases le_total 0 u with h0 | h0
    · rw [abs_of_nonneg h0] at h ⊢
      exact abs_of_nonneg (sin_nonneg_of_nonneg_of_le_pi h0 (by linarith))
    · rw [abs_of_nonpos h0] at h ⊢
      rw [sin_neg]
      exact abs_of_nonpos (sin_nonpos_of_nonpos_of_neg_pi_le h0 (by linarith))
  rw [h2] at hs
  calc |u| = π / 2 * (2 / π * |u|) := by field_simp
    _ ≤ π / 2 * s := mul_le_mul_of_nonneg_left (h1.trans hs) (by linarith)

theorem roll_small {X Y s c : ℝ} (h1 : |X| ≤ 873 / 100000) (h2 : |Y| ≤ 878 / 100000) (h3 : s ^ 2 + c ^ 2 = 1) :
    |X * c - Y * s| ≤ 125 / 10000 := by
  have hX : X ^ 2 ≤ (873 / 100000) ^ 2 := by rw [← sq_abs]; exact pow_le_pow_left₀ (abs_nonneg _) h1 2
  have hY : Y ^ 2 ≤ (878 / 100000) ^ 2 := by rw [← sq_abs]; exact pow_le_pow_left₀ (abs_nonneg _) h2 2
  apply abs_le_of_sq_le_sq _ (by norm_num)
  have e : (X * c - Y * s) ^ 2 + (X * s + Y * c) ^ 2 = (X ^ 2 + Y ^ 2) * (s ^ 2 + c ^ 2) := by ring
  rw [h3, mul_one] at e
  have h4 := sq_nonneg (X * s + Y * c)
  have h5 : ((873 : ℝ) / 100000) ^ 2 + (878 / 100000) ^ 2 ≤ (125 / 10000) ^ 2 := by norm_num
  linarith

/-- What a device aimed at a point to within half a degree sees. -/
theorem aim_sight {v : Point} {θ φ yaw pitch roll : ℝ} (hv : 0 < v.norm) (hx : v.x = v.norm * cos φ * sin θ)
    (hy : v.y = v.norm * sin φ) (hz : v.z = v.norm * cos φ * cos θ) (ha : Agree (1 / 2) (-yaw) (degrees θ))
    (he : |pitch - degrees φ| ≤ 1 / 2) :
    |(turned yaw pitch roll v).x| ≤ 125 / 10000 * v.norm ∧ |(turned yaw pitch roll v).y| ≤ 125 / 10000 * v.norm ∧
      9995 / 10000 * v.norm ≤ (turned yaw pitch roll v).z := by
  have hpos := pi_pos
  have hp6 := pi_lt_d6
  generalize hr : v.norm = r at *
  have hdr : ∀ t, radians (degrees t) = t := by intro t; unfold radians degrees; field_simp
  have hneg : radians (-yaw) = -radians yaw := by unfold radians; ring
  obtain ⟨hs1, hc1⟩ := sin_agree ha
  obtain ⟨hs2, hc2⟩ := sin_agree (a := pitch) (b := degrees φ) (ε := 1 / 2) ⟨0, by simpa using he⟩
  rw [hdr, hneg] at hs1 hc1
  rw [hdr] at hs2 hc2
  have hrad : radians (1 / 2) ≤ 873 / 100000 := by unfold radians; linarith
  have hrad0 : 0 ≤ radians (1 / 2) := by unfold radians; positivity
  have hrad2 : radians (1 / 2) ^ 2 / 2 ≤ 1 / 25000 := by nlinarith
  set a := radians yaw with hadef
  set b := radians pitch with hbdef
  -- the sum of bearing and yaw
  have es : sin (θ + a) = -sin (-a - θ) := by rw [← sin_neg]; congr 1; ring
  have ec : cos (θ + a) = cos (-a - θ) := by rw [← cos_neg]; congr 1; ring
  have hS : |sin (θ + a)| ≤ 873 / 100000 := by rw [es, abs_neg]; exact hs1.trans hrad
  have hC : 1 - 1 / 25000 ≤ cos (θ + a) := by rw [ec]; linarith
  have hC1 := cos_le_one (θ + a)
  have hS2 : |sin (b - φ)| ≤ 873 / 100000 := hs2.trans hrad
  have hC2 : 1 - 1 / 25000 ≤ cos (b - φ) := by linarith
  have e1 : (v.turnY a).x = r * cos φ * sin (θ + a) := by
    simp only [Point.turnY]; rw [hx, hz, sin_add]; ring
  have e2 : (v.turnY a).z = r * cos φ * cos (θ + a) := by
    simp only [Point.turnY]; rw [hx, hz, cos_add]; ring
  have e3 : (v.turnY a).y = r * sin φ := hy
  -- before the roll
  set w := (v.turnY a).turnX b with hw
  have wx : w.x = r * (cos φ * sin (θ + a)) := by rw [hw]; show (v.turnY a).x = _; rw [e1]; ring
  have wy : w.y = r * (-sin (b - φ) + cos φ * sin b * (1 - cos (θ + a))) := by
    rw [hw]; show (v.turnY a).y * cos b - (v.turnY a).z * sin b = _
    rw [e2, e3, sin_sub]; ring
  have wz : w.z = r * (cos (b - φ) - cos φ * cos b * (1 - cos (θ + a))) := by
    rw [hw]; show (v.turnY a).z * cos b + (v.turnY a).y * sin b = _
    rw [e2, e3, cos_sub]; ring
  have hcp := abs_cos_le_one φ
  have one : ∀ x y : ℝ, |x| ≤ 1 → |y| ≤ 1 → |x * y| ≤ 1 := fun x y h1 h2 => by
    rw [abs_mul]; exact mul_le_one₀ h1 (abs_nonneg _) h2
  have bx : |cos φ * sin (θ + a)| ≤ 873 / 100000 := by
    rw [abs_mul]
    nlinarith [abs_nonneg (cos φ), abs_nonneg (sin (θ + a))]
  have hsb := abs_le.mp hS2
  have tiny : ∀ x : ℝ, |x| ≤ 1 → |x * (1 - cos (θ + a))| ≤ 1 / 25000 := by
    intro x h
    rw [abs_mul, abs_of_nonneg (show 0 ≤ 1 - cos (θ + a) by linarith)]
    calc |x| * (1 - cos (θ + a)) ≤ 1 * (1 - cos (θ + a)) := mul_le_mul_of_nonneg_right h (by linarith)
      _ ≤ 1 / 25000 := by linarith
  have t1 := abs_le.mp (tiny _ (one _ _ hcp (abs_sin_le_one b)))
  have t2 := abs_le.mp (tiny _ (one _ _ hcp (abs_cos_le_one b)))
  have by' : |-sin (b - φ) + cos φ * sin b * (1 - cos (θ + a))| ≤ 878 / 100000 := by
    rw [abs_le]; constructor <;> linarith
  have bz : 9995 / 10000 ≤ cos (b - φ) - cos φ * cos b * (1 - cos (θ + a)) := by linarith
  have h1 := sin_sq_add_cos_sq (radians roll)
  refine ⟨?_, ?_, ?_⟩
  · show |w.x * cos _ - w.y * sin _| ≤ _
    rw [wx, wy, mul_assoc r, mul_assoc r, ← mul_sub, abs_mul, abs_of_pos hv, mul_comm]
    exact mul_le_mul_of_nonneg_right (roll_small bx by' h1) hv.le
  · show |w.y * cos _ + w.x * sin _| ≤ _
    have e : ∀ Y X c s : ℝ, r * Y * c + r * X * s = r * (X * s - Y * (-c)) := by intros; ring
    rw [wx, wy, e, abs_mul, abs_of_pos hv, mul_comm]
    exact mul_le_mul_of_nonneg_right (roll_small bx by' (by rw [neg_sq, add_comm]; exact h1)) hv.le
  · show _ ≤ w.z
    rw [wz, mul_comm]
    exact mul_le_mul_of_nonneg_left bz hv.le

/-- C85: a device that is turned towards its peer, to the nearest degree, sees it straight ahead, to the nearest degree but
one, whatever its roll. -/
theorem C85_aim (A : Arith) (rotate : Rotate) (hacc : Accurate rotate) (p q : Position)
    (hne : (p.x, p.y, p.z) ≠ (q.x, q.y, q.z)) (θ φ : ℝ) (hθ : Bearing (offset p q).x (offset p q).z θ)
    (hφ : Rise (offset p q).x (offset p q).y (offset p q).z φ) (hyaw : Agree (1 / 2) (-p.yaw.toInt) (degrees θ))
    (hpitch : |p.pitch.toInt - degrees φ| ≤ 1 / 2) :
    ∃ m, A.compute rotate p q = .ok m ∧ |m.azimuth.toInt| ≤ 1 ∧ |m.elevation.toInt| ≤ 1 := by
  have hpos := pi_pos
  have hp6 := pi_lt_d6
  have hp3 := pi_gt_d6
  have hv := norm_offset hne
  obtain ⟨h1, h2, r, hr, hy, hh⟩ := hφ
  obtain ⟨h3, h4, ρ, hρ, hz, hx⟩ := hθ
  have hfl : ρ = r * cos φ := by
    rw [← hh, hx, hz]
    symm
    rw [Real.sqrt_eq_iff_mul_self_eq (by positivity) hρ.le]
    have := sin_sq_add_cos_sq θ
    linear_combination ρ ^ 2 * this
  have hrn : r = (offset p q).norm := by
    unfold Point.norm
    symm
    rw [Real.sqrt_eq_iff_mul_self_eq (by positivity) hr.le, hx, hy, hz, hfl]
    have e1 := sin_sq_add_cos_sq θ
    have e2 := sin_sq_add_cos_sq φ
    linear_combination (r * cos φ) ^ 2 * e1 + r ^ 2 * e2
  rw [hfl] at hx hz
  rw [hrn] at hx hy hz
  obtain ⟨sx, sy, sz⟩ := aim_sight (roll := p.roll.toInt) (by linarith) hx hy hz hyaw hpitch
  change |(sight p q).x| ≤ _ at sx
  change |(sight p q).y| ≤ _ at sy
  change _ ≤ (sight p q).z at sz
  have hns : (sight p q).norm = (offset p q).norm := by unfold sight; rw [Point.norm_turned]
  rw [← hns] at sx sy sz hv
  obtain ⟨m, hm, -, ha, he⟩ := A.compute_ok rotate p q
  have hrange := A.azimuth_range (rotate p.yaw p.pitch p.roll (A.diff p.x q.x) (A.diff p.y q.y) (A.diff p.z q.z))
  rw [← ha] at hrange
  have hzf : (sight p q).z ≤ (sight p q).flat := by
    refine Real.le_sqrt_of_sq_le ?_
    nlinarith [sq_nonneg (sight p q).x]
  refine ⟨m, hm, ?_, ?_⟩
  · obtain ⟨ψ, hp1, hp2, hc, hs, hq⟩ := exists_angle (sight p q).z (sight p q).x
    have hq := hq (by linarith)
    have e : √((sight p q).z ^ 2 + (sight p q).x ^ 2) = (sight p q).flat := by rw [add_comm]; rfl
    rw [e] at hc hs
    have hf0 : 0 < (sight p q).flat := by linarith
    obtain ⟨m', hm', k, hk⟩ := C85_azimuth A rotate hacc p q ψ ⟨hp1, hp2, _, hf0, hc, hs⟩ (by linarith)
    rw [hm] at hm'
    cases hm'
    have hsin : |sin ψ| ≤ 126 / 10000 := by
      have : |(sight p q).x| = (sight p q).flat * |sin ψ| := by rw [hs, abs_mul, abs_of_pos hf0]
      rw [this] at sx
      by_contra hn
      have := mul_le_mul_of_nonneg_left (not_le.mp hn).le hf0.le
      nlinarith
    have hsm := small_of_sin hq hsin
    have hdeg : |degrees ψ| ≤ 12 / 10 := by
      unfold degrees
      rw [abs_mul, abs_of_pos (show 0 < 180 / π by positivity), mul_div_assoc', div_le_iff₀ hpos]
      linarith
    have hrat : (sight p q).norm / (sight p q).flat ≤ 1001 / 1000 := by
      rw [div_le_iff₀ hf0]; linarith
    have hk := abs_le.mp hk
    have hdeg := abs_le.mp hdeg
    have hl : (-180 : ℝ) ≤ m.azimuth.toInt := by exact_mod_cast hrange.1
    have hu : (m.azimuth.toInt : ℝ) ≤ 180 := by exact_mod_cast hrange.2
    have k1 : (-1 : ℝ) < k := by linarith
    have k2 : (k : ℝ) < 1 := by linarith
    have k1 : -1 < k := by exact_mod_cast k1
    have k2 : k < 1 := by exact_mod_cast k2
    have k0 : k = 0 := by omega
    rw [k0, Int.cast_zero, mul_zero, add_zero] at hk
    have a1 : (-2 : ℝ) < m.azimuth.toInt := by linarith
    have a2 : (m.azimuth.toInt : ℝ) < 2 := by linarith
    have a1 : -2 < m.azimuth.toInt := by exact_mod_cast a1
    have a2 : m.azimuth.toInt < 2 := by exact_mod_cast a2
    rw [abs_le]
    constructor <;> omega
  · obtain ⟨ψ, -, -, hc, hs, hq⟩ := exists_angle (sight p q).flat (sight p q).y
    have hq := hq (Point.flat_nonneg _)
    have e : √((sight p q).flat ^ 2 + (sight p q).y ^ 2) = (sight p q).norm := by
      rw [Point.flat_sq]; unfold Point.norm; congr 1; ring
    rw [e] at hc hs
    have hn0 : 0 < (sight p q).norm := by linarith
    obtain ⟨hq1, hq2⟩ := abs_le.mp hq
    obtain ⟨m', hm', hk⟩ := C85_elevation A rotate hacc p q hne ψ ⟨hq1, hq2, _, hn0, hs, hc⟩
    rw [hm] at hm'
    cases hm'
    have hsin : |sin ψ| ≤ 125 / 10000 := by
      have : |(sight p q).y| = (sight p q).norm * |sin ψ| := by rw [hs, abs_mul, abs_of_pos hn0]
      rw [this] at sy
      by_contra hn
      have := mul_lt_mul_of_pos_left (not_le.mp hn) hn0
      linarith
    have hsm := small_of_sin hq hsin
    have hdeg : |degrees ψ| ≤ 12 / 10 := by
      unfold degrees
      rw [abs_mul, abs_of_pos (show 0 < 180 / π by positivity), mul_div_assoc', div_le_iff₀ hpos]
      linarith
    have hk := abs_le.mp hk
    have hdeg := abs_le.mp hdeg
    have a1 : (-2 : ℝ) < m.elevation.toInt := by linarith
    have a2 : (m.elevation.toInt : ℝ) < 2 := by linarith
    have a1 : -2 < m.elevation.toInt := by exact_mod_cast a1
    have a2 : m.elevation.toInt < 2 := by exact_mod_cast a2
    rw [abs_le]
    constructor <;> omega

/-! ### A rotation, and a device turned by 45 degrees -/

/-- The rotation with the errors of `to_radians` alone. -/
noncomputable def byQuaternion (A : Arith) : Rotate := fun yaw pitch roll x y z =>
  let v := mulVec (halfZ (A.toRadians roll.toInt) * halfX (A.toRadians pitch.toInt) * halfY (A.toRadians yaw.toInt)) ⟨x, y, z⟩
  vec v.x v.y v.z

example : Glam .ieee (byQuaternion .ieee) := by
  intro yaw pitch roll x y z
  have h := mul_nonneg (show (0 : ℝ) ≤ 2⁻¹ ^ 18 by positivity) (⟨x, y, z⟩ : Point).norm_nonneg
  refine ⟨_, ⟨_, _, _, _, by rw [sub_self, norm_zero]; positivity, by rw [sub_self, norm_zero]; positivity,
    by rw [sub_self, norm_zero]; positivity, by rw [sub_self, norm_zero]; positivity, by rw [sub_self, norm_zero]; positivity⟩,
    ?_, ?_, ?_⟩ <;> simpa [byQuaternion, vec] using h

/-- A peer straight ahead of a device with a yaw of 45 degrees is reported at 45 degrees. -/
example (A : Arith) (rotate : Rotate) (h : Glam A rotate) :
    ∃ m, A.compute rotate ⟨0, 0, 0, 45, 0, 0⟩ ⟨0, 0, 10, 0, 0, 0⟩ = .ok m ∧ m.azimuth = 45 ∧ m.elevation = 0 := by
  have hpos := pi_pos
  have e0 : (0 : Int16).toInt = 0 := rfl
  have e10 : (10 : Int16).toInt = 10 := rfl
  have ho : offset ⟨0, 0, 0, 45, 0, 0⟩ ⟨0, 0, 10, 0, 0, 0⟩ = ⟨0, 0, 10⟩ := by
    unfold offset; simp [e0, e10]
  have hn : (⟨0, 0, 10⟩ : Point).norm = 10 := by
    unfold Point.norm; rw [Real.sqrt_eq_iff_mul_self_eq (by positivity) (by norm_num)]; norm_num
  have hf : (⟨0, 0, 10⟩ : Point).flat = 10 := by
    unfold Point.flat; rw [Real.sqrt_eq_iff_mul_self_eq (by positivity) (by norm_num)]; norm_num
  obtain ⟨m, hm, he, k, ha⟩ := C85_yaw A rotate (C85_accurate A rotate h) ⟨0, 0, 0, 45, 0, 0⟩ ⟨0, 0, 10, 0, 0, 0⟩ rfl (by decide) 0 0
    (by rw [ho]; exact ⟨by linarith, hpos.le, 10, by norm_num, by simp, by simp⟩)
    (by
      rw [ho]
      have e : √((0 : ℝ) ^ 2 + 10 ^ 2) = 10 := hf
      exact ⟨by linarith, by linarith, 10, by norm_num, by simp, by rw [cos_zero, mul_one]; exact e⟩)
    (by rw [ho, hn, hf]; norm_num)
  have hr := C55_angles A rotate ⟨0, 0, 0, 45, 0, 0⟩ ⟨0, 0, 10, 0, 0, 0⟩
  obtain ⟨m', hm', r1, r2, -⟩ := hr
  rw [hm] at hm'
  cases hm'
  rw [ho, hn, hf] at ha
  simp only [degrees, zero_mul, zero_add, sub_zero] at ha he
  rw [show ((45 : Int16).toInt : ℤ) = 45 from rfl] at ha
  have ha := abs_le.mp ha
  have he := abs_le.mp he
  have r1 : (-180 : ℝ) ≤ m.azimuth.toInt := by exact_mod_cast r1
  have r2 : (m.azimuth.toInt : ℝ) ≤ 180 := by exact_mod_cast r2
  norm_num at ha
  have k1 : (-1 : ℝ) < k := by linarith
  have k2 : (k : ℝ) < 1 := by linarith
  have k1 : -1 < k := by exact_mod_cast k1
  have k2 : k < 1 := by exact_mod_cast k2
  have k0 : k = 0 := by omega
  rw [k0] at ha
  norm_num at ha
  have a1 : (44 : ℝ) < m.azimuth.toInt := by linarith
  have a2 : (m.azimuth.toInt : ℝ) < 46 := by linarith
  have a1 : 44 < m.azimuth.toInt := by exact_mod_cast a1
  have a2 : m.azimuth.toInt < 46 := by exact_mod_cast a2
  have b1 : (-1 : ℝ) < m.elevation.toInt := by linarith
  have b2 : (m.elevation.toInt : ℝ) < 1 := by linarith
  have b1 : -1 < m.elevation.toInt := by exact_mod_cast b1
  have b2 : m.elevation.toInt < 1 := by exact_mod_cast b2
  exact ⟨m, hm, Int16.toInt_inj.mp (by rw [show (45 : Int16).toInt = 45 from rfl]; omega),
    Int8.toInt_inj.mp (by rw [show (0 : Int8).toInt = 0 from rfl]; omega)⟩

/-- The hypotheses of `C85_aim` and `C85_pitch`: a device turned towards a peer to its right, and one with a pitch of 45 degrees. -/
example : Agree (1 / 2) (-((-45 : Int16).toInt : ℤ)) (degrees (π / 4)) ∧ |((0 : Int8).toInt : ℝ) - degrees 0| ≤ 1 / 2 ∧
    |degrees 0 - ((45 : Int8).toInt : ℝ)| ≤ 90 := by
  have hpos := pi_pos
  have e : degrees (π / 4) = 45 := by unfold degrees; field_simp; norm_num
  refine ⟨⟨0, ?_⟩, ?_, ?_⟩
  · rw [e, show ((-45 : Int16).toInt : ℤ) = -45 from rfl]; norm_num
  · rw [show ((0 : Int8).toInt : ℤ) = 0 from rfl]; simp [degrees]
  · rw [show ((45 : Int8).toInt : ℤ) = 45 from rfl]; simp only [degrees, zero_mul]; norm_num [abs_le]

end Pica.Props
