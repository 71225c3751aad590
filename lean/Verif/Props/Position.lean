import Verif.Proofs.Rotation
import Verif.Proofs.Binary32
import Verif.Spec.Geometry
/-!
C53, C55, C58, C59, C60: distances and angles.

The theorems hold for every rounding `A` that satisfies `Arith`; `Arith.ieee` is one.
-/

namespace Pica.Props
open Pica.Spec Real

/-- C53: the measurements in both directions exist and have the same range; that of a device to a coincident one is
zero. -/
theorem C53_symmetric (A : Arith) (rotate : Rotate) (p q : Position) :
    ∃ m n, A.compute rotate p q = .ok m ∧ A.compute rotate q p = .ok n ∧ m.range = n.range ∧
      ((p.x, p.y, p.z) = (q.x, q.y, q.z) → m.range = 0) := by
  obtain ⟨m, hm, hmr, -⟩ := A.compute_ok rotate p q
  obtain ⟨n, hn, hnr, -⟩ := A.compute_ok rotate q p
  refine ⟨m, n, hm, hn, by rw [hmr, hnr, A.distance_comm], ?_⟩
  intro h
  simp only [Prod.mk.injEq] at h
  have : A.distance p q = A.distance p p := by
    unfold Arith.distance
    rw [← h.1, ← h.2.1, ← h.2.2]
  rw [hmr, this, A.distance_self]
  simp

/-- C55: a measurement always exists, and its angles are in range. -/
theorem C55_angles (A : Arith) (rotate : Rotate) (p q : Position) :
    ∃ m, A.compute rotate p q = .ok m ∧ -180 ≤ m.azimuth.toInt ∧ m.azimuth.toInt ≤ 180 ∧
      -90 ≤ m.elevation.toInt ∧ m.elevation.toInt ≤ 90 := by
  obtain ⟨m, hm, -, ha, he⟩ := A.compute_ok rotate p q
  refine ⟨m, hm, ?_⟩
  rw [ha, he]
  exact ⟨(A.azimuth_range _).1, (A.azimuth_range _).2, (A.elevation_range _).1, (A.elevation_range _).2⟩

/-- C58: the reported range is the distance of the positions, at most 65535, up to the rounding towards zero and the errors
of the arithmetic. -/
theorem C58_range (A : Arith) (rotate : Rotate) (p q : Position) :
    ∃ m, A.compute rotate p q = .ok m ∧ |(m.range.toNat : ℝ) + 1 / 2 - min (Spec.dist p q) 65535| ≤ 6 / 10 := by
  obtain ⟨m, hm, hr, -⟩ := A.compute_ok rotate p q
  refine ⟨m, hm, ?_⟩
  have hd := abs_le.mp (A.distance_err p q)
  have e : Real.sqrt (Arith.sq p q) = Spec.dist p q := by
    unfold Arith.sq Spec.dist; push_cast; rfl
  rw [e] at hd
  have h0 : 0 ≤ A.distance p q := by
    unfold Arith.distance Arith.length
    exact A.nonneg _ (Real.sqrt_nonneg _)
  have hn : 0 ≤ min (A.distance p q) 65535 := le_min h0 (by norm_num)
  have h1 := Nat.floor_le hn
  have h2 := Nat.lt_floor_add_one (min (A.distance p q) 65535)
  have h3 : ⌊min (A.distance p q) 65535⌋₊ < 65536 := by
    rw [Nat.floor_lt hn]
    exact lt_of_le_of_lt (min_le_right _ _) (by norm_num)
  have h4 : m.range.toNat = ⌊min (A.distance p q) 65535⌋₊ := by
    rw [hr]; exact UInt16.toNat_ofNat_of_lt' h3
  rw [h4]
  have h5 : |min (A.distance p q) 65535 - min (Spec.dist p q) 65535| ≤ 1 / 10 :=
    (abs_min_sub_min_le_max _ _ _ _).trans (by
      rw [sub_self, abs_zero]; exact max_le (abs_le.mpr hd) (by norm_num))
  have h5 := abs_le.mp h5
  rw [abs_le]
  constructor <;> linarith

/-- C59: the reported azimuth is that of the rotated difference of the positions, rounded to degrees. Straight behind it
may be -180 in place of 180. -/
theorem C59_azimuth (A : Arith) (rotate : Rotate) (p q : Position) (d : Vec3) (θ : ℝ)
    (hd : d = rotate p.yaw p.pitch p.roll (q.x.toInt - p.x.toInt) (q.y.toInt - p.y.toInt) (q.z.toInt - p.z.toInt))
    (hθ : Bearing d.x.val d.z.val θ) (hs : θ = π → d.x.neg = false) :
    ∃ m, A.compute rotate p q = .ok m ∧ |(m.azimuth.toInt : ℝ) - degrees θ| ≤ 501 / 1000 := by
  obtain ⟨m, hm, -, ha, -⟩ := A.compute_ok rotate p q
  refine ⟨m, hm, ?_⟩
  simp only [A.diff_eq] at ha
  push_cast at ha
  rw [← hd] at ha
  obtain ⟨h1, h2, r, hr, hz, hx⟩ := hθ
  rw [ha]
  exact A.degrees_err (A.azimuth_err d hr h1 h2 hz hx hs) (abs_le.mpr ⟨h1.le, h2⟩)

/-- C60: the reported elevation is that of the rotated difference of the positions, rounded to degrees. -/
theorem C60_elevation (A : Arith) (rotate : Rotate) (p q : Position) (d : Vec3) (φ : ℝ)
    (hd : d = rotate p.yaw p.pitch p.roll (q.x.toInt - p.x.toInt) (q.y.toInt - p.y.toInt) (q.z.toInt - p.z.toInt))
    (hφ : Rise d.x.val d.y.val d.z.val φ) (hv : 1 / 2 ≤ √(d.x.val ^ 2 + d.y.val ^ 2 + d.z.val ^ 2)) :
    ∃ m, A.compute rotate p q = .ok m ∧ |(m.elevation.toInt : ℝ) - degrees φ| ≤ 501 / 1000 := by
  obtain ⟨m, hm, -, -, he⟩ := A.compute_ok rotate p q
  refine ⟨m, hm, ?_⟩
  simp only [A.diff_eq] at he
  push_cast at he
  rw [← hd] at he
  obtain ⟨h1, h2, r, hr, hy, hh⟩ := hφ
  rw [he]
  have hpos := pi_pos
  have hflat : d.x.val ^ 2 + d.z.val ^ 2 = (r * cos φ) ^ 2 := by rw [← hh, sq_sqrt (by positivity)]
  have hn : √(d.x.val ^ 2 + d.y.val ^ 2 + d.z.val ^ 2) = r := by
    rw [Real.sqrt_eq_iff_mul_self_eq (by positivity) hr.le, hy]
    linear_combination r ^ 2 * sin_sq_add_cos_sq φ + hflat
  exact A.degrees_err (A.elevation_any d (hn ▸ hv) h1 h2 hy hflat) (abs_le.mpr ⟨by linarith, by linarith⟩)

/-- C59 and C60 for a device that is not turned: the angles are those of the difference of the positions. -/
theorem C59_unturned (A : Arith) (rotate : Rotate) (hrot : ∀ x y z, rotate 0 0 0 x y z = vec x y z) (p q : Position)
    (hp : (p.yaw, p.pitch, p.roll) = (0, 0, 0)) (θ φ : ℝ)
    (hθ : Bearing (q.x.toInt - p.x.toInt) (q.z.toInt - p.z.toInt) θ)
    (hφ : Rise (q.x.toInt - p.x.toInt) (q.y.toInt - p.y.toInt) (q.z.toInt - p.z.toInt) φ) :
    ∃ m, A.compute rotate p q = .ok m ∧ |(m.azimuth.toInt : ℝ) - degrees θ| ≤ 501 / 1000 ∧
      |(m.elevation.toInt : ℝ) - degrees φ| ≤ 501 / 1000 := by
  simp only [Prod.mk.injEq] at hp
  have hd : vec (q.x.toInt - p.x.toInt) (q.y.toInt - p.y.toInt) (q.z.toInt - p.z.toInt) =
      rotate p.yaw p.pitch p.roll (q.x.toInt - p.x.toInt) (q.y.toInt - p.y.toInt) (q.z.toInt - p.z.toInt) := by
    rw [hp.1, hp.2.1, hp.2.2, hrot]
  obtain ⟨m, hm, ha⟩ := C59_azimuth A rotate p q _ θ hd hθ (by
    intro h
    obtain ⟨-, -, r, hr, -, hx⟩ := hθ
    rw [h, sin_pi, mul_zero] at hx
    simp only [vec]
    rw [hx]; simp)
  obtain ⟨m', hm', he⟩ := C60_elevation A rotate p q _ φ hd hφ (by
    simp only [vec]
    generalize hx : q.x.toInt - p.x.toInt = x
    generalize hy : q.y.toInt - p.y.toInt = y
    generalize hz : q.z.toInt - p.z.toInt = z
    have hx' : (q.x.toInt : ℝ) - p.x.toInt = x := by rw [← hx]; push_cast; rfl
    have hy' : (q.y.toInt : ℝ) - p.y.toInt = y := by rw [← hy]; push_cast; rfl
    have hz' : (q.z.toInt : ℝ) - p.z.toInt = z := by rw [← hz]; push_cast; rfl
    rw [hx', hy', hz']
    obtain ⟨-, -, r, hr, h1, h2⟩ := hφ
    rw [hy'] at h1
    rw [hx', hz'] at h2
    have : (1 : ℤ) ≤ x ^ 2 + y ^ 2 + z ^ 2 := by
      by_contra hn
      have e1 : x = 0 := by nlinarith [sq_nonneg x, sq_nonneg y, sq_nonneg z]
      have e2 : y = 0 := by nlinarith [sq_nonneg x, sq_nonneg y, sq_nonneg z]
      have e3 : z = 0 := by nlinarith [sq_nonneg x, sq_nonneg y, sq_nonneg z]
      rw [e1, e3] at h2
      rw [e2] at h1
      have g1 : sin φ = 0 := by simpa [hr.ne'] using h1.symm
      have g2 : cos φ = 0 := by simpa [hr.ne'] using h2.symm
      have := sin_sq_add_cos_sq φ
      rw [g1, g2] at this
      norm_num at this
    have : (1 : ℝ) ≤ (x : ℝ) ^ 2 + (y : ℝ) ^ 2 + (z : ℝ) ^ 2 := by exact_mod_cast this
    exact le_trans (by norm_num) (Real.one_le_sqrt.mpr this))
  rw [hm] at hm'
  cases hm'
  exact ⟨m, hm, ha, he⟩

/-- C60: a device at the same place, for which there is no such angle, is reported straight above. -/
theorem C60_coincident (A : Arith) (rotate : Rotate) (hrot : ∀ x y z, rotate 0 0 0 x y z = vec x y z) (p : Position)
    (hp : (p.yaw, p.pitch, p.roll) = (0, 0, 0)) :
    ∃ m, A.compute rotate p p = .ok m ∧ m.range = 0 ∧ m.elevation = 90 := by
  obtain ⟨m, hm, hr, -, he⟩ := A.compute_ok rotate p p
  simp only [Prod.mk.injEq] at hp
  refine ⟨m, hm, by rw [hr, A.distance_self]; simp, ?_⟩
  simp only [A.diff_eq, hp.1, hp.2.1, hp.2.2, hrot, sub_self] at he
  have hpos := pi_pos
  have h1 : |A.elevation (vec ((0 : ℤ) : ℝ) ((0 : ℤ) : ℝ) ((0 : ℤ) : ℝ)) - π / 2| ≤ 1 / 200000 := by
    unfold Arith.elevation
    rw [if_pos (A.flat_zero (by simp [vec]) (by simp [vec])), Arith.signum_pos (by simp [vec])]
    have hb := abs_le.mp (A.rnd_const (s := 1) (.inl rfl) Arith.halfPiF_le)
    have hpi := abs_le.mp Arith.piF_err
    rw [Arith.halfPiF_eq] at hb ⊢
    rw [abs_le]
    constructor <;> linarith
  have h2 := A.degrees_err h1 (abs_le.mpr ⟨by linarith, by linarith⟩)
  rw [← he] at h2
  have e : π / 2 * (180 / π) = 90 := by field_simp; norm_num
  rw [e] at h2
  have h2 := abs_le.mp h2
  have h3 : (89 : ℝ) < m.elevation.toInt := by linarith
  have h4 : (m.elevation.toInt : ℝ) < 91 := by linarith
  have h3 : 89 < m.elevation.toInt := by exact_mod_cast h3
  have h4 : m.elevation.toInt < 91 := by exact_mod_cast h4
  exact Int8.toInt_inj.mp (by rw [show (90 : Int8).toInt = 90 from rfl]; omega)

/-! An arithmetic, and a peer that is as far to the side as it is ahead. -/

/-- The bearing and rise of a peer at (1, 0, 1) are 45 and 0 degrees. -/
example : Bearing (((1 : Int16).toInt : ℝ) - (0 : Int16).toInt) (((1 : Int16).toInt : ℝ) - (0 : Int16).toInt) (π / 4) ∧
    Rise (((1 : Int16).toInt : ℝ) - (0 : Int16).toInt) (((0 : Int16).toInt : ℝ) - (0 : Int16).toInt)
      (((1 : Int16).toInt : ℝ) - (0 : Int16).toInt) 0 := by
  have hpos := pi_pos
  have e : (((1 : Int16).toInt : ℝ) - (0 : Int16).toInt) = 1 := by
    rw [show (1 : Int16).toInt = 1 from rfl, show (0 : Int16).toInt = 0 from rfl]; norm_num
  rw [e]
  refine ⟨⟨by linarith, by linarith, √2, by positivity, ?_, ?_⟩, ⟨by linarith, by linarith, √2, by positivity, ?_, ?_⟩⟩
  · rw [cos_pi_div_four, ← mul_div_assoc, mul_self_sqrt (by norm_num)]; norm_num
  · rw [sin_pi_div_four, ← mul_div_assoc, mul_self_sqrt (by norm_num)]; norm_num
  · simp
  · rw [cos_zero, mul_one]; norm_num

/-- With a distance of 5 the range is 4 or 5. -/
example : ∃ m, Arith.ieee.compute (fun _ _ _ => vec) Position.default ⟨3, 4, 0, 0, 0, 0⟩ = .ok m ∧
    (m.range = 4 ∨ m.range = 5) := by
  obtain ⟨m, hm, h⟩ := C58_range Arith.ieee (fun _ _ _ => vec) Position.default ⟨3, 4, 0, 0, 0, 0⟩
  refine ⟨m, hm, ?_⟩
  have e : Spec.dist Position.default ⟨3, 4, 0, 0, 0, 0⟩ = 5 := by
    unfold Spec.dist Position.default
    rw [show (3 : Int16).toInt = 3 from rfl, show (4 : Int16).toInt = 4 from rfl, show (0 : Int16).toInt = 0 from rfl]
    rw [Real.sqrt_eq_iff_mul_self_eq (by norm_num) (by norm_num)]
    norm_num
  rw [e, min_eq_left (by norm_num)] at h
  have h := abs_le.mp h
  have h1 : (3 : ℝ) < m.range.toNat := by linarith
  have h2 : (m.range.toNat : ℝ) < 6 := by linarith
  have h1 : 3 < m.range.toNat := by exact_mod_cast h1
  have h2 : m.range.toNat < 6 := by exact_mod_cast h2
  have : m.range.toNat = 4 ∨ m.range.toNat = 5 := by omega
  exact this.imp (fun h => UInt16.toNat_inj.mp h) (fun h => UInt16.toNat_inj.mp h)

end Pica.Props
