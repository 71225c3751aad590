import Verif.Model.Position
import Mathlib.Analysis.Real.Pi.Bounds
import Mathlib.Tactic.Linarith
import Mathlib.Tactic.NormNum
import Mathlib.Tactic.Positivity
/-! The errors of the arithmetic of `src/bin/http-server/position.rs`. -/

namespace Pica

namespace Arith
variable (A : Arith)

theorem small : (2⁻¹ : ℝ) ^ 126 ≤ 1 / 1000000 := by norm_num

theorem rnd_abs (x : ℝ) : |A.rnd x| ≤ |x| * (1 + 1 / 8388608) + 1 / 1000000 := by
  have h := A.err x
  have hs := small
  have he : (2⁻¹ : ℝ) ^ 23 = 1 / 8388608 := by norm_num
  rw [he] at h
  have : |A.rnd x| ≤ |A.rnd x - x| + |x| := by
    have := abs_add_le (A.rnd x - x) x
    rwa [sub_add_cancel] at this
  nlinarith [abs_nonneg x]

theorem atan_abs (x : ℝ) : |A.atan x| ≤ 1.576 := by
  have h := A.atan_err x
  have hs := small
  have he : (2⁻¹ : ℝ) ^ 22 = 1 / 4194304 := by norm_num
  rw [he] at h
  have h1 : |Real.arctan x| ≤ Real.pi / 2 :=
    abs_le.mpr ⟨(Real.neg_pi_div_two_lt_arctan x).le, (Real.arctan_lt_pi_div_two x).le⟩
  have h2 := Real.pi_lt_d2
  have : |A.atan x| ≤ |A.atan x - Real.arctan x| + |Real.arctan x| := by
    have := abs_add_le (A.atan x - Real.arctan x) (Real.arctan x)
    rwa [sub_add_cancel] at this
  norm_num at h2 ⊢
  nlinarith [abs_nonneg (Real.arctan x)]

theorem signum_abs (f : F32) : |f.signum| = 1 := by
  unfold F32.signum; split <;> simp

theorem halfPi_abs (f : F32) : |A.rnd (f.signum * halfPiF)| ≤ 1.576 := by
  have h := A.rnd_abs (f.signum * halfPiF)
  rw [abs_mul, signum_abs, one_mul] at h
  have hp : |halfPiF| = halfPiF := abs_of_pos (by unfold halfPiF; norm_num)
  rw [hp] at h
  refine h.trans ?_
  unfold halfPiF
  norm_num

theorem rnd_le {x b : ℝ} (h : |x| ≤ b) : |A.rnd x| ≤ b * (1 + 1 / 8388608) + 1 / 1000000 :=
  (A.rnd_abs x).trans (by nlinarith)

theorem azimuth_abs (d : Vec3) : |A.azimuth d| ≤ 3.1416 := by
  unfold azimuth
  by_cases hz : 0 ≤ d.z.val
  · rw [if_pos hz, add_zero]
    refine (A.rnd_le (b := 1.576) ?_).trans (by norm_num)
    split
    · split
      · norm_num
      · exact A.halfPi_abs _
    · exact A.atan_abs _
  · rw [if_neg hz]
    have hz' : d.z.val < 0 := not_le.mp hz
    rw [if_neg hz'.ne]
    refine (A.rnd_le (b := 3.141595) ?_).trans (by norm_num)
    have ha := abs_le.mp (A.atan_abs (A.rnd (d.x.val / d.z.val)))
    have hb : |A.rnd (d.x.signum * piF)| ≤ 3.141595 := by
      have h := A.rnd_abs (d.x.signum * piF)
      have hp : |piF| = piF := abs_of_pos (by unfold piF; norm_num)
      rw [abs_mul, signum_abs, one_mul, hp] at h
      refine h.trans ?_
      unfold piF
      norm_num
    have hb := abs_le.mp hb
    have hp : 0 ≤ piF := by unfold piF; norm_num
    rw [abs_le]
    cases hn : d.x.neg with
    | false =>
      have hx : 0 ≤ d.x.val := by
        by_contra hx
        rw [d.x.neg_sign (not_le.mp hx)] at hn; cases hn
      have h0 : A.atan (A.rnd (d.x.val / d.z.val)) ≤ 0 :=
        A.atan_nonpos _ (A.nonpos _ (div_nonpos_of_nonneg_of_nonpos hx hz'.le))
      have hs : d.x.signum = 1 := by unfold F32.signum; rw [hn]; simp
      have h1 : 0 ≤ A.rnd (d.x.signum * piF) := A.nonneg _ (by rw [hs]; linarith)
      norm_num at ha hb ⊢
      constructor <;> linarith
    | true =>
      have hx : d.x.val ≤ 0 := by
        by_contra hx
        rw [d.x.pos_sign (not_le.mp hx)] at hn; cases hn
      have h0 : 0 ≤ A.atan (A.rnd (d.x.val / d.z.val)) :=
        A.atan_nonneg _ (A.nonneg _ (div_nonneg_of_nonpos hx hz'.le))
      have hs : d.x.signum = -1 := by unfold F32.signum; rw [hn]; simp
      have h1 : A.rnd (d.x.signum * piF) ≤ 0 := A.nonpos _ (by rw [hs]; linarith)
      norm_num at ha hb ⊢
      constructor <;> linarith

theorem elevation_abs (d : Vec3) : |A.elevation d| ≤ 1.576 := by
  unfold elevation
  split
  · exact A.halfPi_abs _
  · exact A.atan_abs _

theorem round_le {v : ℝ} {n : ℕ} (h : |v| < n + 1 / 2) : -(n : ℤ) ≤ roundAway v ∧ roundAway v ≤ n := by
  have h' := abs_lt.mp h
  unfold roundAway
  split
  · rename_i hv
    constructor
    · have : 0 ≤ ⌊v + 1 / 2⌋ := Int.floor_nonneg.mpr (by linarith)
      omega
    · apply Int.lt_add_one_iff.mp
      rw [Int.floor_lt]
      push_cast
      linarith
  · rename_i hv
    constructor
    · have : ⌊-v + 1 / 2⌋ < (n : ℤ) + 1 := by
        rw [Int.floor_lt]; push_cast; linarith
      omega
    · have : 0 ≤ ⌊-v + 1 / 2⌋ := Int.floor_nonneg.mpr (by linarith [not_le.mp hv])
      omega

theorem degrees_abs {v b : ℝ} (h : |v| ≤ b) :
    |A.toDegrees v| ≤ b * 57.29579 * (1 + 1 / 8388608) + 1 / 1000000 := by
  unfold toDegrees
  refine A.rnd_le ?_
  have hp : |degF| = degF := abs_of_pos (by unfold degF; norm_num)
  rw [abs_mul, hp]
  have hd : degF ≤ 57.29579 := by unfold degF; norm_num
  have hd0 : 0 ≤ degF := by unfold degF; norm_num
  exact mul_le_mul h hd hd0 (le_trans (abs_nonneg v) h)

theorem azimuth_range (d : Vec3) :
    -180 ≤ roundAway (A.toDegrees (A.azimuth d)) ∧ roundAway (A.toDegrees (A.azimuth d)) ≤ 180 :=
  round_le (n := 180) (lt_of_le_of_lt (A.degrees_abs (A.azimuth_abs d)) (by norm_num))

theorem elevation_range (d : Vec3) :
    -90 ≤ roundAway (A.toDegrees (A.elevation d)) ∧ roundAway (A.toDegrees (A.elevation d)) ≤ 90 :=
  round_le (n := 90) (lt_of_le_of_lt (A.degrees_abs (A.elevation_abs d)) (by norm_num))

theorem compute_ok (rotate : Rotate) (p q : Position) :
    ∃ m : RangingMeasurement, A.compute rotate p q = .ok m ∧
      m.range = UInt16.ofNat ⌊min (A.distance p q) 65535⌋₊ ∧
      m.azimuth.toInt = roundAway (A.toDegrees (A.azimuth
        (rotate p.yaw p.pitch p.roll (A.diff p.x q.x) (A.diff p.y q.y) (A.diff p.z q.z)))) ∧
      m.elevation.toInt = roundAway (A.toDegrees (A.elevation
        (rotate p.yaw p.pitch p.roll (A.diff p.x q.x) (A.diff p.y q.y) (A.diff p.z q.z)))) := by
  obtain ⟨ha, ha'⟩ := A.azimuth_range
    (rotate p.yaw p.pitch p.roll (A.diff p.x q.x) (A.diff p.y q.y) (A.diff p.z q.z))
  obtain ⟨he, he'⟩ := A.elevation_range
    (rotate p.yaw p.pitch p.roll (A.diff p.x q.x) (A.diff p.y q.y) (A.diff p.z q.z))
  have hc : A.compute rotate p q = .ok ⟨UInt16.ofNat ⌊min (A.distance p q) 65535⌋₊,
      Int16.ofInt (roundAway (A.toDegrees (A.azimuth
        (rotate p.yaw p.pitch p.roll (A.diff p.x q.x) (A.diff p.y q.y) (A.diff p.z q.z))))),
      Int8.ofInt (roundAway (A.toDegrees (A.elevation
        (rotate p.yaw p.pitch p.roll (A.diff p.x q.x) (A.diff p.y q.y) (A.diff p.z q.z)))))⟩ := by
    unfold compute
    dsimp only
    rw [if_neg (not_not.mpr ⟨ha, ha'⟩), if_neg (not_not.mpr ⟨he, he'⟩)]
  exact ⟨_, hc, rfl, Int16.toInt_ofInt_of_le (by omega) (by omega), Int8.toInt_ofInt_of_le (by omega) (by omega)⟩

theorem int16_bounds (a : Int16) : -32768 ≤ a.toInt ∧ a.toInt ≤ 32767 :=
  ⟨a.le_toInt, Int.lt_add_one_iff.mp a.toInt_lt⟩

theorem diff_eq (a b : Int16) : A.diff a b = ((b.toInt - a.toInt : ℤ) : ℝ) := by
  unfold diff
  have h := A.exact (b.toInt - a.toInt) (by
    have := int16_bounds a; have := int16_bounds b
    rw [abs_le]; constructor <;> omega)
  push_cast at h ⊢
  exact h

theorem diff_neg (a b : Int16) : A.diff b a = -A.diff a b := by
  rw [diff_eq, diff_eq]; push_cast; ring

theorem distance_comm (p q : Position) : A.distance p q = A.distance q p := by
  unfold distance
  rw [A.diff_neg p.x q.x, A.diff_neg p.y q.y, A.diff_neg p.z q.z]
  unfold length
  simp only [neg_mul_neg]

theorem rnd_zero : A.rnd 0 = 0 := by simpa using A.exact 0 (by norm_num)

theorem distance_self (p : Position) : A.distance p p = 0 := by
  unfold distance length
  simp [diff_eq, rnd_zero]

/-- The square of the distance of two positions. -/
def sq (p q : Position) : ℤ :=
  (q.x.toInt - p.x.toInt) ^ 2 + (q.y.toInt - p.y.toInt) ^ 2 + (q.z.toInt - p.z.toInt) ^ 2

theorem rel {x : ℝ} (h : 0 ≤ x) : |A.rnd x - x| ≤ 1 / 8388608 * x + 1 / 100000000000 := by
  have he := A.err x
  rw [abs_of_nonneg h] at he
  have h1 : (2⁻¹ : ℝ) ^ 23 = 1 / 8388608 := by norm_num
  have h2 : (2⁻¹ : ℝ) ^ 126 ≤ 1 / 100000000000 := by norm_num
  rw [h1] at he
  linarith

theorem sum_err {a b c : ℝ} (ha : 0 ≤ a) (hb : 0 ≤ b) (hc : 0 ≤ c) (h1 : 1 ≤ a + b + c) :
    |A.rnd (A.rnd (A.rnd a + A.rnd b) + A.rnd c) - (a + b + c)| ≤ 5 / 8388608 * (a + b + c) := by
  have h1 := abs_le.mp (A.rel ha)
  have h2 := abs_le.mp (A.rel hb)
  have h3 := abs_le.mp (A.rel hc)
  have n1 := A.nonneg _ ha
  have n2 := A.nonneg _ hb
  have n3 := A.nonneg _ hc
  have h4 := abs_le.mp (A.rel (add_nonneg n1 n2))
  have n4 := A.nonneg _ (add_nonneg n1 n2)
  have h5 := abs_le.mp (A.rel (add_nonneg n4 n3))
  rw [abs_le]
  constructor <;> linarith

theorem sqrt_err {s t : ℝ} (hs : 0 < s) (ht : 0 ≤ t) (h : |t - s| ≤ 5 / 8388608 * s) :
    |Real.sqrt t - Real.sqrt s| ≤ 5 / 8388608 * Real.sqrt s := by
  have hr : 0 < Real.sqrt s := Real.sqrt_pos.mpr hs
  have hm : |Real.sqrt t - Real.sqrt s| * (Real.sqrt t + Real.sqrt s) = |t - s| := by
    rw [← abs_of_nonneg (add_nonneg (Real.sqrt_nonneg t) hr.le), ← abs_mul]
    congr 1
    nlinarith [Real.mul_self_sqrt ht, Real.mul_self_sqrt hs.le]
  have h2 : |Real.sqrt t - Real.sqrt s| * Real.sqrt s ≤ 5 / 8388608 * Real.sqrt s * Real.sqrt s := by
    rw [mul_assoc, Real.mul_self_sqrt hs.le]
    refine le_trans ?_ h
    rw [← hm]
    exact mul_le_mul_of_nonneg_left (by linarith [Real.sqrt_nonneg t]) (abs_nonneg _)
  exact le_of_mul_le_mul_right h2 hr

theorem sq_cast (p q : Position) : ((sq p q : ℤ) : ℝ) =
    A.diff p.x q.x * A.diff p.x q.x + A.diff p.y q.y * A.diff p.y q.y + A.diff p.z q.z * A.diff p.z q.z := by
  rw [diff_eq, diff_eq, diff_eq]; unfold sq; push_cast; ring

theorem sq_nonneg' (p q : Position) : 0 ≤ sq p q := by unfold sq; positivity

theorem sq_le (p q : Position) : sq p q ≤ 113520 ^ 2 := by
  unfold sq
  have h : ∀ a b : Int16, (b.toInt - a.toInt) ^ 2 ≤ 65535 ^ 2 := by
    intro a b
    have := int16_bounds a; have := int16_bounds b
    exact sq_le_sq' (by omega) (by omega)
  have := h p.x q.x; have := h p.y q.y; have := h p.z q.z
  linarith

theorem distance_err (p q : Position) : |A.distance p q - Real.sqrt (sq p q)| ≤ 1 / 10 := by
  have hc := A.sq_cast p q
  rcases (sq_nonneg' p q).eq_or_lt with h0 | h0
  · rw [← h0] at hc ⊢
    have hx := mul_self_nonneg (A.diff p.x q.x)
    have hy := mul_self_nonneg (A.diff p.y q.y)
    have hz := mul_self_nonneg (A.diff p.z q.z)
    push_cast at hc
    have ex : A.diff p.x q.x * A.diff p.x q.x = 0 := by linarith
    have ey : A.diff p.y q.y * A.diff p.y q.y = 0 := by linarith
    have ez : A.diff p.z q.z * A.diff p.z q.z = 0 := by linarith
    unfold distance length
    rw [ex, ey, ez]
    simp [rnd_zero]
  · have h1 : (1 : ℝ) ≤ (sq p q : ℝ) := by exact_mod_cast h0
    have hle : Real.sqrt (sq p q : ℝ) ≤ 113520 := by
      rw [Real.sqrt_le_left (by norm_num)]; exact_mod_cast sq_le p q
    have hs := A.sum_err (mul_self_nonneg (A.diff p.x q.x)) (mul_self_nonneg (A.diff p.y q.y))
      (mul_self_nonneg (A.diff p.z q.z)) (by rw [← hc]; exact h1)
    rw [← hc] at hs
    have hn : 0 ≤ A.rnd (A.rnd (A.rnd (A.diff p.x q.x * A.diff p.x q.x) +
        A.rnd (A.diff p.y q.y * A.diff p.y q.y)) + A.rnd (A.diff p.z q.z * A.diff p.z q.z)) :=
      A.nonneg _ (add_nonneg (A.nonneg _ (add_nonneg (A.nonneg _ (mul_self_nonneg _))
        (A.nonneg _ (mul_self_nonneg _)))) (A.nonneg _ (mul_self_nonneg _)))
    have hq := abs_le.mp (sqrt_err (by linarith) hn hs)
    have hf := abs_le.mp (A.rel (Real.sqrt_nonneg (A.rnd (A.rnd (A.rnd (A.diff p.x q.x * A.diff p.x q.x) +
        A.rnd (A.diff p.y q.y * A.diff p.y q.y)) + A.rnd (A.diff p.z q.z * A.diff p.z q.z)))))
    unfold distance length
    rw [abs_le]
    constructor <;> linarith

end Arith
end Pica
