import Verif.Model.Euler
import Verif.Proofs.Glam
import Verif.Proofs.Rotation
/-! The angles shown for a rotation. -/

namespace Pica
open Real Quaternion Spec Point

theorem pure_turns (α β γ : ℝ) (v : Point) : pure (((v.turnY α).turnX β).turnZ γ) =
    halfZ γ * halfX β * halfY α * pure v * star (halfZ γ * halfX β * halfY α) := by
  rw [pure_turnZ, pure_turnX, pure_turnY]
  simp only [star_mul, mul_assoc]

theorem fromEuler_close {A : Arith} {yaw : Int16} {pitch : Int8} {roll : Int16} {q : ℍ[ℝ]} (h : FromEuler A yaw pitch roll q) :
    ‖q - halfZ (A.toRadians roll.toInt) * halfX (A.toRadians pitch.toInt) * halfY (A.toRadians yaw.toInt)‖ ≤ 105 / 10 ^ 7 ∧
    ‖halfZ (A.toRadians roll.toInt) * halfX (A.toRadians pitch.toInt) * halfY (A.toRadians yaw.toInt)‖ = 1 := by
  obtain ⟨qz, qx, qy, q₁, hz, hx, hy, h1, h2⟩ := h
  have tri : ∀ {u v w : ℍ[ℝ]} {δ ε : ℝ}, ‖u - v‖ ≤ δ → ‖v - w‖ ≤ ε → ‖u - w‖ ≤ δ + ε := by
    intro u v w δ ε h1 h2
    have : u - w = (u - v) + (v - w) := by abel
    rw [this]
    exact (norm_add_le _ _).trans (add_le_add h1 h2)
  have e1 := tri h1 (mul_close hz hx (norm_halfZ _) (norm_halfX _))
  have n1 : ‖halfZ (A.toRadians roll.toInt) * halfX (A.toRadians pitch.toInt)‖ = 1 := by
    rw [norm_mul, norm_halfZ, norm_halfX, one_mul]
  refine ⟨(tri h2 (mul_close e1 hy n1 (norm_halfY _))).trans (by norm_num), ?_⟩
  rw [norm_mul, n1, norm_halfY, one_mul]

theorem mulVec_near {A : Arith} {yaw : Int16} {pitch : Int8} {roll : Int16} {q : ℍ[ℝ]} (h : FromEuler A yaw pitch roll q)
    (v : Point) (hv : v.norm = 1) :
    |(mulVec q v).x - (((v.turnY (A.toRadians yaw.toInt)).turnX (A.toRadians pitch.toInt)).turnZ (A.toRadians roll.toInt)).x| ≤ 22 / 10 ^ 6 ∧
    |(mulVec q v).y - (((v.turnY (A.toRadians yaw.toInt)).turnX (A.toRadians pitch.toInt)).turnZ (A.toRadians roll.toInt)).y| ≤ 22 / 10 ^ 6 ∧
    |(mulVec q v).z - (((v.turnY (A.toRadians yaw.toInt)).turnX (A.toRadians pitch.toInt)).turnZ (A.toRadians roll.toInt)).z| ≤ 22 / 10 ^ 6 := by
  obtain ⟨h1, h2⟩ := fromEuler_close h
  have h3 := conj_close v h1 h2
  rw [← mulVec_eq, ← pure_turns, hv] at h3
  exact coord_close (h3.trans (by norm_num))

/-- The entries of the matrix that `to_euler` reads. -/
theorem entries {A : Arith} {yaw : Int16} {pitch : Int8} {roll : Int16} {q : ℍ[ℝ]} (h : FromEuler A yaw pitch roll q) :
    |2 * (q.imJ * q.imK + q.re * q.imI) - sin (A.toRadians pitch.toInt)| ≤ 22 / 10 ^ 6 ∧
    |-2 * (q.imI * q.imJ - q.re * q.imK) - cos (A.toRadians pitch.toInt) * sin (A.toRadians roll.toInt)| ≤ 22 / 10 ^ 6 ∧
    |q.re ^ 2 - q.imI ^ 2 + q.imJ ^ 2 - q.imK ^ 2 - cos (A.toRadians pitch.toInt) * cos (A.toRadians roll.toInt)| ≤ 22 / 10 ^ 6 ∧
    |-2 * (q.imI * q.imK - q.re * q.imJ) - cos (A.toRadians pitch.toInt) * sin (A.toRadians yaw.toInt)| ≤ 22 / 10 ^ 6 ∧
    |q.re ^ 2 - q.imI ^ 2 - q.imJ ^ 2 + q.imK ^ 2 - cos (A.toRadians pitch.toInt) * cos (A.toRadians yaw.toInt)| ≤ 22 / 10 ^ 6 := by
  obtain ⟨-, -, a3⟩ := mulVec_near h ⟨1, 0, 0⟩ (by simp [Point.norm])
  obtain ⟨b1, b2, b3⟩ := mulVec_near h ⟨0, 1, 0⟩ (by simp [Point.norm])
  obtain ⟨-, -, c3⟩ := mulVec_near h ⟨0, 0, 1⟩ (by simp [Point.norm])
  simp only [mulVec, turnX, turnY, turnZ] at a3 b1 b2 b3 c3
  refine ⟨?_, ?_, ?_, ?_, ?_⟩
  · convert b3 using 2; ring
  · rw [← abs_neg]; convert b1 using 2; ring
  · convert b2 using 2; ring
  · rw [← abs_neg]; convert a3 using 2; ring
  · convert c3 using 2; ring

theorem radians_close (A : Arith) (n : ℤ) (h : |n| ≤ 32768) : |A.toRadians n - radians n| ≤ 1 / 10000 := by
  refine (A.radians_err n 32768 (by exact_mod_cast h)).trans (by norm_num)

namespace Arith
variable (A : Arith)

/-- The angle of a vector close to one at a whole number of degrees, shown in degrees. -/
theorem atan2_shown {n d t ρ α : ℝ} {m : ℤ} (h : Atan2 n d t) (hρ : 17 / 1000 ≤ ρ) (hd : |d - ρ * cos α| ≤ 26 / 10 ^ 6)
    (hn : |n - ρ * sin α| ≤ 26 / 10 ^ 6) (hm : |α - radians m| ≤ 1 / 10000) :
    (-180 ≤ roundAway (A.toDegrees t) ∧ roundAway (A.toDegrees t) ≤ 180) ∧ ∃ k : ℤ, roundAway (A.toDegrees t) = m + 360 * k := by
  obtain ⟨θ, r, hθ, hr, ed, en, ht⟩ := h
  have hpos := pi_pos
  have hp6 := pi_lt_d6
  have hp6' := pi_gt_d6
  refine ⟨?_, ?_⟩
  · refine round_le (n := 180) (lt_of_le_of_lt (A.degrees_abs (v := t) (b := 3.1416) ?_) (by norm_num))
    have := abs_sub_abs_le_abs_sub t θ
    norm_num at *
    linarith
  · have hsq : √(d ^ 2 + n ^ 2) = r := by
      rw [ed, en, show (r * cos θ) ^ 2 + (r * sin θ) ^ 2 = r ^ 2 * (sin θ ^ 2 + cos θ ^ 2) by ring, sin_sq_add_cos_sq, mul_one]
      exact Real.sqrt_sq hr
    have hsq' : √((ρ * cos α) ^ 2 + (ρ * sin α) ^ 2) = ρ := by
      rw [show (ρ * cos α) ^ 2 + (ρ * sin α) ^ 2 = ρ ^ 2 * (sin α ^ 2 + cos α ^ 2) by ring, sin_sq_add_cos_sq, mul_one]
      exact Real.sqrt_sq (by linarith)
    have hc := norm2_close hd hn
    rw [hsq, hsq'] at hc
    have hr' : 16 / 1000 ≤ r := by have := (abs_le.mp hc).1; norm_num at *; linarith
    obtain ⟨k, hk⟩ := angle_close (by linarith : 0 < r) rfl rfl ed en hd hn (by norm_num at *; linarith)
    have hk' : |θ - α - 2 * π * k| ≤ 6 / 1000 := by
      refine hk.trans ?_
      rw [div_le_iff₀ (by linarith)]
      norm_num at *
      linarith
    have hdeg := A.degrees_err (v := t) (θ := θ) (ht.trans (by norm_num)) hθ
    -- the two angles in degrees
    have e1 : |θ * (180 / π) - (m + 360 * k)| ≤ 4 / 10 := by
      have e : θ * (180 / π) - (m + 360 * k) = (θ - radians m - 2 * π * k) * (180 / π) := by
        unfold radians; field_simp; ring
      have b1 : |θ - radians m - 2 * π * k| ≤ 61 / 10000 := by
        have a1 := abs_le.mp hk'
        have a2 := abs_le.mp hm
        rw [abs_le]; constructor <;> linarith
      rw [e, abs_mul, abs_of_pos (by positivity : 0 < 180 / π), mul_div_assoc', div_le_iff₀ hpos]
      norm_num at *
      linarith
    refine ⟨k, ?_⟩
    have a1 := abs_le.mp hdeg
    have a2 := abs_le.mp e1
    have f1 : ((roundAway (A.toDegrees t) : ℤ) : ℝ) < (m + 360 * k + 1 : ℤ) := by push_cast; linarith
    have f2 : ((m + 360 * k - 1 : ℤ) : ℝ) < (roundAway (A.toDegrees t) : ℤ) := by push_cast; linarith
    have f1 := Int.cast_lt.mp f1
    have f2 := Int.cast_lt.mp f2
    omega

end Arith

/-- Angles with close sines, one of them not steep. -/
theorem sin_close {φ ψ : ℝ} (hφ : |φ| ≤ π / 2) (hψ : |ψ| ≤ π / 2 - 17 / 1000) (h : |sin φ - sin ψ| ≤ 30 / 10 ^ 6) :
    |φ - ψ| ≤ 8 / 1000 := by
  have hpos := pi_pos
  have hp6 := pi_lt_d6
  have hp6' := pi_gt_d6
  have key : ∀ φ ψ : ℝ, φ ≤ π / 2 → |ψ| ≤ π / 2 - 17 / 1000 → sin φ - sin ψ ≤ 30 / 10 ^ 6 → φ - ψ ≤ 8 / 1000 := by
    intro φ ψ h1 h2 h3
    obtain ⟨h4, h5⟩ := abs_le.mp h2
    by_contra hn
    push Not at hn
    have m1 : sin (ψ + 8 / 1000) ≤ sin φ := sin_le_sin_of_le_of_le_pi_div_two (by linarith) h1 (by linarith)
    have e : sin (ψ + 8 / 1000) - sin ψ = 2 * sin (4 / 1000) * cos (ψ + 4 / 1000) := by
      rw [sin_sub_sin]; congr 2 <;> ring_nf
    have s1 : 2 / π * (4 / 1000) ≤ sin (4 / 1000) := mul_le_sin (by norm_num) (by linarith)
    have c1 : 2 / π * (13 / 1000) ≤ cos (ψ + 4 / 1000) := by
      have : cos (ψ + 4 / 1000) = sin (π / 2 - |ψ + 4 / 1000|) := by rw [sin_pi_div_two_sub, cos_abs]
      rw [this]
      have ha : |ψ + 4 / 1000| ≤ π / 2 - 13 / 1000 := by rw [abs_le]; constructor <;> linarith
      refine le_trans ?_ (mul_le_sin (by linarith) (by linarith [abs_nonneg (ψ + 4 / 1000)]))
      exact mul_le_mul_of_nonneg_left (by linarith) (by positivity)
    have hpi : 2 / 3.1416 ≤ 2 / π := div_le_div_of_nonneg_left (by norm_num) hpos (by linarith)
    have s2 : 25 / 10000 ≤ sin (4 / 1000 : ℝ) := by norm_num at *; linarith
    have c2 : 82 / 10000 ≤ cos (ψ + 4 / 1000) := by norm_num at *; linarith
    have := mul_le_mul s2 c2 (by norm_num) (by linarith)
    norm_num at *
    linarith
  have a := abs_le.mp h
  have b := abs_le.mp hφ
  have k1 := key φ ψ b.2 hψ a.2
  have k2 := key (-φ) (-ψ) (by linarith) (by rwa [abs_neg]) (by rw [sin_neg, sin_neg]; linarith)
  rw [abs_le]; constructor <;> linarith

namespace Arith
variable (A : Arith)

theorem asin_shown {s v : ℝ} {m : ℤ} (hv : |v - arcsin s| ≤ 2⁻¹ ^ 20) (hs : |s - sin (radians m)| ≤ 27 / 10 ^ 6) (h1 : |s| ≤ 9999 / 10000)
    (hm : |m| ≤ 89) : roundAway (A.toDegrees v) = m := by
  have hpos := pi_pos
  have hp6 := pi_lt_d6
  have hp6' := pi_gt_d6
  have h1 := abs_le.mp h1
  have hφ : |arcsin s| ≤ π / 2 := abs_le.mpr ⟨neg_pi_div_two_le_arcsin s, arcsin_le_pi_div_two s⟩
  have hψ : |radians m| ≤ π / 2 - 17 / 1000 := by
    unfold radians
    have hm' : |(m : ℝ)| ≤ 89 := by exact_mod_cast hm
    rw [abs_mul, abs_of_pos (by positivity : 0 < π / 180)]
    have := mul_le_mul_of_nonneg_right hm' (by positivity : 0 ≤ π / 180)
    linarith
  have hc := sin_close hφ hψ (by rw [sin_arcsin (by linarith) (by linarith)]; exact hs.trans (by norm_num))
  have hdeg := A.degrees_err (v := v) (θ := arcsin s) (hv.trans (by norm_num)) (by linarith)
  have e1 : |arcsin s * (180 / π) - m| ≤ 48 / 100 := by
    have e : arcsin s * (180 / π) - m = (arcsin s - radians m) * (180 / π) := by
      unfold radians; field_simp
    rw [e, abs_mul, abs_of_pos (by positivity : 0 < 180 / π), mul_div_assoc', div_le_iff₀ hpos]
    norm_num at *
    linarith
  have a1 := abs_le.mp hdeg
  have a2 := abs_le.mp e1
  have f1 : ((roundAway (A.toDegrees v) : ℤ) : ℝ) < (m + 1 : ℤ) := by push_cast; linarith
  have f2 : ((m - 1 : ℤ) : ℝ) < (roundAway (A.toDegrees v) : ℤ) := by push_cast; linarith
  have f1 := Int.cast_lt.mp f1
  have f2 := Int.cast_lt.mp f2
  omega

end Arith

/-- `turned` only depends on the angles up to full turns. -/
theorem turned_mod {a b c a' c' : ℤ} (h1 : ∃ k : ℤ, a' = a + 360 * k) (h2 : ∃ k : ℤ, c' = c + 360 * k) (v : Point) :
    turned a' b c' v = turned a b c v := by
  obtain ⟨k, rfl⟩ := h1
  obtain ⟨l, rfl⟩ := h2
  have e : ∀ n k : ℤ, radians ((n + 360 * k : ℤ) : ℝ) = radians n + k * (2 * π) := by
    intro n k; unfold radians; push_cast; ring
  unfold turned turnY turnZ
  rw [e, e]
  simp only [cos_add_int_mul_two_pi, sin_add_int_mul_two_pi]

/-- The other angles of the same rotation. -/
theorem turned_over (a b c : ℝ) (v : Point) : turned (a + 180) (180 - b) (c + 180) v = turned a b c v := by
  have e1 : ∀ x, radians (x + 180) = radians x + π := by intro x; unfold radians; ring
  have e2 : ∀ x, radians (180 - x) = π - radians x := by intro x; unfold radians; ring
  unfold turned turnY turnZ turnX
  rw [e1, e2, e1]
  simp only [cos_add_pi, sin_add_pi, cos_pi_sub, sin_pi_sub]
  congr 1 <;> ring

theorem cos_lower {β : ℝ} {m : ℤ} (hm : |m| ≤ 89) (h : |β - radians m| ≤ 1 / 10 ^ 6) : 17 / 1000 ≤ cos β := by
  have hpos := pi_pos
  have hp6 := pi_lt_d6
  have hp6' := pi_gt_d6
  have hψ : |radians m| ≤ π / 2 - 1745 / 100000 := by
    unfold radians
    have hm' : |(m : ℝ)| ≤ 89 := by exact_mod_cast hm
    rw [abs_mul, abs_of_pos (by positivity : 0 < π / 180)]
    have := mul_le_mul_of_nonneg_right hm' (by positivity : 0 ≤ π / 180)
    linarith
  have ha : |β| ≤ π / 2 - 1744 / 100000 := by
    have := abs_sub_abs_le_abs_sub β (radians m)
    norm_num at *
    linarith
  have e : cos β = sin (π / 2 - |β|) := by rw [sin_pi_div_two_sub, cos_abs]
  have e2 : sin (1744 / 100000) ≤ sin (π / 2 - |β|) :=
    sin_le_sin_of_le_of_le_pi_div_two (by linarith) (by linarith [abs_nonneg β]) (by linarith)
  have e3 := Real.sin_gt_sub_cube (x := 1744 / 100000) (by norm_num)
  rw [e]
  norm_num at *
  linarith

/-- The angles shown for angles of the same rotation that are not steep. -/
theorem shown_of {A : Arith} {p : Position} {q : ℍ[ℝ]} {roll pitch yaw : ℝ} (hf : FromEuler A p.yaw p.pitch p.roll q)
    (ht : ToEuler q roll pitch yaw) {a b c : ℤ} {ρ α β γ : ℝ} (hb : |b| ≤ 89) (hβ : |β - radians b| ≤ 1 / 10 ^ 6)
    (hα : |α - radians a| ≤ 1 / 10000) (hγ : |γ - radians c| ≤ 1 / 10000) (hρ : 17 / 1000 ≤ ρ)
    (es : sin (A.toRadians p.pitch.toInt) = sin β)
    (e1 : cos (A.toRadians p.pitch.toInt) * sin (A.toRadians p.roll.toInt) = ρ * sin γ)
    (e2 : cos (A.toRadians p.pitch.toInt) * cos (A.toRadians p.roll.toInt) = ρ * cos γ)
    (e3 : cos (A.toRadians p.pitch.toInt) * sin (A.toRadians p.yaw.toInt) = ρ * sin α)
    (e4 : cos (A.toRadians p.pitch.toInt) * cos (A.toRadians p.yaw.toInt) = ρ * cos α) :
    roundAway (A.toDegrees pitch) = b ∧
    ((-180 ≤ roundAway (A.toDegrees yaw) ∧ roundAway (A.toDegrees yaw) ≤ 180) ∧
      ∃ k : ℤ, roundAway (A.toDegrees yaw) = a + 360 * k) ∧
    ((-180 ≤ roundAway (A.toDegrees roll) ∧ roundAway (A.toDegrees roll) ≤ 180) ∧
      ∃ k : ℤ, roundAway (A.toDegrees roll) = c + 360 * k) := by
  obtain ⟨m1, m2, m3, m4, m5⟩ := entries hf
  rw [es] at m1
  rw [e1] at m2
  rw [e2] at m3
  rw [e3] at m4
  rw [e4] at m5
  obtain ⟨s, hs, ht⟩ := ht
  have tri : ∀ {u v w : ℝ}, |u - v| ≤ 2⁻¹ ^ 18 → |v - w| ≤ 22 / 10 ^ 6 → |u - w| ≤ 26 / 10 ^ 6 := by
    intro u v w h1 h2
    have := abs_sub_le u v w
    norm_num at *
    linarith
  have hsβ := tri hs m1
  have hsb : |sin β - sin (radians b)| ≤ 1 / 10 ^ 6 := by
    have := abs_sin_sub_sin_le β (radians b)
    exact this.trans hβ
  have hsr : |s - sin (radians b)| ≤ 27 / 10 ^ 6 := by
    have := abs_sub_le s (sin β) (sin (radians b))
    norm_num at *
    linarith
  have hsa : |s| ≤ 9999 / 10000 := by
    have hc := cos_lower (β := radians b) hb (by simp)
    have h2 := sin_sq_add_cos_sq (radians b)
    have h3 : |sin (radians b)| ≤ 99986 / 100000 := abs_le_of_sq_le_sq (by nlinarith) (by norm_num)
    have := abs_sub_abs_le_abs_sub s (sin (radians b))
    norm_num at *
    linarith
  obtain ⟨h1, ⟨n, d, hn, hd, h2⟩, n', d', hn', hd', h3⟩ := ht hsa
  exact ⟨A.asin_shown h1 hsr hsa hb, A.atan2_shown h3 hρ (tri hd' m5) (tri hn' m4) hα,
    A.atan2_shown h2 hρ (tri hd m3) (tri hn m2) hγ⟩

end Pica
