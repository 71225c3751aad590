import Verif.Proofs.Euler
import Verif.Spec.Page
import Verif.Proofs.Binary32
/-! C87: the angles that the events, the state and the page show for a device. -/

namespace Pica.Props
open Real Spec Quaternion

/-- The angles of a device that is not turned steeply up or down, up to full turns. -/
theorem C87_flat (A : Arith) (euler : Euler) (h : Shown A euler) (p : Position) (hp : |p.pitch.toInt| ≤ 89) :
    (euler p).2.1 = p.pitch ∧
    (-180 ≤ (euler p).1.toInt ∧ (euler p).1.toInt ≤ 180 ∧ ∃ k : ℤ, (euler p).1.toInt = p.yaw.toInt + 360 * k) ∧
    (-180 ≤ (euler p).2.2.toInt ∧ (euler p).2.2.toInt ≤ 180 ∧ ∃ k : ℤ, (euler p).2.2.toInt = p.roll.toInt + 360 * k) := by
  obtain ⟨q, roll, pitch, yaw, hf, ht, he⟩ := h p
  have by1 := Arith.int16_bounds p.yaw
  have by2 := Arith.int16_bounds p.roll
  have hβ : |A.toRadians p.pitch.toInt - radians p.pitch.toInt| ≤ 1 / 10 ^ 6 :=
    (A.radians_err _ 89 (by exact_mod_cast hp)).trans (by norm_num)
  obtain ⟨h1, ⟨h2, k, h3⟩, h4, l, h5⟩ := shown_of hf ht hp hβ
    (radians_close A p.yaw.toInt (by rw [abs_le]; constructor <;> omega))
    (radians_close A p.roll.toInt (by rw [abs_le]; constructor <;> omega)) (cos_lower hp hβ) rfl rfl rfl rfl rfl
  rw [he]
  dsimp only
  rw [Int16.toInt_ofInt_of_le (by omega) (by omega), Int16.toInt_ofInt_of_le (by omega) (by omega), h1]
  exact ⟨Int8.ofInt_toInt _, ⟨h2.1, h2.2, k, h3⟩, h4.1, h4.2, l, h5⟩

/-- The angles of a device that is turned over. -/
theorem C87_over (A : Arith) (euler : Euler) (h : Shown A euler) (p : Position) (hp : 90 < |p.pitch.toInt|) :
    (euler p).2.1.toInt = (if 0 < p.pitch.toInt then 180 else -180) - p.pitch.toInt ∧
    (-180 ≤ (euler p).1.toInt ∧ (euler p).1.toInt ≤ 180 ∧ ∃ k : ℤ, (euler p).1.toInt = p.yaw.toInt + 180 + 360 * k) ∧
    (-180 ≤ (euler p).2.2.toInt ∧ (euler p).2.2.toInt ≤ 180 ∧ ∃ k : ℤ, (euler p).2.2.toInt = p.roll.toInt + 180 + 360 * k) := by
  obtain ⟨q, roll, pitch, yaw, hf, ht, he⟩ := h p
  have by1 := Arith.int16_bounds p.yaw
  have by2 := Arith.int16_bounds p.roll
  have hb1 := p.pitch.le_toInt
  have hb2 := p.pitch.toInt_lt
  have hβ : |A.toRadians p.pitch.toInt - radians p.pitch.toInt| ≤ 1 / 10 ^ 6 :=
    (A.radians_err _ 128 (by rw [abs_le]; constructor <;> norm_cast <;> omega)).trans (by norm_num)
  have hb : |(if 0 < p.pitch.toInt then 180 else -180) - p.pitch.toInt| ≤ 89 := by
    rcases abs_cases p.pitch.toInt with ⟨h1, h2⟩ | ⟨h1, h2⟩ <;> rw [h1] at hp <;> split <;> rw [abs_le] <;> constructor <;> omega
  -- the pitch and its sine on the other side
  obtain ⟨β, hβ', es, ec⟩ : ∃ β, |β - radians (((if 0 < p.pitch.toInt then 180 else -180) - p.pitch.toInt : ℤ) : ℝ)| ≤ 1 / 10 ^ 6 ∧
      sin (A.toRadians p.pitch.toInt) = sin β ∧ cos (A.toRadians p.pitch.toInt) = -cos β := by
    split
    · refine ⟨π - A.toRadians p.pitch.toInt, ?_, by rw [sin_pi_sub], by rw [cos_pi_sub, neg_neg]⟩
      rw [← abs_neg] at hβ
      convert hβ using 2
      unfold radians; push_cast; ring
    · refine ⟨-π - A.toRadians p.pitch.toInt, ?_, ?_, ?_⟩
      · rw [← abs_neg] at hβ
        convert hβ using 2
        unfold radians; push_cast; ring
      · rw [show -π - A.toRadians p.pitch.toInt = -(A.toRadians p.pitch.toInt + π) by ring, sin_neg, sin_add_pi, neg_neg]
      · rw [show -π - A.toRadians p.pitch.toInt = -(A.toRadians p.pitch.toInt + π) by ring, cos_neg, cos_add_pi, neg_neg]
  have turn : ∀ n : ℤ, |n| ≤ 32768 → |(A.toRadians n + π) - radians ((n + 180 : ℤ) : ℝ)| ≤ 1 / 10000 := by
    intro n hn
    convert radians_close A n hn using 2
    unfold radians; push_cast; ring
  obtain ⟨h1, ⟨h2, k, h3⟩, h4, l, h5⟩ := shown_of hf ht hb hβ'
    (turn p.yaw.toInt (by rw [abs_le]; constructor <;> omega))
    (turn p.roll.toInt (by rw [abs_le]; constructor <;> omega)) (cos_lower hb hβ') es
    (by rw [ec, sin_add_pi]; ring) (by rw [ec, cos_add_pi]; ring) (by rw [ec, sin_add_pi]; ring) (by rw [ec, cos_add_pi]; ring)
  rw [he]
  dsimp only
  have hb' := abs_le.mp hb
  rw [Int16.toInt_ofInt_of_le (by omega) (by omega), Int16.toInt_ofInt_of_le (by omega) (by omega), h1,
    Int8.toInt_ofInt_of_le (by omega) (by omega)]
  exact ⟨rfl, ⟨h2.1, h2.2, k, h3⟩, h4.1, h4.2, l, h5⟩

/-- Unless a device looks straight up or down, the angles shown are those of the rotation that was set. -/
theorem C87_rotation (A : Arith) (euler : Euler) (h : Shown A euler) (p : Position) (hp : |p.pitch.toInt| ≠ 90) (v : Point) :
    turned (euler p).1.toInt (euler p).2.1.toInt (euler p).2.2.toInt v = turned p.yaw.toInt p.pitch.toInt p.roll.toInt v := by
  rcases lt_or_gt_of_ne hp with hl | hg
  · obtain ⟨h1, ⟨-, -, h2⟩, -, -, h3⟩ := C87_flat A euler h p (by omega)
    rw [h1]
    exact turned_mod h2 h3 v
  · obtain ⟨h1, ⟨-, -, h2⟩, -, -, h3⟩ := C87_over A euler h p (by omega)
    rw [turned_mod h2 h3 v, h1]
    split
    · push_cast
      exact turned_over _ _ _ v
    · have e : radians (((-180 : ℤ) - p.pitch.toInt : ℤ) : ℝ) = radians (180 - p.pitch.toInt) - 2 * π := by
        unfold radians; push_cast; ring
      rw [← turned_over (p.yaw.toInt : ℝ) p.pitch.toInt p.roll.toInt v]
      unfold turned Point.turnX
      rw [e, sin_sub_two_pi, cos_sub_two_pi]
      push_cast
      rfl

/-- Angles that are shown can be set again: the device keeps looking where it did. -/
theorem C87_again (A : Arith) (euler : Euler) (h : Shown A euler) (p : Position) (hp : |p.pitch.toInt| ≠ 90) (q : Position) :
    sight { p with yaw := (euler p).1, pitch := (euler p).2.1, roll := (euler p).2.2 } q = sight p q := by
  exact C87_rotation A euler h p hp (offset p q)

/-- Angles within half a turn are shown as they were set. -/
theorem C87_partial (A : Arith) (euler : Euler) (h : Shown A euler) (p : Position) (hp : |p.pitch.toInt| ≤ 89)
    (hy : |p.yaw.toInt| < 180) (hr : |p.roll.toInt| < 180) : euler p = (p.yaw, p.pitch, p.roll) := by
  obtain ⟨h1, ⟨h2, h3, k, h4⟩, h5, h6, l, h7⟩ := C87_flat A euler h p hp
  have hy := abs_lt.mp hy
  have hr := abs_lt.mp hr
  refine Prod.ext ?_ (Prod.ext h1 ?_)
  · exact Int16.toInt_inj.mp (by dsimp only; omega)
  · exact Int16.toInt_inj.mp (by dsimp only; omega)

/-- A device of the registry is on the page as it was placed. -/
theorem C87_page (A : Arith) (euler : Euler) (h : Shown A euler) (w : Web) (page : Page) (hs : Shows euler w page)
    (i : Info) (hi : i ∈ AMap.values w.devices) (hp : |i.position.pitch.toInt| ≤ 89) (hy : |i.position.yaw.toInt| < 180)
    (hr : |i.position.roll.toInt| < 180) :
    ∃ m ∈ page, m.mac = macText i.mac ∧ m.x = i.position.x.toInt ∧ m.y = i.position.y.toInt ∧ m.z = i.position.z.toInt ∧
      m.yaw = i.position.yaw.toInt ∧ m.pitch = i.position.pitch.toInt ∧ m.roll = i.position.roll.toInt := by
  have hm := hs.mem_iff.mpr (List.mem_map_of_mem (f := facts euler) hi)
  obtain ⟨m, hm, he⟩ := List.mem_map.mp hm
  have hx := C87_partial A euler h i.position hp hy hr
  unfold facts shown at he
  rw [hx] at he
  simp only [Prod.mk.injEq] at he
  exact ⟨m, hm, he⟩

/-- The angles shown are not always those that were set: a pitch of 120 degrees is shown as 60. -/
theorem C87_false (A : Arith) (euler : Euler) (h : Shown A euler) : ∃ p : Position, (euler p).2.1 ≠ p.pitch := by
  refine ⟨⟨0, 0, 0, 0, 120, 0⟩, fun e => ?_⟩
  have := (C87_over A euler h ⟨0, 0, 0, 0, 120, 0⟩ (by decide)).1
  rw [e] at this
  exact absurd this (by decide)

/-! ### Angles without the errors of `f32` -/

/-- The rotation with the errors of `to_radians` alone. -/
noncomputable def quaternion (A : Arith) (p : Position) : ℍ[ℝ] :=
  halfZ (A.toRadians p.roll.toInt) * halfX (A.toRadians p.pitch.toInt) * halfY (A.toRadians p.yaw.toInt)

/-- The angle of a vector of the plane. -/
noncomputable def angle (n d : ℝ) : ℝ := Classical.choose (exists_angle d n)

theorem atan2_angle (n d : ℝ) : Atan2 n d (angle n d) := by
  obtain ⟨h1, h2, h3, h4, -⟩ := Classical.choose_spec (exists_angle d n)
  exact ⟨angle n d, _, abs_le.mpr ⟨h1.le, h2⟩, Real.sqrt_nonneg _, h3, h4, by rw [sub_self, abs_zero]; positivity⟩

/-- The angles of that rotation. -/
noncomputable def exactAngles (A : Arith) : Euler := fun p =>
  let q := quaternion A p
  (Int16.ofInt (roundAway (A.toDegrees
      (angle (-2 * (q.imI * q.imK - q.re * q.imJ)) (q.re ^ 2 - q.imI ^ 2 - q.imJ ^ 2 + q.imK ^ 2)))),
    Int8.ofInt (roundAway (A.toDegrees (arcsin (2 * (q.imJ * q.imK + q.re * q.imI))))),
    Int16.ofInt (roundAway (A.toDegrees
      (angle (-2 * (q.imI * q.imJ - q.re * q.imK)) (q.re ^ 2 - q.imI ^ 2 + q.imJ ^ 2 - q.imK ^ 2)))))

theorem exactAngles_shown (A : Arith) : Shown A (exactAngles A) := by
  intro p
  have z : ∀ x : ℝ, ∀ n : ℕ, |x - x| ≤ 2⁻¹ ^ n := by intro x n; rw [sub_self, abs_zero]; positivity
  refine ⟨quaternion A p, _, _, _, ⟨_, _, _, _, by rw [sub_self, norm_zero]; positivity, by rw [sub_self, norm_zero]; positivity,
    by rw [sub_self, norm_zero]; positivity, by rw [sub_self, norm_zero]; positivity, ?_⟩,
    ⟨_, z _ _, fun _ => ⟨z _ _, ⟨_, _, z _ _, z _ _, atan2_angle _ _⟩, _, _, z _ _, z _ _, atan2_angle _ _⟩⟩, rfl⟩
  unfold quaternion
  rw [sub_self, norm_zero]; positivity

/-- Such angles are shown for a device turned to the right and up; for one with a larger yaw; and for one that is turned over. -/
example : exactAngles .ieee ⟨1, 2, 3, 90, 45, -10⟩ = (90, 45, -10) :=
  C87_partial .ieee _ (exactAngles_shown _) _ (by decide) (by decide) (by decide)

example : (exactAngles .ieee ⟨0, 0, 0, 300, 45, 0⟩).1 = -60 := by
  obtain ⟨-, ⟨h1, h2, k, h3⟩, -⟩ := C87_flat .ieee _ (exactAngles_shown _) ⟨0, 0, 0, 300, 45, 0⟩ (by decide)
  rw [show (300 : Int16).toInt = 300 from rfl] at h3
  exact Int16.toInt_inj.mp (by rw [show (-60 : Int16).toInt = -60 from rfl]; omega)

example : (exactAngles .ieee ⟨0, 0, 0, 10, -120, 0⟩).2.1 = -60 ∧ (exactAngles .ieee ⟨0, 0, 0, 10, -120, 0⟩).1 = -170 := by
  obtain ⟨h0, ⟨h1, h2, k, h3⟩, -⟩ := C87_over .ieee _ (exactAngles_shown _) ⟨0, 0, 0, 10, -120, 0⟩ (by decide)
  rw [show (10 : Int16).toInt = 10 from rfl] at h3
  exact ⟨Int8.toInt_inj.mp (h0.trans (by decide)), Int16.toInt_inj.mp (by rw [show (-170 : Int16).toInt = -170 from rfl]; omega)⟩

end Pica.Props
