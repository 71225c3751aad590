import Verif.Proofs.Picture
import Verif.Props.Rotation
/-! C105: the page draws what the emulator computes. -/

namespace Pica.Props
open Real Spec Draw

/-! ### The map -/

/-- The picture is one taken from afar: the directions to the right, down and towards the viewer are perpendicular and of length
one, and the three axes of space look equally long. -/
theorem C105_camera :
    right.dot right = 1 ∧ down.dot down = 1 ∧ towards.dot towards = 1 ∧
    right.dot down = 0 ∧ right.dot towards = 0 ∧ down.dot towards = 0 ∧
    (∀ e ∈ [(⟨1, 0, 0⟩ : Point), ⟨0, 1, 0⟩, ⟨0, 0, 1⟩], e.dot towards = 1 / √3 ∧
      (picture e).1 ^ 2 + (picture e).2 ^ 2 = (7 / 10) ^ 2 * (2 / 3)) := by
  have h2 : √2 * √2 = 2 := Real.mul_self_sqrt (by norm_num)
  have h3 : √3 * √3 = 3 := Real.mul_self_sqrt (by norm_num)
  have h6 : √6 * √6 = 6 := Real.mul_self_sqrt (by norm_num)
  have p2 : √2 ≠ 0 := by positivity
  have p3 : √3 ≠ 0 := by positivity
  have p6 : √6 ≠ 0 := by positivity
  have i2 : 1 / √2 * (1 / √2) = 1 / 2 := by rw [div_mul_div_comm, h2, one_mul]
  have i3 : 1 / √3 * (1 / √3) = 1 / 3 := by rw [div_mul_div_comm, h3, one_mul]
  have i6 : 1 / √6 * (1 / √6) = 1 / 6 := by rw [div_mul_div_comm, h6, one_mul]
  have d2 : (-1 : ℝ) / √2 = -(1 / √2) := by ring
  have d6 : (-2 : ℝ) / √6 = -2 * (1 / √6) := by ring
  unfold right down towards picture Point.dot
  refine ⟨?_, ?_, ?_, ?_, ?_, ?_, ?_⟩
  · simp only [d2]; nlinarith
  · simp only [d6]; nlinarith
  · simp only; nlinarith
  · simp only [d2, d6]; ring
  · simp only [d2]; ring
  · simp only [d6]; ring
  · intro e he
    simp only [List.mem_cons, List.not_mem_nil, or_false] at he
    rcases he with rfl | rfl | rfl
    · refine ⟨by simp only; ring, ?_⟩
      unfold right down
      simp only [d2, d6]; nlinarith
    · refine ⟨by simp only; ring, ?_⟩
      unfold right down
      simp only [d2, d6]; nlinarith
    · refine ⟨by simp only; ring, ?_⟩
      unfold right down
      simp only [d2, d6]; nlinarith

/-- Every device is drawn as a cube at its position: the three faces are pictures of those of the cube that look towards the
viewer, and cover it; the outline of the selected one is the rim between what is seen of it and what is not. -/
theorem C105_cube (m : Marker) :
    group m (0, 0) = picture ⟨m.x, m.y, m.z⟩ ∧
    faces m = [picture '' sideX m, picture '' sideZ m, picture '' sideY m] ∧
    (∀ q, q ∈ picture '' cube m ↔ ∃ f ∈ faces m, q ∈ f) ∧ outline m = picture '' rim m := by
  have hf : faces m = [picture '' sideX m, picture '' sideZ m, picture '' sideY m] := by
    unfold faces
    rw [red_face, yellow_face, blue_face]
  refine ⟨?_, hf, ?_, outline_picture m⟩
  · rw [group_picture m (0, 0) 0]
    congr 1
    apply point_ext <;> simp only <;> ring
  · intro q
    rw [picture_cube, hf, Set.image_union, Set.image_union]
    simp only [List.mem_cons, List.not_mem_nil, or_false, Set.mem_union, exists_eq_or_imp, exists_eq_left]
    tauto

/-- A face is not empty: this corner of a device at (1, 2, 3) is on the first of them. -/
example : picture ⟨41, 2, 43⟩ ∈ picture '' sideX ⟨[], 1, 2, 3, 0, 0, 0, []⟩ :=
  ⟨_, ⟨⟨by norm_num, by norm_num, by norm_num, by norm_num, by norm_num, by norm_num⟩, by norm_num⟩, rfl⟩

/-- From a device above the ground, and not more than 40 below it, a line is drawn to the ground, with a cross at its end. -/
theorem C105_ground_partial (m : Marker) (hy : -40 ≤ m.y) (h0 : m.y ≠ 0) :
    stem m = picture '' plumb m ∧ cross m = picture '' foot m :=
  ⟨stem_picture m hy h0, cross_picture m hy h0⟩

example : ∃ m : Marker, -40 ≤ m.y ∧ m.y ≠ 0 := ⟨⟨[], 0, 100, 0, 0, 0, 0, []⟩, by decide, by decide⟩

/-- A device further below the ground has no cross: the text of its coordinate has two signs. -/
theorem C105_ground_false : ¬ ∀ m : Marker, m.y ≠ 0 → cross m = picture '' foot m := by
  intro h
  have h1 := h ⟨[], 0, -41, 0, 0, 0, 0, []⟩ (by decide)
  have h2 : cross ⟨[], 0, -41, 0, 0, 0, 0, []⟩ = ∅ := by
    unfold cross
    rw [footText_number]
    simp
  rw [h2] at h1
  have h3 : picture ⟨40, 0, 40⟩ ∈ picture '' foot ⟨[], 0, -41, 0, 0, 0, 0, []⟩ :=
    ⟨_, ⟨rfl, Or.inl ⟨by norm_num, by norm_num⟩⟩, rfl⟩
  rw [← h1] at h3
  exact h3

/-- This is so of all of them, and only of them. -/
theorem C105_deep (m : Marker) : m.y < -40 ↔ cross m = ∅ ∧ m.y ≠ 0 := by
  constructor
  · intro h
    refine ⟨?_, by omega⟩
    unfold cross
    rw [if_neg (by omega), footText_number, if_neg (by omega)]
  · rintro ⟨h, h0⟩
    by_contra hy
    rw [cross_picture m (by omega) h0] at h
    have h3 : picture ⟨m.x + 40, 0, m.z + 40⟩ ∈ picture '' foot m :=
      ⟨_, ⟨rfl, Or.inl ⟨rfl, by norm_num⟩⟩, rfl⟩
    rw [h] at h3
    exact h3

/-- Their line goes up along the cube instead of to the ground. -/
theorem C105_deep_line (m : Marker) (hy : m.y < -40) :
    stem m = picture '' {p | p.x = m.x + 40 ∧ p.z = m.z + 40 ∧ m.y ≤ p.y ∧ p.y ≤ m.y + 40} := by
  unfold stem
  rw [if_neg (by omega), footText_number, if_neg (by omega), Option.getD_none]
  apply line_picture ⟨m.x + 40, m.y, m.z + 40⟩ ⟨m.x + 40, m.y + 40, m.z + 40⟩
  · intro t
    simp only [skewY_down]
    push_cast
    apply group_at <;> simp only <;> ring
  · intro v
    simp only [Set.mem_ofPred_eq]
    constructor
    · rintro ⟨h1, h2, h3, h4⟩
      refine ⟨(v.y - m.y) / 40, by linarith, by linarith, ?_⟩
      apply point_ext <;> simp only <;> linarith
    · rintro ⟨t, h1, h2, rfl⟩
      refine ⟨?_, ?_, ?_, ?_⟩ <;> simp only <;> linarith

example : (⟨[], 0, -100, 0, 0, 0, 0, []⟩ : Marker).y < -40 := by decide

/-! ### Orientations -/

/-- The axes are drawn in the colours in which the coordinates are written, each as the picture of its own axis of space. -/
theorem C105_axes :
    screen (projection (axis coordinateColours.1)) = picture ⟨1, 0, 0⟩ ∧
    screen (projection (axis coordinateColours.2.1)) = picture ⟨0, 1, 0⟩ ∧
    screen (projection (axis coordinateColours.2.2)) = picture ⟨0, 0, 1⟩ := axis_picture

/-- The arrow of a device is the picture of the direction straight ahead of it: the emulator sees a peer there, and only there,
straight ahead. -/
theorem C105_arrow (m : Marker) (p q : Position) (hm : p.yaw.toInt = m.yaw) (hp : p.pitch.toInt = m.pitch) :
    ∃ v : Point, Ahead m.yaw m.pitch v ∧ screen (projection (deviceValue m).1) = picture v ∧
      screen (projection (deviceValue m).2) = picture v ∧
      ∀ t : ℝ, sight p q = ⟨0, 0, t⟩ ↔ offset p q = v.times t := by
  refine ⟨aheadPoint m.yaw m.pitch, (ahead_iff _ _ _).2 rfl, (value_picture _ _).1, (value_picture _ _).2, fun t => ?_⟩
  unfold sight
  rw [turned_forward, hm, hp]

/-- A device turned by -90 degrees looks along the x axis. -/
example : Ahead (-90) 0 ⟨1, 0, 0⟩ := by
  rw [ahead_iff]
  unfold aheadPoint
  rw [radians_neg, radians_90, sin_neg, cos_neg, sin_pi_div_two, cos_pi_div_two]
  have : radians 0 = 0 := by unfold radians; ring
  rw [this]
  apply point_ext <;> simp

/-- The blue sector lies between straight ahead of a device that is not turned and the yaw, the red one between the ground and
the pitch. -/
theorem C105_sectors (yaw pitch : ℝ) (hy : |yaw| ≤ 180) (hp : |pitch| ≤ 90) :
    (fun v => screen (projection v)) '' yawCircle yaw = picture '' yawSector (size / 2) yaw ∧
    (fun v => screen (projection v)) '' pitchCircle yaw pitch = picture '' pitchSector (size / 2) yaw pitch :=
  ⟨yawCircle_picture yaw (by linarith), pitchCircle_picture yaw pitch (by linarith)⟩

example : Within (-30) (-10) ∧ ¬ Within (-30) 10 := by
  unfold Within
  constructor
  · right; norm_num
  · norm_num

theorem combined {c c' u u' : ℝ} (hc' : 0 ≤ c') (hu : |u| ≤ 1) (h4 : |c - c'| ≤ 1048 / 100000)
    (h5 : c' * |u - u'| ≤ 998 / 100000) : |c * u - c' * u'| ≤ 21 / 1000 := by
  have e : c * u - c' * u' = (c - c') * u + c' * (u - u') := by ring
  have h6 : |c - c'| * |u| ≤ 1048 / 100000 * 1 := mul_le_mul h4 hu (abs_nonneg u) (by norm_num)
  rw [e]
  refine (abs_add_le _ _).trans ?_
  rw [abs_mul, abs_mul, abs_of_nonneg hc']
  linarith

/-- The arrow of a neighbor is the picture of the direction in which the device sees it, to about a degree. -/
theorem C105_neighbor (A : Arith) (rotate : Rotate) (hacc : Accurate rotate) (p q : Position)
    (hne : (p.x, p.y, p.z) ≠ (q.x, q.y, q.z)) :
    ∃ m, A.compute rotate p q = .ok m ∧
      ∀ n : Neighbor, n.azimuth = m.azimuth.toInt → n.elevation = m.elevation.toInt →
        ∃ w : Point, screen (projection (neighborValue n).1) = picture w ∧ screen (projection (neighborValue n).2) = picture w ∧
          |w.x - (sight p q).x / (sight p q).norm| ≤ 21 / 1000 ∧ |w.y - (sight p q).y / (sight p q).norm| ≤ 21 / 1000 ∧
          |w.z - (sight p q).z / (sight p q).norm| ≤ 21 / 1000 := by
  have hpos := pi_pos
  have hpi : π < 3.1416 := pi_lt_d4
  set s := sight p q with hs
  have hn : 0 < s.norm := lt_of_lt_of_le one_pos (norm_sight hne)
  have hfn : √(s.flat ^ 2 + s.y ^ 2) = s.norm := by
    unfold Point.flat Point.norm
    rw [Real.sq_sqrt (by positivity)]
    congr 1
    ring
  obtain ⟨φ, -, -, h1, h2, h3⟩ := exists_angle s.flat s.y
  rw [hfn] at h1 h2
  have hf0 : 0 ≤ s.flat := Real.sqrt_nonneg _
  have hφ := abs_le.1 (h3 hf0)
  have hcos : 0 ≤ cos φ := cos_nonneg_of_mem_Icc ⟨hφ.1, hφ.2⟩
  obtain ⟨θ, t1, t2, k1, k2, -⟩ := exists_angle s.z s.x
  have hzx : √(s.z ^ 2 + s.x ^ 2) = s.flat := by unfold Point.flat; rw [add_comm]
  rw [hzx] at k1 k2
  obtain ⟨m, hm, he⟩ := C85_elevation A rotate hacc p q hne φ ⟨hφ.1, hφ.2, s.norm, hn, h2, by
    show s.flat = _
    exact h1⟩
  refine ⟨m, hm, fun n ha hel => ⟨⟨cos (radians n.elevation) * sin (radians n.azimuth), sin (radians n.elevation),
    cos (radians n.elevation) * cos (radians n.azimuth)⟩, ?_⟩⟩
  have hv := value_picture (-n.azimuth : ℤ) n.elevation
  have hw : aheadPoint (-n.azimuth : ℤ) n.elevation = ⟨cos (radians n.elevation) * sin (radians n.azimuth),
      sin (radians n.elevation), cos (radians n.elevation) * cos (radians n.azimuth)⟩ := by
    unfold aheadPoint
    push_cast
    rw [radians_neg, sin_neg, cos_neg]
    apply point_ext <;> simp only <;> ring
  rw [hw] at hv
  refine ⟨hv.1, hv.2, ?_⟩
  have hy : s.y / s.norm = sin φ := by rw [h2]; field_simp
  have hx : s.x / s.norm = cos φ * sin θ := by rw [k2, h1]; field_simp
  have hz : s.z / s.norm = cos φ * cos θ := by rw [k1, h1]; field_simp
  rw [hx, hy, hz]
  simp only
  -- the error of the elevation
  have hE : |radians n.elevation - φ| ≤ 1048 / 100000 := by
    have e : radians n.elevation - φ = (m.elevation.toInt - degrees φ) * (π / 180) := by
      rw [hel]; unfold radians degrees; field_simp
    rw [e, abs_mul, abs_of_pos (by positivity : 0 < π / 180)]
    have : |(m.elevation.toInt : ℝ) - degrees φ| * (π / 180) ≤ 6 / 10 * (π / 180) :=
      mul_le_mul_of_nonneg_right he (by positivity)
    linarith
  have hce : |cos (radians n.elevation) - cos φ| ≤ 1048 / 100000 := (abs_cos_sub_cos_le _ _).trans hE
  have hse : |sin (radians n.elevation) - sin φ| ≤ 1048 / 100000 := (abs_sin_sub_sin_le _ _).trans hE
  -- the error of the azimuth
  have hA : cos φ * |sin (radians n.azimuth) - sin θ| ≤ 998 / 100000 ∧ cos φ * |cos (radians n.azimuth) - cos θ| ≤ 998 / 100000 := by
    by_cases hf : s.norm ≤ 1000 * s.flat
    · have hfp : 0 < s.flat := by nlinarith
      have hcp : 0 < cos φ := by
        rcases hcos.lt_or_eq with h | h
        · exact h
        · rw [← h, mul_zero] at h1; linarith
      obtain ⟨m', hm', k, hk⟩ := C85_azimuth A rotate hacc p q θ ⟨t1, t2, s.flat, hfp, k1, k2⟩ hf
      obtain rfl : m = m' := by rw [hm] at hm'; exact Except.ok.inj hm'
      have e : radians n.azimuth - (θ + k * (2 * π)) = (m.azimuth.toInt - (degrees θ + 360 * k)) * (π / 180) := by
        rw [ha]; unfold radians degrees; field_simp; ring
      have hq : s.norm / s.flat = 1 / cos φ := by rw [h1]; field_simp
      have hb : |radians n.azimuth - (θ + k * (2 * π))| ≤ (501 / 1000 + 7 / 100 * (1 / cos φ)) * (π / 180) := by
        rw [e, abs_mul, abs_of_pos (by positivity : 0 < π / 180)]
        rw [hs] at hq
        rw [hq] at hk
        exact mul_le_mul_of_nonneg_right hk (by positivity)
      have hfin : cos φ * ((501 / 1000 + 7 / 100 * (1 / cos φ)) * (π / 180)) ≤ 998 / 100000 := by
        have hc1 := cos_le_one φ
        have : cos φ * ((501 / 1000 + 7 / 100 * (1 / cos φ)) * (π / 180)) = (501 / 1000 * cos φ + 7 / 100) * (π / 180) := by
          field_simp
        rw [this]
        nlinarith
      have hs1 : |sin (radians n.azimuth) - sin θ| ≤ |radians n.azimuth - (θ + k * (2 * π))| := by
        rw [← sin_add_int_mul_two_pi θ k]; exact abs_sin_sub_sin_le _ _
      have hc1 : |cos (radians n.azimuth) - cos θ| ≤ |radians n.azimuth - (θ + k * (2 * π))| := by
        rw [← cos_add_int_mul_two_pi θ k]; exact abs_cos_sub_cos_le _ _
      exact ⟨(mul_le_mul_of_nonneg_left (hs1.trans hb) hcos).trans hfin, (mul_le_mul_of_nonneg_left (hc1.trans hb) hcos).trans hfin⟩
    · have hsm : cos φ < 1 / 1000 := by
        rw [h1] at hf
        by_contra hc
        apply hf
        nlinarith
      have b1 : |sin (radians n.azimuth) - sin θ| ≤ 2 := by
        refine (abs_sub _ _).trans ?_
        linarith [abs_sin_le_one (radians n.azimuth), abs_sin_le_one θ]
      have b2 : |cos (radians n.azimuth) - cos θ| ≤ 2 := by
        refine (abs_sub _ _).trans ?_
        linarith [abs_cos_le_one (radians n.azimuth), abs_cos_le_one θ]
      constructor <;> nlinarith [abs_nonneg (sin (radians n.azimuth) - sin θ), abs_nonneg (cos (radians n.azimuth) - cos θ)]
  exact ⟨combined hcos (abs_sin_le_one _) hce hA.1, hse.trans (by norm_num), combined hcos (abs_cos_le_one _) hce hA.2⟩

/-- The peer straight ahead of a device that is not turned: the arrow is close to the z axis. -/
example (rotate : Rotate) (h : Glam .ieee rotate) :
    ∃ m, Arith.ieee.compute rotate ⟨0, 0, 0, 0, 0, 0⟩ ⟨0, 0, 10, 0, 0, 0⟩ = .ok m ∧
      ∀ n : Neighbor, n.azimuth = m.azimuth.toInt → n.elevation = m.elevation.toInt →
        ∃ w : Point, screen (projection (neighborValue n).1) = picture w ∧ |w.x| ≤ 21 / 1000 ∧ |w.y| ≤ 21 / 1000 ∧
          |w.z - 1| ≤ 21 / 1000 := by
  obtain ⟨m, h1, h2⟩ := C105_neighbor .ieee rotate (C85_accurate _ rotate h) ⟨0, 0, 0, 0, 0, 0⟩ ⟨0, 0, 10, 0, 0, 0⟩ (by decide)
  refine ⟨m, h1, fun n ha he => ?_⟩
  obtain ⟨w, k1, -, k3, k4, k5⟩ := h2 n ha he
  have hs : sight ⟨0, 0, 0, 0, 0, 0⟩ ⟨0, 0, 10, 0, 0, 0⟩ = ⟨0, 0, 10⟩ := by
    have e0 : (0 : Int16).toInt = 0 := rfl
    have e8 : (0 : Int8).toInt = 0 := rfl
    have e10 : (10 : Int16).toInt = 10 := rfl
    unfold sight turned offset radians
    simp [e0, e8, e10, Point.turnX, Point.turnY, Point.turnZ]
  have hn : (⟨0, 0, 10⟩ : Point).norm = 10 := by
    unfold Point.norm
    rw [Real.sqrt_eq_iff_mul_self_eq (by norm_num) (by norm_num)]
    norm_num
  rw [hs, hn] at k3 k4 k5
  norm_num at k3 k4 k5
  refine ⟨w, k1, ?_, ?_, ?_⟩
  · linarith
  · linarith
  · linarith

end Pica.Props
