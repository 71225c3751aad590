import Verif.Model.Draw
import Verif.Spec.Picture
import Verif.Proofs.Rotation
import Verif.Proofs.WebText
/-! The map and the arrows of the page are pictures of space. -/

namespace Pica.Props
open Real Spec Draw

@[ext] theorem css_ext {v w : Css} (hx : v.x = w.x) (hy : v.y = w.y) (hz : v.z = w.z) : v = w := by
  cases v; cases w; simp_all

theorem point_ext {v w : Point} (hx : v.x = w.x) (hy : v.y = w.y) (hz : v.z = w.z) : v = w := by
  cases v; cases w; simp_all

/-! ### Turns of CSS -/

theorem half_cos (r : ℝ) : 1 - 2 * sin (r / 2) ^ 2 = cos r := by
  have h := cos_two_mul (r / 2)
  have h2 := sin_sq_add_cos_sq (r / 2)
  rw [mul_div_cancel₀ r (two_ne_zero)] at h
  linarith

theorem half_sin (r : ℝ) : 2 * (sin (r / 2) * cos (r / 2)) = sin r := by
  have h := sin_two_mul (r / 2)
  rw [mul_div_cancel₀ r (two_ne_zero)] at h
  linarith

theorem rotateX_eq (a : ℝ) (v : Css) :
    rotateX a v = ⟨v.x, v.y * cos (radians a) - v.z * sin (radians a), v.y * sin (radians a) + v.z * cos (radians a)⟩ := by
  have h1 := half_cos (radians a)
  have h2 := half_sin (radians a)
  unfold rotateX rotate3d radians at *
  ext
  · ring
  · rw [← h1, ← h2]; ring
  · rw [← h1, ← h2]; ring

theorem rotateY_eq (a : ℝ) (v : Css) :
    rotateY a v = ⟨v.x * cos (radians a) + v.z * sin (radians a), v.y, v.z * cos (radians a) - v.x * sin (radians a)⟩ := by
  have h1 := half_cos (radians a)
  have h2 := half_sin (radians a)
  unfold rotateY rotate3d radians at *
  ext
  · rw [← h1, ← h2]; ring
  · ring
  · rw [← h1, ← h2]; ring

theorem rotateZ_eq (a : ℝ) (v : Css) :
    rotateZ a v = ⟨v.x * cos (radians a) - v.y * sin (radians a), v.x * sin (radians a) + v.y * cos (radians a), v.z⟩ := by
  have h1 := half_cos (radians a)
  have h2 := half_sin (radians a)
  unfold rotateZ rotate3d radians at *
  ext
  · rw [← h1, ← h2]; ring
  · rw [← h1, ← h2]; ring
  · ring

theorem radians_90 : radians 90 = π / 2 := by unfold radians; ring
theorem radians_180 : radians 180 = π := by unfold radians; ring
theorem radians_45 : radians 45 = π / 4 := by unfold radians; ring
theorem radians_neg (a : ℝ) : radians (-a) = -radians a := by unfold radians; ring
theorem radians_sub (a b : ℝ) : radians (a - b) = radians a - radians b := by unfold radians; ring
theorem radians_add (a b : ℝ) : radians (a + b) = radians a + radians b := by unfold radians; ring

theorem skewX_down (p : ℝ × ℝ) : skewX (-45) p = (p.1 - p.2, p.2) := by
  have h : (-45 : ℝ) * (π / 180) = -(π / 4) := by ring
  unfold skewX
  rw [h, tan_neg, tan_pi_div_four]
  ext <;> simp; ring

theorem skewX_up (p : ℝ × ℝ) : skewX 45 p = (p.1 + p.2, p.2) := by
  have h : (45 : ℝ) * (π / 180) = π / 4 := by ring
  unfold skewX
  rw [h, tan_pi_div_four]
  ext <;> simp

theorem skewY_down (p : ℝ × ℝ) : skewY (-45) p = (p.1, p.2 - p.1) := by
  have h : (-45 : ℝ) * (π / 180) = -(π / 4) := by ring
  unfold skewY
  rw [h, tan_neg, tan_pi_div_four]
  ext <;> simp; ring

/-! ### The projection -/

theorem sqrt6 : √6 = √2 * √3 := by
  rw [← Real.sqrt_mul (by norm_num)]; norm_num

/-- `PROJECTION` shows a point of the page as the picture of the point in space with these coordinates. -/
theorem projection_picture (v : Css) : screen (projection v) = picture ⟨-v.x, v.z, v.y⟩ := by
  have h2 : √2 * √2 = 2 := Real.mul_self_sqrt (by norm_num)
  have h3 : √3 * √3 = 3 := Real.mul_self_sqrt (by norm_num)
  have p2 : 0 < √2 := by positivity
  have p3 : 0 < √3 := by positivity
  have e : radians (arctan √2 * 180 / π) = arctan √2 := by
    unfold radians
    have := pi_pos.ne'
    field_simp
  have e3 : √(1 + √2 ^ 2) = √3 := by rw [Real.sq_sqrt (by norm_num)]; norm_num
  have hc : cos (arctan √2) = 1 / √3 := by rw [cos_arctan, e3]
  have hs : sin (arctan √2) = √2 / √3 := by rw [sin_arctan, e3]
  have e1 : ∀ a w, rotate3d 1 0 0 a w = rotateX a w := fun _ _ => rfl
  have e2 : ∀ a w, rotate3d 0 0 1 a w = rotateZ a w := fun _ _ => rfl
  unfold projection screen picture
  rw [e1, e2, rotateX_eq, rotateZ_eq, e, hc, hs, radians_neg, radians_45, sin_neg, cos_neg, cos_pi_div_four, sin_pi_div_four]
  unfold scale Point.dot right down
  rw [sqrt6]
  have i2 : √2 / 2 = 1 / √2 := by field_simp; nlinarith
  ext
  · simp only
    rw [i2]
    ring
  · simp only
    rw [i2]
    have i6 : (2 : ℝ) / (√2 * √3) = √2 / √3 := by
      rw [div_eq_div_iff (by positivity) (by positivity)]; nlinarith
    have i6' : (-2 : ℝ) / (√2 * √3) = -(√2 / √3) := by rw [neg_div, i6]
    rw [i6']
    have i1 : (1 : ℝ) / (√2 * √3) = 1 / √2 * (1 / √3) := by rw [div_mul_div_comm, one_mul]
    rw [i1]
    ring

theorem flatten_picture (p : ℝ × ℝ) : flatten p = picture ⟨-p.1, 0, p.2⟩ := by
  have hi := projection_picture ⟨1, 0, 0⟩
  have hj := projection_picture ⟨0, 1, 0⟩
  simp only [screen, picture, Prod.mk.injEq, Point.dot] at hi hj
  unfold flatten picture Point.dot
  simp only
  rw [hi.1, hi.2, hj.1, hj.2]
  ext <;> simp only <;> ring

/-- Points on a line towards the viewer look the same. -/
theorem picture_shift (v : Point) (t : ℝ) : picture ⟨v.x + t, v.y + t, v.z + t⟩ = picture v := by
  unfold picture Point.dot right down
  ext <;> simp only <;> ring

theorem picture_flat (x y z : ℝ) : picture ⟨x, y, z⟩ = picture ⟨x - y, 0, z - y⟩ := by
  have := picture_shift ⟨x, y, z⟩ (-y)
  rw [← this]
  simp only [add_neg_cancel, sub_eq_add_neg]

/-- The point of the group of a marker with these coordinates. -/
theorem group_picture (m : Marker) (p : ℝ × ℝ) (h : ℝ) :
    group m p = picture ⟨m.x - p.1 + h, m.y + h, m.z + p.2 + h⟩ := by
  unfold group
  rw [flatten_picture]
  rw [picture_flat (m.x - p.1 + h)]
  congr 1
  push_cast
  apply point_ext <;> simp only <;> ring

/-! ### Markers -/

theorem image_picture {α : Type} {f : α → ℝ × ℝ} {A : Set α} {B : Set Point} (g : α → Point) (k : Point → α)
    (hg : ∀ p ∈ A, g p ∈ B ∧ f p = picture (g p)) (hk : ∀ b ∈ B, k b ∈ A ∧ f (k b) = picture b) : f '' A = picture '' B := by
  ext q
  constructor
  · rintro ⟨p, hp, rfl⟩
    exact ⟨g p, (hg p hp).1, (hg p hp).2.symm⟩
  · rintro ⟨b, hb, rfl⟩
    exact ⟨k b, (hk b hb).1, (hk b hb).2⟩

/-- The points of a group that are pictures of the points of a plane. -/
theorem group_at (m : Marker) (p : ℝ × ℝ) (v : Point) (hx : v.x - v.y = m.x - p.1 - m.y) (hz : v.z - v.y = m.z + p.2 - m.y) :
    group m p = picture v := by
  rw [group_picture m p (v.y - m.y)]
  congr 1
  apply point_ext <;> simp only <;> linarith

theorem red_face (m : Marker) :
    (fun p => group m (skewY (-45) p)) '' rect (-40) (-40) 40 40 = picture '' sideX m := by
  apply image_picture (fun p => ⟨m.x + 40, m.y + 40 + p.1, m.z + 40 + p.2⟩) (fun v => (v.y - m.y - 40, v.z - m.z - 40))
  · rintro p ⟨h1, h2, h3, h4⟩
    refine ⟨⟨⟨?_, ?_, ?_, ?_, ?_, ?_⟩, rfl⟩, ?_⟩
    iterate 6 (simp only; linarith)
    simp only [skewY_down]
    apply group_at <;> simp only <;> ring
  · rintro v ⟨⟨h1, h2, h3, h4, h5, h6⟩, h7⟩
    refine ⟨⟨?_, ?_, ?_, ?_⟩, ?_⟩
    iterate 4 (simp only; linarith)
    simp only [skewY_down]
    apply group_at <;> simp only <;> linarith

theorem yellow_face (m : Marker) :
    (fun p => group m (skewX (-45) p)) '' rect 0 0 40 40 = picture '' sideZ m := by
  apply image_picture (fun p => ⟨m.x + 40 - p.1, m.y + 40 - p.2, m.z + 40⟩) (fun v => (m.x + 40 - v.x, m.y + 40 - v.y))
  · rintro p ⟨h1, h2, h3, h4⟩
    refine ⟨⟨⟨?_, ?_, ?_, ?_, ?_, ?_⟩, rfl⟩, ?_⟩
    iterate 6 (simp only; linarith)
    simp only [skewX_down]
    apply group_at <;> simp only <;> ring
  · rintro v ⟨⟨h1, h2, h3, h4, h5, h6⟩, h7⟩
    refine ⟨⟨?_, ?_, ?_, ?_⟩, ?_⟩
    iterate 4 (simp only; linarith)
    simp only [skewX_down]
    apply group_at <;> simp only <;> linarith

theorem blue_face (m : Marker) : group m '' rect 0 (-40) 40 40 = picture '' sideY m := by
  apply image_picture (fun p => ⟨m.x + 40 - p.1, m.y + 40, m.z + 40 + p.2⟩) (fun v => (m.x + 40 - v.x, v.z - m.z - 40))
  · rintro p ⟨h1, h2, h3, h4⟩
    refine ⟨⟨⟨?_, ?_, ?_, ?_, ?_, ?_⟩, rfl⟩, ?_⟩
    iterate 6 (simp only; linarith)
    apply group_at <;> simp only <;> ring
  · rintro v ⟨⟨h1, h2, h3, h4, h5, h6⟩, h7⟩
    refine ⟨⟨?_, ?_, ?_, ?_⟩, ?_⟩
    iterate 4 (simp only; linarith)
    apply group_at <;> simp only <;> linarith

/-- A line of a group is the picture of a segment. -/
theorem line_picture {f : ℝ × ℝ → ℝ × ℝ} {x1 y1 x2 y2 : ℝ} {B : Set Point} (a b : Point)
    (hf : ∀ t : ℝ, f (x1 + t * (x2 - x1), y1 + t * (y2 - y1)) =
      picture ⟨a.x + t * (b.x - a.x), a.y + t * (b.y - a.y), a.z + t * (b.z - a.z)⟩)
    (hB : ∀ v, v ∈ B ↔ ∃ t, 0 ≤ t ∧ t ≤ 1 ∧ v = ⟨a.x + t * (b.x - a.x), a.y + t * (b.y - a.y), a.z + t * (b.z - a.z)⟩) :
    f '' line x1 y1 x2 y2 = picture '' B := by
  ext q
  constructor
  · rintro ⟨p, ⟨t, h1, h2, rfl⟩, rfl⟩
    exact ⟨_, (hB _).2 ⟨t, h1, h2, rfl⟩, (hf t).symm⟩
  · rintro ⟨v, hv, rfl⟩
    obtain ⟨t, h1, h2, rfl⟩ := (hB v).1 hv
    exact ⟨_, ⟨t, h1, h2, rfl⟩, hf t⟩

/-- The cube is covered by the three faces that are seen. -/
theorem picture_cube (m : Marker) : picture '' cube m = picture '' (sideX m ∪ sideY m ∪ sideZ m) := by
  ext q
  constructor
  · rintro ⟨v, ⟨h1, h2, h3, h4, h5, h6⟩, rfl⟩
    let t := min (m.x + 40 - v.x) (min (m.y + 40 - v.y) (m.z + 40 - v.z))
    have t0 : 0 ≤ t := le_min (by linarith) (le_min (by linarith) (by linarith))
    have tx : t ≤ m.x + 40 - v.x := min_le_left _ _
    have ty : t ≤ m.y + 40 - v.y := (min_le_right _ _).trans (min_le_left _ _)
    have tz : t ≤ m.z + 40 - v.z := (min_le_right _ _).trans (min_le_right _ _)
    refine ⟨⟨v.x + t, v.y + t, v.z + t⟩, ?_, picture_shift v t⟩
    have hc : (⟨v.x + t, v.y + t, v.z + t⟩ : Point) ∈ cube m := by
      refine ⟨?_, ?_, ?_, ?_, ?_, ?_⟩ <;> simp only <;> linarith
    have : t = m.x + 40 - v.x ∨ t = m.y + 40 - v.y ∨ t = m.z + 40 - v.z := by
      rcases min_choice (m.x + 40 - v.x) (min (m.y + 40 - v.y) (m.z + 40 - v.z)) with h | h
      · exact Or.inl h
      · rcases min_choice (m.y + 40 - v.y) (m.z + 40 - v.z) with h' | h'
        · exact Or.inr (Or.inl (h.trans h'))
        · exact Or.inr (Or.inr (h.trans h'))
    rcases this with h | h | h
    · exact Or.inl (Or.inl ⟨hc, by simp only; linarith⟩)
    · exact Or.inl (Or.inr ⟨hc, by simp only; linarith⟩)
    · exact Or.inr ⟨hc, by simp only; linarith⟩
  · rintro ⟨v, (h | h) | h, rfl⟩ <;> exact ⟨v, h.1, rfl⟩

theorem edge1 (m : Marker) :
    (fun p => group m (skewY (-45) p)) '' line (-40) (-40) 0 (-40) = picture '' {v : Point | v.x = m.x + 40 ∧ v.z = m.z ∧ m.y ≤ v.y ∧ v.y ≤ m.y + 40} := by
  apply line_picture ⟨m.x + 40, m.y, m.z⟩ ⟨m.x + 40, m.y + 40, m.z⟩
  · intro t
    simp only [skewY_down]
    apply group_at <;> simp only <;> ring
  · intro v
    constructor
    · rintro ⟨h1, h2, h3, h4⟩
      refine ⟨(v.y - m.y) / 40, by linarith, by linarith, ?_⟩
      apply point_ext <;> simp only <;> linarith
    · rintro ⟨t, h1, h2, rfl⟩
      refine ⟨?_, ?_, ?_, ?_⟩ <;> simp only <;> linarith

theorem edge2 (m : Marker) :
    (fun p => group m (skewY (-45) p)) '' line (-40) (-40) (-40) 0 = picture '' {v : Point | v.x = m.x + 40 ∧ v.y = m.y ∧ m.z ≤ v.z ∧ v.z ≤ m.z + 40} := by
  apply line_picture ⟨m.x + 40, m.y, m.z⟩ ⟨m.x + 40, m.y, m.z + 40⟩
  · intro t
    simp only [skewY_down]
    apply group_at <;> simp only <;> ring
  · intro v
    constructor
    · rintro ⟨h1, h2, h3, h4⟩
      refine ⟨(v.z - m.z) / 40, by linarith, by linarith, ?_⟩
      apply point_ext <;> simp only <;> linarith
    · rintro ⟨t, h1, h2, rfl⟩
      refine ⟨?_, ?_, ?_, ?_⟩ <;> simp only <;> linarith

theorem edge3 (m : Marker) :
    (fun p => group m (skewX (-45) p)) '' line 0 40 40 40 = picture '' {v : Point | v.z = m.z + 40 ∧ v.y = m.y ∧ m.x ≤ v.x ∧ v.x ≤ m.x + 40} := by
  apply line_picture ⟨m.x + 40, m.y, m.z + 40⟩ ⟨m.x, m.y, m.z + 40⟩
  · intro t
    simp only [skewX_down]
    apply group_at <;> simp only <;> ring
  · intro v
    constructor
    · rintro ⟨h1, h2, h3, h4⟩
      refine ⟨(m.x + 40 - v.x) / 40, by linarith, by linarith, ?_⟩
      apply point_ext <;> simp only <;> linarith
    · rintro ⟨t, h1, h2, rfl⟩
      refine ⟨?_, ?_, ?_, ?_⟩ <;> simp only <;> linarith

theorem edge4 (m : Marker) :
    (fun p => group m (skewX (-45) p)) '' line 40 40 40 0 = picture '' {v : Point | v.z = m.z + 40 ∧ v.x = m.x ∧ m.y ≤ v.y ∧ v.y ≤ m.y + 40} := by
  apply line_picture ⟨m.x, m.y, m.z + 40⟩ ⟨m.x, m.y + 40, m.z + 40⟩
  · intro t
    simp only [skewX_down]
    apply group_at <;> simp only <;> ring
  · intro v
    constructor
    · rintro ⟨h1, h2, h3, h4⟩
      refine ⟨(v.y - m.y) / 40, by linarith, by linarith, ?_⟩
      apply point_ext <;> simp only <;> linarith
    · rintro ⟨t, h1, h2, rfl⟩
      refine ⟨?_, ?_, ?_, ?_⟩ <;> simp only <;> linarith

theorem edge5 (m : Marker) :
    group m '' line 0 (-40) 40 (-40) = picture '' {v : Point | v.y = m.y + 40 ∧ v.z = m.z ∧ m.x ≤ v.x ∧ v.x ≤ m.x + 40} := by
  apply line_picture ⟨m.x + 40, m.y + 40, m.z⟩ ⟨m.x, m.y + 40, m.z⟩
  · intro t
    apply group_at <;> simp only <;> ring
  · intro v
    constructor
    · rintro ⟨h1, h2, h3, h4⟩
      refine ⟨(m.x + 40 - v.x) / 40, by linarith, by linarith, ?_⟩
      apply point_ext <;> simp only <;> linarith
    · rintro ⟨t, h1, h2, rfl⟩
      refine ⟨?_, ?_, ?_, ?_⟩ <;> simp only <;> linarith

theorem edge6 (m : Marker) :
    group m '' line 40 (-40) 40 0 = picture '' {v : Point | v.y = m.y + 40 ∧ v.x = m.x ∧ m.z ≤ v.z ∧ v.z ≤ m.z + 40} := by
  apply line_picture ⟨m.x, m.y + 40, m.z⟩ ⟨m.x, m.y + 40, m.z + 40⟩
  · intro t
    apply group_at <;> simp only <;> ring
  · intro v
    constructor
    · rintro ⟨h1, h2, h3, h4⟩
      refine ⟨(v.z - m.z) / 40, by linarith, by linarith, ?_⟩
      apply point_ext <;> simp only <;> linarith
    · rintro ⟨t, h1, h2, rfl⟩
      refine ⟨?_, ?_, ?_, ?_⟩ <;> simp only <;> linarith

theorem outline_picture (m : Marker) : outline m = picture '' rim m := by
  unfold outline
  rw [edge1, edge2, edge3, edge4, edge5, edge6, ← Set.image_union, ← Set.image_union, ← Set.image_union, ← Set.image_union,
    ← Set.image_union]
  congr 1
  ext v
  simp only [Set.mem_union, Set.mem_ofPred_eq, rim, cube]
  constructor
  · rintro (((((⟨h1, h2, h3, h4⟩ | ⟨h1, h2, h3, h4⟩) | ⟨h1, h2, h3, h4⟩) | ⟨h1, h2, h3, h4⟩) | ⟨h1, h2, h3, h4⟩) |
      ⟨h1, h2, h3, h4⟩)
    all_goals refine ⟨⟨?_, ?_, ?_, ?_, ?_, ?_⟩, ?_, ?_⟩
    all_goals first | linarith | tauto
  · rintro ⟨⟨h1, h2, h3, h4, h5, h6⟩, ha | ha | ha, hb | hb | hb⟩
    · exfalso; linarith
    · exact Or.inr ⟨hb, ha, h5, h6⟩
    · exact Or.inl (Or.inl (Or.inr ⟨hb, ha, h3, h4⟩))
    · exact Or.inl (Or.inl (Or.inl (Or.inl (Or.inr ⟨hb, ha, h5, h6⟩))))
    · exfalso; linarith
    · exact Or.inl (Or.inl (Or.inl (Or.inr ⟨hb, ha, h1, h2⟩)))
    · exact Or.inl (Or.inl (Or.inl (Or.inl (Or.inl ⟨hb, ha, h3, h4⟩))))
    · exact Or.inl (Or.inr ⟨hb, ha, h1, h2⟩)
    · exfalso; linarith

/-! ### The line to the ground -/

theorem char_digit (x : Nat) (hx : x < 10) : ('0' ≤ Char.ofNat (48 + x) ∧ Char.ofNat (48 + x) ≤ '9') ∧
    (Char.ofNat (48 + x)).toNat - 48 = x := by
  have key : ∀ x : Fin 10, ('0' ≤ Char.ofNat (48 + x) ∧ Char.ofNat (48 + x) ≤ '9') ∧ (Char.ofNat (48 + x)).toNat - 48 = x := by
    decide
  exact key ⟨x, hx⟩

theorem svgDigits_append (a b : Text) : ∀ k n, svgDigits k a = some n → svgDigits k (a ++ b) = svgDigits n b := by
  induction a with
  | nil =>
    intro k n h
    simp only [svgDigits, Option.some.injEq] at h
    rw [List.nil_append, h]
  | cons c r ih =>
    intro k n h
    rw [svgDigits] at h
    rw [List.cons_append, svgDigits]
    split_ifs at h ⊢ with hc
    exact ih _ _ h

theorem svgDigits_digits (n : Nat) : svgDigits 0 (WebText.digits n) = some n := by
  induction n using Nat.strong_induction_on with
  | _ n ih =>
    rw [WebText.digits]
    split_ifs with h
    · rw [svgDigits, if_pos (char_digit n h).1, svgDigits, (char_digit n h).2]
      simp
    · rw [svgDigits_append _ _ _ _ (ih (n / 10) (by omega)), svgDigits, if_pos (char_digit _ (by omega)).1, svgDigits,
        (char_digit _ (by omega)).2]
      congr 1
      omega

theorem footText_number (m : Marker) : svgInteger (footText m) = if -40 ≤ m.y then some (-(40 + m.y)) else none := by
  unfold footText WebText.integer
  split_ifs with h1 h2 h2
  · omega
  · rfl
  · obtain ⟨d, r, -, hd⟩ := WebText.digits_start (40 + m.y).natAbs
    have hs := svgDigits_digits (40 + m.y).natAbs
    rw [hd] at hs ⊢
    rw [svgInteger, hs]
    refine congrArg some ?_
    show -((40 + m.y).natAbs : ℤ) = _
    omega
  · omega

theorem stem_picture (m : Marker) (hy : -40 ≤ m.y) (h0 : m.y ≠ 0) : stem m = picture '' plumb m := by
  unfold stem
  rw [if_neg h0, footText_number, if_pos hy, Option.getD_some]
  have hr : (m.y : ℝ) ≠ 0 := by exact_mod_cast h0
  apply line_picture ⟨m.x + 40, m.y, m.z + 40⟩ ⟨m.x + 40, 0, m.z + 40⟩
  · intro t
    simp only [skewY_down]
    push_cast
    apply group_at <;> simp only <;> ring
  · intro v
    unfold plumb
    simp only [Set.mem_ofPred_eq, sub_self, mul_zero, add_zero, zero_sub]
    constructor
    · rintro ⟨h1, h2, h3⟩
      refine ⟨(m.y - v.y) / m.y, ?_, ?_, ?_⟩
      · rcases h3 with ⟨h3, h4⟩ | ⟨h3, h4⟩
        · exact div_nonneg (by linarith) (by linarith)
        · exact div_nonneg_of_nonpos (by linarith) (by linarith)
      · rcases h3 with ⟨h3, h4⟩ | ⟨h3, h4⟩
        · exact div_le_one_of_le₀ (by linarith) (by linarith)
        · exact div_le_one_of_ge (by linarith) (by linarith)
      · apply point_ext
        · exact h1
        · simp only
          field_simp
          ring
        · exact h2
    · rintro ⟨t, h1, h2, rfl⟩
      refine ⟨rfl, rfl, ?_⟩
      simp only
      rcases le_total 0 (m.y : ℝ) with h | h
      · left; constructor <;> nlinarith
      · right; constructor <;> nlinarith

theorem cross_picture (m : Marker) (hy : -40 ≤ m.y) (h0 : m.y ≠ 0) : cross m = picture '' foot m := by
  unfold cross
  rw [if_neg h0, footText_number, if_pos hy]
  simp only
  have e1 : (fun p => group m (skewY (-45) p)) '' line ((-(40 + m.y) : ℤ) : ℝ) (-10) ((-(40 + m.y) : ℤ) : ℝ) 10 =
      picture '' {p : Point | p.y = 0 ∧ p.x = m.x + 40 ∧ |p.z - (m.z + 40)| ≤ 10} := by
    apply line_picture ⟨m.x + 40, 0, m.z + 30⟩ ⟨m.x + 40, 0, m.z + 50⟩
    · intro t
      simp only [skewY_down]
      push_cast
      apply group_at <;> simp only <;> ring
    · intro v
      simp only [Set.mem_ofPred_eq, abs_le]
      constructor
      · rintro ⟨h1, h2, h3, h4⟩
        refine ⟨(v.z - (m.z + 30)) / 20, by linarith, by linarith, ?_⟩
        apply point_ext <;> simp only <;> linarith
      · rintro ⟨t, h1, h2, rfl⟩
        refine ⟨?_, ?_, ?_, ?_⟩ <;> simp only <;> linarith
  have e2 : (fun p => group m (skewY (-45) (skewX 45 p))) '' line ((-(40 + m.y) : ℤ) : ℝ) (-10) ((-(40 + m.y) : ℤ) : ℝ) 10 =
      picture '' {p : Point | p.y = 0 ∧ p.z = m.z + 40 ∧ |p.x - (m.x + 40)| ≤ 10} := by
    apply line_picture ⟨m.x + 50, 0, m.z + 40⟩ ⟨m.x + 30, 0, m.z + 40⟩
    · intro t
      simp only [skewY_down, skewX_up]
      push_cast
      apply group_at <;> simp only <;> ring
    · intro v
      simp only [Set.mem_ofPred_eq, abs_le]
      constructor
      · rintro ⟨h1, h2, h3, h4⟩
        refine ⟨(m.x + 50 - v.x) / 20, by linarith, by linarith, ?_⟩
        apply point_ext <;> simp only <;> linarith
      · rintro ⟨t, h1, h2, rfl⟩
        refine ⟨?_, ?_, ?_, ?_⟩ <;> simp only <;> linarith
  rw [e1, e2, ← Set.image_union]
  congr 1
  ext v
  simp only [foot, Set.mem_union, Set.mem_ofPred_eq]
  tauto

/-! ### Arrows -/

/-- Straight ahead. -/
noncomputable def aheadPoint (yaw pitch : ℝ) : Point :=
  ⟨-(cos (radians pitch) * sin (radians yaw)), sin (radians pitch), cos (radians pitch) * cos (radians yaw)⟩

theorem back_turnX (a : ℝ) (v : Point) : (v.turnX a).turnX (-a) = v := by
  have h := sin_sq_add_cos_sq a
  unfold Point.turnX
  rw [cos_neg, sin_neg]
  apply point_ext <;> simp only
  · linear_combination v.y * h
  · linear_combination v.z * h

theorem back_turnY (a : ℝ) (v : Point) : (v.turnY a).turnY (-a) = v := by
  have h := sin_sq_add_cos_sq a
  unfold Point.turnY
  rw [cos_neg, sin_neg]
  apply point_ext <;> simp only
  · linear_combination v.x * h
  · linear_combination v.z * h

theorem back_turnZ (a : ℝ) (v : Point) : (v.turnZ a).turnZ (-a) = v := by
  have h := sin_sq_add_cos_sq a
  unfold Point.turnZ
  rw [cos_neg, sin_neg]
  apply point_ext <;> simp only
  · linear_combination v.x * h
  · linear_combination v.y * h

/-- The points straight ahead of a device, whatever its roll. -/
theorem turned_forward (yaw pitch roll t : ℝ) (v : Point) :
    turned yaw pitch roll v = ⟨0, 0, t⟩ ↔ v = (aheadPoint yaw pitch).times t := by
  constructor
  · intro h
    unfold turned at h
    have h1 := congrArg (Point.turnZ (-radians roll)) h
    rw [back_turnZ] at h1
    have e1 : Point.turnZ (-radians roll) ⟨0, 0, t⟩ = ⟨0, 0, t⟩ := by
      unfold Point.turnZ
      apply point_ext <;> simp only <;> ring
    rw [e1] at h1
    have h2 := congrArg (Point.turnX (-radians pitch)) h1
    rw [back_turnX] at h2
    have h3 := congrArg (Point.turnY (-radians yaw)) h2
    rw [back_turnY] at h3
    rw [h3]
    unfold Point.turnX Point.turnY aheadPoint Point.times
    rw [cos_neg, sin_neg, cos_neg, sin_neg]
    apply point_ext <;> simp only <;> ring
  · rintro rfl
    have h1 := sin_sq_add_cos_sq (radians yaw)
    have h2 := sin_sq_add_cos_sq (radians pitch)
    have e1 : ((aheadPoint yaw pitch).times t).turnY (radians yaw) = ⟨0, t * sin (radians pitch), t * cos (radians pitch)⟩ := by
      unfold aheadPoint Point.times Point.turnY
      apply point_ext <;> simp only
      · ring
      · linear_combination t * cos (radians pitch) * h1
    have e2 : Point.turnX (radians pitch) ⟨0, t * sin (radians pitch), t * cos (radians pitch)⟩ = ⟨0, 0, t⟩ := by
      unfold Point.turnX
      apply point_ext <;> simp only
      · ring
      · linear_combination t * h2
    unfold turned
    rw [e1, e2]
    unfold Point.turnZ
    apply point_ext <;> simp only <;> ring

theorem ahead_iff (yaw pitch : ℝ) (v : Point) : Ahead yaw pitch v ↔ v = aheadPoint yaw pitch := by
  unfold Ahead
  rw [turned_forward]
  have : (aheadPoint yaw pitch).times 1 = aheadPoint yaw pitch := by
    unfold Point.times
    apply point_ext <;> simp only <;> ring
  rw [this]

theorem value_eq (yaw pitch : ℝ) :
    (value yaw pitch).1 = ⟨cos (radians pitch) * sin (radians yaw), cos (radians pitch) * cos (radians yaw), sin (radians pitch)⟩ ∧
    (value yaw pitch).2 = ⟨cos (radians pitch) * sin (radians yaw), cos (radians pitch) * cos (radians yaw), sin (radians pitch)⟩ := by
  have e : rotateY 90 bar = bar := by
    rw [rotateY_eq]
    unfold bar
    ext <;> simp only <;> ring
  unfold value
  simp only [e, and_self]
  rw [rotateX_eq, rotateZ_eq, radians_sub, radians_180, radians_neg, sin_neg, cos_neg, sin_pi_sub, cos_pi_sub]
  unfold bar
  ext <;> simp only <;> ring

theorem value_picture (yaw pitch : ℝ) :
    screen (projection (value yaw pitch).1) = picture (aheadPoint yaw pitch) ∧
    screen (projection (value yaw pitch).2) = picture (aheadPoint yaw pitch) := by
  rw [(value_eq yaw pitch).1, (value_eq yaw pitch).2, projection_picture]
  exact ⟨rfl, rfl⟩

theorem axis_picture :
    screen (projection (axis .red)) = picture ⟨1, 0, 0⟩ ∧ screen (projection (axis .blue)) = picture ⟨0, 1, 0⟩ ∧
    screen (projection (axis .green)) = picture ⟨0, 0, 1⟩ := by
  rw [projection_picture, projection_picture, projection_picture]
  unfold axis
  simp only
  rw [rotateZ_eq, rotateZ_eq, rotateX_eq, radians_neg, radians_neg, radians_90, radians_180, sin_neg, cos_neg, sin_neg, cos_neg,
    sin_pi, cos_pi, sin_pi_div_two, cos_pi_div_two]
  unfold bar
  refine ⟨congrArg picture ?_, congrArg picture ?_, congrArg picture ?_⟩
  all_goals apply point_ext <;> simp

/-! ### Circles -/

theorem size_quarter : size / 4 = 180 / π := by unfold size; ring

/-- The dashes of a circle of 360 units cover as many degrees as they are long. -/
theorem dashes_sector {d : ℝ} (hd0 : 0 ≤ d) (hd : d ≤ 360) (v : Css) :
    v ∈ dashes (size / 4) (size / 2) d 360 ↔
      ∃ ρ t, 0 ≤ ρ ∧ ρ ≤ size / 2 ∧ 0 ≤ t ∧ t < d ∧ v = ⟨ρ * cos (radians t), ρ * sin (radians t), 0⟩ := by
  have hp := pi_pos
  have hl : 2 * π * (size / 4) = 360 := by rw [size_quarter]; field_simp; norm_num
  have hr : ∀ t, t / (size / 4) = radians t := by intro t; rw [size_quarter]; unfold radians; field_simp
  unfold dashes
  simp only [Set.mem_ofPred_eq, hl, hr]
  constructor
  · rintro ⟨s, ρ, h1, h2, ⟨k, h3, h4⟩, h5, h6, h7⟩
    refine ⟨ρ, s, by linarith, by linarith, h1, ?_, h7⟩
    rcases Nat.eq_zero_or_pos k with rfl | hk
    · simpa using h4
    · have : (1 : ℝ) ≤ k := by exact_mod_cast hk
      nlinarith
  · rintro ⟨ρ, t, h1, h2, h3, h4, h5⟩
    exact ⟨t, ρ, h3, by linarith, ⟨0, by simpa using h3, by simpa using h4⟩, by linarith, by linarith, h5⟩

theorem yawCircle_picture (yaw : ℝ) (hy : |yaw| ≤ 360) :
    (fun v => screen (projection v)) '' yawCircle yaw = picture '' yawSector (size / 2) yaw := by
  have key : ∀ ρ t : ℝ,
      screen (projection (rotateZ 90 (rotateX (if yaw < 0 then 0 else 180) ⟨ρ * cos (radians t), ρ * sin (radians t), 0⟩))) =
        picture ((aheadPoint (if yaw < 0 then -t else t) 0).times ρ) := by
    intro ρ t
    rw [projection_picture, rotateZ_eq, rotateX_eq, radians_90, sin_pi_div_two, cos_pi_div_two]
    have r0 : radians 0 = 0 := by unfold radians; ring
    unfold aheadPoint Point.times
    split_ifs with h
    · rw [r0, radians_neg, sin_neg, cos_neg, sin_zero, cos_zero]
      refine congrArg picture ?_
      apply point_ext <;> simp only <;> ring
    · rw [radians_180, r0, sin_pi, cos_pi, sin_zero, cos_zero]
      refine congrArg picture ?_
      apply point_ext <;> simp only <;> ring
  unfold yawCircle
  ext q
  constructor
  · rintro ⟨_, ⟨v, hv, rfl⟩, rfl⟩
    obtain ⟨ρ, t, h1, h2, h3, h4, rfl⟩ := (dashes_sector (abs_nonneg yaw) hy v).1 hv
    refine ⟨_, ⟨ρ, if yaw < 0 then -t else t, _, h1, h2, ?_, (ahead_iff _ _ _).2 rfl, rfl⟩, (key ρ t).symm⟩
    unfold Within
    split_ifs with h
    · rw [abs_of_neg h] at h4
      right; constructor <;> linarith
    · rw [abs_of_nonneg (not_lt.1 h)] at h4
      left; constructor <;> linarith
  · rintro ⟨v, ⟨ρ, t, w, h1, h2, h3, h4, rfl⟩, rfl⟩
    rw [ahead_iff] at h4
    subst h4
    have ht : |t| < |yaw| ∧ t = if yaw < 0 then -|t| else |t| := by
      rcases h3 with ⟨h3, h4⟩ | ⟨h3, h4⟩
      · rw [if_neg (by linarith), abs_of_nonneg h3, abs_of_nonneg (by linarith)]
        exact ⟨h4, rfl⟩
      · rw [if_pos (by linarith), abs_of_nonpos h4, abs_of_neg (by linarith : yaw < 0)]
        exact ⟨by linarith, by ring⟩
    refine ⟨_, ⟨_, (dashes_sector (abs_nonneg yaw) hy _).2 ⟨ρ, |t|, h1, h2, abs_nonneg t, ht.1, rfl⟩, rfl⟩, ?_⟩
    simp only
    rw [key ρ |t|, ← ht.2]

theorem pitchCircle_picture (yaw pitch : ℝ) (hy : |pitch| ≤ 360) :
    (fun v => screen (projection v)) '' pitchCircle yaw pitch = picture '' pitchSector (size / 2) yaw pitch := by
  have key : ∀ ρ t : ℝ, pitch ≠ 0 →
      screen (projection (rotateZ (90 - yaw) (rotateX (SignType.sign pitch * 90) ⟨ρ * cos (radians t), ρ * sin (radians t), 0⟩))) =
        picture ((aheadPoint yaw (if pitch < 0 then -t else t)).times ρ) := by
    intro ρ t h0
    rw [projection_picture, rotateZ_eq, rotateX_eq, radians_sub, radians_90, sin_pi_div_two_sub, cos_pi_div_two_sub]
    unfold aheadPoint Point.times
    split_ifs with h
    · have e : radians ((SignType.sign pitch : ℝ) * 90) = -(π / 2) := by
        rw [sign_neg h, ← radians_90, ← radians_neg]; simp
      rw [e, sin_neg, cos_neg, radians_neg, sin_neg, cos_neg, sin_pi_div_two, cos_pi_div_two]
      refine congrArg picture ?_
      apply point_ext <;> simp only <;> ring
    · have e : radians ((SignType.sign pitch : ℝ) * 90) = π / 2 := by
        rw [sign_pos (lt_of_le_of_ne (not_lt.1 h) h0.symm), ← radians_90]; simp
      rw [e, sin_pi_div_two, cos_pi_div_two]
      refine congrArg picture ?_
      apply point_ext <;> simp only <;> ring
  unfold pitchCircle
  ext q
  constructor
  · rintro ⟨_, ⟨v, hv, rfl⟩, rfl⟩
    obtain ⟨ρ, t, h1, h2, h3, h4, rfl⟩ := (dashes_sector (abs_nonneg pitch) hy v).1 hv
    have h0 : pitch ≠ 0 := by
      rintro rfl
      rw [abs_zero] at h4
      linarith
    refine ⟨_, ⟨ρ, if pitch < 0 then -t else t, _, h1, h2, ?_, (ahead_iff _ _ _).2 rfl, rfl⟩, (key ρ t h0).symm⟩
    unfold Within
    split_ifs with h
    · rw [abs_of_neg h] at h4
      right; constructor <;> linarith
    · rw [abs_of_nonneg (not_lt.1 h)] at h4
      left; constructor <;> linarith
  · rintro ⟨v, ⟨ρ, t, w, h1, h2, h3, h4, rfl⟩, rfl⟩
    rw [ahead_iff] at h4
    subst h4
    have h0 : pitch ≠ 0 := by
      rintro rfl
      rcases h3 with ⟨h3, h4⟩ | ⟨h3, h4⟩ <;> linarith
    have ht : |t| < |pitch| ∧ t = if pitch < 0 then -|t| else |t| := by
      rcases h3 with ⟨h3, h4⟩ | ⟨h3, h4⟩
      · rw [if_neg (by linarith), abs_of_nonneg h3, abs_of_nonneg (by linarith)]
        exact ⟨h4, rfl⟩
      · rw [if_pos (by linarith), abs_of_nonpos h4, abs_of_neg (by linarith : pitch < 0)]
        exact ⟨by linarith, by ring⟩
    refine ⟨_, ⟨_, (dashes_sector (abs_nonneg pitch) hy _).2 ⟨ρ, |t|, h1, h2, abs_nonneg t, ht.1, rfl⟩, rfl⟩, ?_⟩
    simp only
    rw [key ρ |t| h0, ← ht.2]

end Pica.Props
