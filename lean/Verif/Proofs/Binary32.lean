import Verif.Model.Position
import Mathlib.Data.Int.Log
import Mathlib.Tactic.Linarith
import Mathlib.Tactic.NormNum
import Mathlib.Tactic.Positivity
/-!
The rounding of IEEE 754 binary32, to the nearest with ties to even, satisfies `Arith`. There is no largest number.
-/

namespace Pica

/-- The nearest integer, the even one of two. -/
noncomputable def nearest (y : ℝ) : ℤ :=
  if Int.fract y < 1 / 2 then ⌊y⌋
  else if 1 / 2 < Int.fract y then ⌊y⌋ + 1
  else if 2 ∣ ⌊y⌋ then ⌊y⌋ else ⌊y⌋ + 1

/-- The exponent of the last of 24 digits of `x`, at least that of the smallest number 2^-149. -/
noncomputable def lastBit (x : ℝ) : ℤ := max (Int.log 2 |x| - 23) (-149)

noncomputable def binary32 (x : ℝ) : ℝ := nearest (x / 2 ^ lastBit x) * 2 ^ lastBit x

theorem nearest_err (y : ℝ) : |(nearest y : ℝ) - y| ≤ 1 / 2 := by
  have h := Int.floor_add_fract y
  have h0 := Int.fract_nonneg y
  have h1 := Int.fract_lt_one y
  unfold nearest
  split
  · rw [abs_le]; constructor <;> linarith
  · split
    · push_cast; rw [abs_le]; constructor <;> linarith
    · split
      · rw [abs_le]; constructor <;> linarith
      · push_cast; rw [abs_le]; constructor <;> linarith

theorem nearest_int (n : ℤ) : nearest (n : ℝ) = n := by
  unfold nearest; simp

theorem nearest_nonneg {y : ℝ} (h : 0 ≤ y) : 0 ≤ nearest y := by
  have hf : 0 ≤ ⌊y⌋ := Int.floor_nonneg.mpr h
  unfold nearest; split_ifs <;> omega

theorem nearest_nonpos {y : ℝ} (h : y ≤ 0) : nearest y ≤ 0 := by
  have := abs_le.mp (nearest_err y)
  have h1 : (nearest y : ℝ) < 1 := by linarith
  have : nearest y < 1 := by exact_mod_cast h1
  omega

theorem binary32_sign_pos {x : ℝ} (h : 0 ≤ x) : 0 ≤ binary32 x := by
  unfold binary32
  have : (0 : ℝ) ≤ nearest (x / 2 ^ lastBit x) := by exact_mod_cast nearest_nonneg (by positivity)
  positivity

theorem binary32_sign_neg {x : ℝ} (h : x ≤ 0) : binary32 x ≤ 0 := by
  unfold binary32
  have : (nearest (x / 2 ^ lastBit x) : ℝ) ≤ 0 := by
    exact_mod_cast nearest_nonpos (div_nonpos_of_nonpos_of_nonneg h (by positivity))
  exact mul_nonpos_of_nonpos_of_nonneg this (by positivity)

theorem binary32_zero : binary32 0 = 0 := by
  unfold binary32
  have : nearest 0 = 0 := by simpa using nearest_int 0
  rw [zero_div, this]
  simp

theorem binary32_err (x : ℝ) : |binary32 x - x| ≤ 2⁻¹ ^ 24 * |x| + 2⁻¹ ^ 150 := by
  rcases eq_or_ne x 0 with h0 | h0
  · subst h0
    rw [binary32_zero]
    norm_num
  have hp : (0 : ℝ) < 2 ^ lastBit x := by positivity
  have h1 : |binary32 x - x| ≤ 2 ^ lastBit x / 2 := by
    have e : binary32 x - x = (nearest (x / 2 ^ lastBit x) - x / 2 ^ lastBit x) * 2 ^ lastBit x := by
      unfold binary32; field_simp
    rw [e, abs_mul, abs_of_pos hp]
    have := mul_le_mul_of_nonneg_right (nearest_err (x / 2 ^ lastBit x)) hp.le
    linarith
  refine h1.trans ?_
  have hx : 0 < |x| := abs_pos.mpr h0
  have hl := Int.zpow_log_le_self (b := 2) (by norm_num) hx
  unfold lastBit
  rcases le_total (Int.log 2 |x| - 23) (-149) with h | h
  · rw [max_eq_right h]
    have : ((2 : ℝ) ^ (-149 : ℤ)) / 2 = 2⁻¹ ^ 150 := by norm_num
    rw [this]
    have : (0 : ℝ) ≤ 2⁻¹ ^ 24 * |x| := by positivity
    linarith
  · rw [max_eq_left h, zpow_sub₀ (by norm_num)]
    have : (2 : ℝ) ^ (23 : ℤ) = 8388608 := by norm_num
    rw [this]
    have h2 : (2⁻¹ : ℝ) ^ 24 = 1 / 16777216 := by norm_num
    rw [h2]
    push_cast at hl
    have : (0 : ℝ) ≤ 2⁻¹ ^ 150 := by positivity
    linarith

theorem binary32_exact (n : ℤ) (h : |n| ≤ 2 ^ 24) : binary32 n = n := by
  rcases eq_or_ne n 0 with h0 | h0
  · subst h0; simpa using binary32_zero
  have hx : (1 : ℝ) ≤ |(n : ℝ)| := by
    have : 1 ≤ |n| := Int.one_le_abs h0
    exact_mod_cast this
  have hle : |(n : ℝ)| ≤ 2 ^ 24 := by exact_mod_cast h
  have hl := Int.zpow_log_le_self (b := 2) (by norm_num) (lt_of_lt_of_le one_pos hx)
  have hk0 : 0 ≤ Int.log 2 |(n : ℝ)| := by
    rw [Int.log_of_one_le_right _ hx]; exact Int.natCast_nonneg _
  have hk24 : Int.log 2 |(n : ℝ)| ≤ 24 := by
    have : (2 : ℝ) ^ Int.log 2 |(n : ℝ)| ≤ 2 ^ (24 : ℤ) := by
      push_cast at hl
      refine hl.trans (hle.trans ?_)
      norm_num
    exact (zpow_le_zpow_iff_right₀ (by norm_num)).mp this
  -- the last digit stands for an integer that divides `n`
  have key : ∃ m : ℤ, (n : ℝ) / 2 ^ lastBit n = m := by
    unfold lastBit
    rw [max_eq_left (by omega)]
    rcases hk24.lt_or_eq with hk | hk
    · refine ⟨n * 2 ^ (23 - Int.log 2 |(n : ℝ)|).toNat, ?_⟩
      have e : Int.log 2 |(n : ℝ)| - 23 = -(((23 - Int.log 2 |(n : ℝ)|).toNat : ℕ) : ℤ) := by omega
      rw [e, zpow_neg, zpow_natCast, div_inv_eq_mul]
      push_cast
      rfl
    · rw [hk]
      rw [hk] at hl
      have hn : |n| = 2 ^ 24 := by
        apply le_antisymm h
        push_cast at hl
        have h' : (2 : ℝ) ^ 24 ≤ |(n : ℝ)| := by
          refine le_trans (le_of_eq ?_) hl
          norm_num
        exact_mod_cast h'
      rcases abs_eq (by norm_num) |>.mp hn with h' | h'
      · exact ⟨2 ^ 23, by rw [h']; norm_num⟩
      · exact ⟨-2 ^ 23, by rw [h']; norm_num⟩
  obtain ⟨m, hm⟩ := key
  unfold binary32
  rw [hm, nearest_int, ← hm]
  field_simp

/-- IEEE 754 binary32 with an arctangent that is rounded once. -/
noncomputable def Arith.ieee : Arith where
  rnd := binary32
  atan x := binary32 (Real.arctan x)
  exact := binary32_exact
  nonneg _ := binary32_sign_pos
  nonpos _ := binary32_sign_neg
  err x := (binary32_err x).trans (by
    have : (0 : ℝ) ≤ |x| := abs_nonneg x
    norm_num
    linarith)
  atan_nonneg x h := binary32_sign_pos (Real.arctan_nonneg.mpr h)
  atan_nonpos x h := binary32_sign_neg (Real.arctan_le_zero.mpr h)
  atan_err x := (binary32_err _).trans (by
    have : (0 : ℝ) ≤ |Real.arctan x| := abs_nonneg _
    norm_num
    linarith)

end Pica
