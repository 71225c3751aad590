import Verif.Proofs.Position
import Verif.Spec.Geometry
/-! Ranges of up to 20 metres are exact. -/

namespace Pica
open Real

namespace Arith
variable (A : Arith)

/-- Nothing is rounded before the root. -/
theorem distance_root {p q : Position} (h : sq p q < 2000 ^ 2) : A.distance p q = A.rnd (√((sq p q : ℤ) : ℝ)) := by
  unfold distance length
  rw [A.diff_eq, A.diff_eq, A.diff_eq]
  unfold sq at h ⊢
  generalize q.x.toInt - p.x.toInt = a at h ⊢
  generalize q.y.toInt - p.y.toInt = b at h ⊢
  generalize q.z.toInt - p.z.toInt = c at h ⊢
  have ha := sq_nonneg a
  have hb := sq_nonneg b
  have hc := sq_nonneg c
  have e : ∀ n : ℤ, 0 ≤ n → n < 2000 ^ 2 → A.rnd (n : ℝ) = n := fun n h1 h2 => A.exact n (by rw [abs_of_nonneg h1]; omega)
  have e1 : A.rnd ((a : ℝ) * a) = (a ^ 2 : ℤ) := by rw [← e (a ^ 2) ha (by omega)]; push_cast; ring_nf
  have e2 : A.rnd ((b : ℝ) * b) = (b ^ 2 : ℤ) := by rw [← e (b ^ 2) hb (by omega)]; push_cast; ring_nf
  have e3 : A.rnd ((c : ℝ) * c) = (c ^ 2 : ℤ) := by rw [← e (c ^ 2) hc (by omega)]; push_cast; ring_nf
  have e4 : A.rnd (((a ^ 2 : ℤ) : ℝ) + ((b ^ 2 : ℤ) : ℝ)) = ((a ^ 2 + b ^ 2 : ℤ) : ℝ) := by
    rw [← e (a ^ 2 + b ^ 2) (by omega) (by omega)]; push_cast; rfl
  have e5 : A.rnd (((a ^ 2 + b ^ 2 : ℤ) : ℝ) + ((c ^ 2 : ℤ) : ℝ)) = ((a ^ 2 + b ^ 2 + c ^ 2 : ℤ) : ℝ) := by
    rw [← e (a ^ 2 + b ^ 2 + c ^ 2) (by omega) (by omega)]; push_cast; rfl
  rw [e1, e2, e3, e4, e5]

/-- The root of a number is rounded to the same side of the whole numbers. -/
theorem floor_root {n : ℕ} (h : n < 2000 ^ 2) : ⌊A.rnd (√(n : ℝ))⌋₊ = Nat.sqrt n := by
  have h1 : Nat.sqrt n ^ 2 ≤ n := Nat.sqrt_le' n
  have h2 : n < (Nat.sqrt n + 1) ^ 2 := Nat.lt_succ_sqrt' n
  generalize Nat.sqrt n = k at h1 h2
  have hk : k < 2000 := by by_contra hc; have : 2000 ^ 2 ≤ k ^ 2 := Nat.pow_le_pow_left (by omega) 2; omega
  rcases h1.eq_or_lt with h1 | h1
  · rw [← h1]
    push_cast
    rw [Real.sqrt_sq (by positivity)]
    have := A.exact k (by rw [abs_of_nonneg (by positivity)]; omega)
    push_cast at this
    rw [this, Nat.floor_natCast]
  · have hr := A.rel (Real.sqrt_nonneg (n : ℝ))
    have hs : √(n : ℝ) * √(n : ℝ) = n := Real.mul_self_sqrt (by positivity)
    have hs0 := Real.sqrt_nonneg (n : ℝ)
    generalize √(n : ℝ) = r at hr hs hs0 ⊢
    have h1' : (k : ℝ) ^ 2 + 1 ≤ n := by exact_mod_cast h1
    have h2' : (n : ℝ) + 1 ≤ (k + 1) ^ 2 := by exact_mod_cast h2
    have hk' : (k : ℝ) + 1 ≤ 2000 := by exact_mod_cast hk
    have hk0 : (0 : ℝ) ≤ k := by positivity
    have hlo : (k : ℝ) < r := by nlinarith
    have hhi : r < k + 1 := by nlinarith
    have hlo' : 1 ≤ (r - k) * 4000 := by nlinarith
    have hhi' : 1 ≤ (k + 1 - r) * 4000 := by nlinarith
    have hab := abs_le.mp hr
    rw [Nat.floor_eq_iff (by linarith [hab.1])]
    constructor
    · linarith [hab.1]
    · linarith [hab.2]

/-- The range below 20 metres. -/
theorem range_exact (rotate : Rotate) {p q : Position} (h : sq p q < 2000 ^ 2) :
    ∃ m, A.compute rotate p q = .ok m ∧ m.range.toNat = Nat.sqrt (sq p q).toNat := by
  obtain ⟨m, hm, hr, -⟩ := A.compute_ok rotate p q
  refine ⟨m, hm, ?_⟩
  have h0 : 0 ≤ sq p q := by unfold sq; positivity
  have hc : ((sq p q : ℤ) : ℝ) = ((sq p q).toNat : ℝ) := by rw [← Int.cast_natCast, Int.toNat_of_nonneg h0]
  have hn : (sq p q).toNat < 2000 ^ 2 := by omega
  rw [A.distance_root h, hc] at hr
  generalize (sq p q).toNat = n at hr hn ⊢
  have hf := A.floor_root hn
  have hk : Nat.sqrt n < 2000 := by rw [Nat.sqrt_lt']; exact hn
  have hlt : A.rnd √(n : ℝ) < 2000 := by
    have := Nat.lt_floor_add_one (A.rnd √(n : ℝ))
    rw [hf] at this
    have h2 : ((Nat.sqrt n : ℕ) : ℝ) + 1 ≤ 2000 := by exact_mod_cast hk
    linarith
  rw [hr, min_eq_left (by linarith), hf]
  exact UInt16.toNat_ofNat_of_lt' (by show _ < 65536; omega)

end Arith
end Pica
