import Verif.Proofs.UnitTests
import Verif.Props.MacAddress
/-!
C102: ranges of up to 20 metres are exact. C103: the repository's unit tests hold of the model.
-/

namespace Pica.Props
open Pica.Spec Real

/-- C102: below 20 metres the reported range is the whole part of the distance. -/
theorem C102_exact (A : Arith) (rotate : Rotate) (p q : Position) (h : Spec.dist p q < 2000) :
    ∃ m, A.compute rotate p q = .ok m ∧ m.range.toNat = ⌊Spec.dist p q⌋₊ := by
  have e : Real.sqrt (Arith.sq p q) = Spec.dist p q := by unfold Arith.sq Spec.dist; push_cast; rfl
  have h0 : 0 ≤ Arith.sq p q := by unfold Arith.sq; positivity
  have hs : Arith.sq p q < 2000 ^ 2 := by
    rw [← e, Real.sqrt_lt' (by norm_num)] at h
    exact_mod_cast h
  obtain ⟨m, hm, hr⟩ := A.range_exact rotate hs
  refine ⟨m, hm, ?_⟩
  rw [hr, ← e, ← Real.nat_floor_real_sqrt_eq_nat_sqrt, ← Int.cast_natCast, Int.toNat_of_nonneg h0]

/-- Two devices at (3, 4, 0) and (−9, 20, 15) are 25 apart. -/
example (A : Arith) (rotate : Rotate) :
    ∃ m, A.compute rotate ⟨3, 4, 0, 7, -8, 9⟩ ⟨-9, 20, 15, 0, 0, 0⟩ = .ok m ∧ m.range.toNat = 25 := by
  have e : Spec.dist ⟨3, 4, 0, 7, -8, 9⟩ ⟨-9, 20, 15, 0, 0, 0⟩ = 25 := by
    have h1 : (-9 : Int16).toInt = -9 := rfl
    have h2 : (3 : Int16).toInt = 3 := rfl
    have h3 : (20 : Int16).toInt = 20 := rfl
    have h4 : (4 : Int16).toInt = 4 := rfl
    have h5 : (15 : Int16).toInt = 15 := rfl
    have h6 : (0 : Int16).toInt = 0 := rfl
    unfold Spec.dist
    rw [h1, h2, h3, h4, h5, h6]
    push_cast
    rw [show ((-9 : ℝ) - 3) ^ 2 + (20 - 4) ^ 2 + (15 - 0) ^ 2 = 25 ^ 2 by norm_num]
    exact Real.sqrt_sq (by norm_num)
  obtain ⟨m, hm, hr⟩ := C102_exact A rotate ⟨3, 4, 0, 7, -8, 9⟩ ⟨-9, 20, 15, 0, 0, 0⟩ (by rw [e]; norm_num)
  refine ⟨m, hm, ?_⟩
  rw [hr, e]
  norm_num

/-- C103: the tests of `position.rs` succeed with every rounding and every accurate rotation. -/
theorem C103_position (A : Arith) (rotate : Rotate) (hacc : Accurate rotate) :
    ∀ t ∈ rangeTests ++ azimuthTests ++ elevationTests ++ rotationTests ++ complexTests, t.Passes A rotate := by
  intro t ht
  simp only [List.mem_append] at ht
  rcases ht with (((ht | ht) | ht) | ht) | ht
  · exact range_tests A rotate t ht
  · exact azimuth_tests A rotate hacc t ht
  · exact elevation_tests A rotate hacc t ht
  · exact rotation_tests A rotate hacc t ht
  · exact complex_tests A rotate hacc t ht

/-- C103: and so with the rotation of `glam`. -/
theorem C103_glam (A : Arith) (rotate : Rotate) (h : Glam A rotate) :
    ∀ t ∈ rangeTests ++ azimuthTests ++ elevationTests ++ rotationTests ++ complexTests, t.Passes A rotate :=
  C103_position A rotate (C85_accurate A rotate h)

/-- The last test, of a device that looks at the corner of a cube. -/
example (A : Arith) (rotate : Rotate) (h : Glam A rotate) :
    ∃ m, A.compute rotate ⟨0, 0, 0, -45, 35, 42⟩ ⟨10, 10, 10, 0, 0, 0⟩ = .ok m ∧ m.azimuth = 0 ∧ m.elevation = 0 := by
  obtain ⟨m, hm, -, ha, he⟩ := C103_glam A rotate h
    { a := facing (-45) 35 42, b := spot 10 10 10, azimuth := [0], elevation := [0] } (by simp [complexTests])
  exact ⟨m, hm, by simpa using ha (by simp), by simpa using he (by simp)⟩

/-- C103: the tests of `src/mac_address.rs` 124-186. -/
theorem C103_mac :
    MacAddress.parse "00:11".toList = some (.short ⟨[0x00, 0x11], rfl⟩) ∧
    MacAddress.parse "FF:77:AA:DD:EE:BB:CC:10".toList =
      some (.extended ⟨[0xFF, 0x77, 0xAA, 0xDD, 0xEE, 0xBB, 0xCC, 0x10], rfl⟩) ∧
    MacAddress.parse "00:11:22".toList = none ∧
    MacAddress.parse "00:11:22:33:44:55:66".toList = none ∧
    (∃ m, MacAddress.parse "00:FF:77:AA:DD:EE:CC:45".toList = some m ∧ m.display = "00:FF:77:AA:DD:EE:CC:45".toList) ∧
    (∃ m, MacAddress.parse "00:FF".toList = some m ∧ m.display = "00:FF".toList) ∧
    (MacAddress.short ⟨[0x01, 0x02], rfl⟩).toU64 = 0x0201 ∧
    (MacAddress.extended ⟨[0x01, 0x02, 0x03, 0x04, 0x05, 0x06, 0x07, 0x08], rfl⟩).toU64 = 0x0807060504030201 := by
  refine ⟨by decide +kernel, by decide +kernel, by decide +kernel, by decide +kernel,
    ⟨.extended ⟨[0x00, 0xFF, 0x77, 0xAA, 0xDD, 0xEE, 0xCC, 0x45], rfl⟩, by decide +kernel, by decide +kernel⟩,
    ⟨.short ⟨[0x00, 0xFF], rfl⟩, by decide +kernel, by decide +kernel⟩, by decide +kernel, by decide +kernel⟩

end Pica.Props
