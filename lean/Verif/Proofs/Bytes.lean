import Verif.Model.Bytes

namespace Pica

@[simp] theorem length_leBytes (k n : Nat) : (leBytes k n).length = k := by
  induction k generalizing n with
  | zero => rfl
  | succ k ih => simp [leBytes, ih]

theorem ofLe_lt (l : Bytes) : ofLe l < 256 ^ l.length := by
  induction l with
  | nil => simp [ofLe]
  | cons b bs ih =>
    have hb : b.toNat < 256 := b.toNat_lt
    simp only [ofLe, List.length_cons, Nat.pow_succ]
    omega

theorem ofLe_leBytes (k n : Nat) : ofLe (leBytes k n) = n % 256 ^ k := by
  induction k generalizing n with
  | zero => simp [leBytes, ofLe, Nat.mod_one]
  | succ k ih =>
    simp only [leBytes, ofLe, ih, UInt8.toNat_ofNat']
    rw [show (256:Nat) ^ (k + 1) = 256 * 256 ^ k by rw [Nat.pow_succ, Nat.mul_comm], Nat.mod_mul]

theorem leBytes_ofLe (l : Bytes) : leBytes l.length (ofLe l) = l := by
  induction l with
  | nil => rfl
  | cons b bs ih =>
    have hb : b.toNat < 256 := b.toNat_lt
    simp only [List.length_cons, leBytes, ofLe]
    have h1 : (b.toNat + 256 * ofLe bs) / 256 = ofLe bs := by omega
    rw [h1, ih]
    congr 1
    apply UInt8.toNat_inj.mp
    simp only [UInt8.toNat_ofNat']
    omega

theorem leBytes_ofLe' {l : Bytes} {k : Nat} (h : l.length = k) : leBytes k (ofLe l) = l := by
  subst h; exact leBytes_ofLe l

theorem ofLe_inj {l m : Bytes} (hl : l.length = m.length) (h : ofLe l = ofLe m) : l = m := by
  rw [← leBytes_ofLe l, ← leBytes_ofLe m, h, hl]

@[simp] theorem length_u16le (x : UInt16) : (u16le x).length = 2 := length_leBytes _ _
@[simp] theorem length_u32le (x : UInt32) : (u32le x).length = 4 := length_leBytes _ _
@[simp] theorem length_u64le (x : UInt64) : (u64le x).length = 8 := length_leBytes _ _

theorem ofLe_u16le (x : UInt16) : ofLe (u16le x) = x.toNat := by
  rw [u16le, ofLe_leBytes]; exact Nat.mod_eq_of_lt x.toNat_lt
theorem ofLe_u32le (x : UInt32) : ofLe (u32le x) = x.toNat := by
  rw [u32le, ofLe_leBytes]; exact Nat.mod_eq_of_lt x.toNat_lt
theorem ofLe_u64le (x : UInt64) : ofLe (u64le x) = x.toNat := by
  rw [u64le, ofLe_leBytes]; exact Nat.mod_eq_of_lt x.toNat_lt

@[simp] theorem u16_of_u16le (x : UInt16) : UInt16.ofNat (ofLe (u16le x)) = x := by
  rw [ofLe_u16le]; exact UInt16.ofNat_toNat
@[simp] theorem u32_of_u32le (x : UInt32) : UInt32.ofNat (ofLe (u32le x)) = x := by
  rw [ofLe_u32le]; exact UInt32.ofNat_toNat
@[simp] theorem u64_of_u64le (x : UInt64) : UInt64.ofNat (ofLe (u64le x)) = x := by
  rw [ofLe_u64le]; exact UInt64.ofNat_toNat

theorem u16le_ofLe {l : Bytes} (h : l.length = 2) : u16le (UInt16.ofNat (ofLe l)) = l := by
  have := ofLe_lt l
  rw [h] at this
  rw [u16le, UInt16.toNat_ofNat', Nat.mod_eq_of_lt this]
  exact leBytes_ofLe' h
theorem u32le_ofLe {l : Bytes} (h : l.length = 4) : u32le (UInt32.ofNat (ofLe l)) = l := by
  have := ofLe_lt l
  rw [h] at this
  rw [u32le, UInt32.toNat_ofNat', Nat.mod_eq_of_lt this]
  exact leBytes_ofLe' h
theorem u64le_ofLe {l : Bytes} (h : l.length = 8) : u64le (UInt64.ofNat (ofLe l)) = l := by
  have := ofLe_lt l
  rw [h] at this
  rw [u64le, UInt64.toNat_ofNat', Nat.mod_eq_of_lt this]
  exact leBytes_ofLe' h

theorem Arr.ofBytes?_eq_some {n : Nat} {l : Bytes} {a : Arr n} :
    Arr.ofBytes? n l = some a ↔ a.1 = l := by
  unfold Arr.ofBytes?
  split
  · constructor
    · intro h; injection h with h; subst h; rfl
    · intro h; congr 1; exact Subtype.ext h.symm
  · rename_i h
    constructor
    · intro h; cases h
    · intro h'; exact absurd (h' ▸ a.2) h

theorem Arr.ofBytes?_isSome {n : Nat} {l : Bytes} :
    (Arr.ofBytes? n l).isSome = true ↔ l.length = n := by
  unfold Arr.ofBytes?; split <;> simp_all

@[simp] theorem Arr.ofBytes?_val {n : Nat} (a : Arr n) : Arr.ofBytes? n a.1 = some a :=
  Arr.ofBytes?_eq_some.mpr rfl

end Pica
