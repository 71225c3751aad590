import Verif.Spec.Pdl
import Verif.Proofs.Bytes
/-! The bits of bytes, and patterns that they agree with. -/

namespace Pica.Spec.Pdl

/-! ### Numbers -/

theorem nat_length (n v : Nat) : (nat n v).length = n := by simp [nat]

theorem nat_zero (v : Nat) : nat 0 v = [] := rfl

theorem nat_add (m n v : Nat) : nat (m + n) v = nat m v ++ nat n (v >>> m) := by
  unfold nat
  rw [List.range_add, List.map_append, List.map_map]
  congr 1
  apply List.map_congr_left
  intro i _
  simp [Nat.testBit_shiftRight]

theorem nat_mod (n v : Nat) : nat n (v % 2 ^ n) = nat n v := by
  unfold nat
  apply List.map_congr_left
  intro i hi
  rw [Nat.testBit_mod_two_pow]
  simp [List.mem_range.1 hi]

theorem nat_and (n v : Nat) : nat n (v &&& (2 ^ n - 1)) = nat n v := by
  rw [Nat.and_two_pow_sub_one_eq_mod, nat_mod]

theorem nat_congr {n v w : Nat} (h : v % 2 ^ n = w % 2 ^ n) : nat n v = nat n w := by
  rw [← nat_mod n v, ← nat_mod n w, h]

theorem nat_inj {n v w : Nat} (hv : v < 2 ^ n) (hw : w < 2 ^ n) (h : nat n v = nat n w) : v = w := by
  apply Nat.eq_of_testBit_eq
  intro i
  by_cases hi : i < n
  · have h1 : (nat n v)[i]? = (nat n w)[i]? := by rw [h]
    simpa [nat, hi] using h1
  · have hp : 2 ^ n ≤ 2 ^ i := Nat.pow_le_pow_right (by omega) (by omega)
    rw [Nat.testBit_lt_two_pow (by omega), Nat.testBit_lt_two_pow (by omega)]

/-! ### Bits -/

theorem bitsOf_nil : bitsOf [] = [] := rfl

theorem bitsOf_cons (x : UInt8) (b : Bytes) : bitsOf (x :: b) = (List.range 8).map x.toNat.testBit ++ bitsOf b := rfl

theorem bitsOf_append (b c : Bytes) : bitsOf (b ++ c) = bitsOf b ++ bitsOf c := by
  unfold bitsOf; rw [List.flatMap_append]

theorem bitsOf_length (b : Bytes) : (bitsOf b).length = 8 * b.length := by
  induction b with
  | nil => rfl
  | cons x b ih => rw [bitsOf_cons, List.length_append, ih]; simp; omega

theorem map_bitsOf (b : Bytes) : (bitsOf b).map some = octets b := by
  unfold bitsOf octets nat
  rw [List.map_flatMap]
  simp [Function.comp_def]

theorem octets_nil : octets [] = [] := rfl

theorem octets_cons (x : UInt8) (b : Bytes) : octets (x :: b) = nat 8 x.toNat ++ octets b := rfl

theorem octets_append (b c : Bytes) : octets (b ++ c) = octets b ++ octets c := by
  unfold octets; rw [List.flatMap_append]

theorem octets_length (b : Bytes) : (octets b).length = 8 * b.length := by
  rw [← map_bitsOf, List.length_map, bitsOf_length]

theorem octets_inj {b c : Bytes} (h : octets b = octets c) : b = c := by
  induction b generalizing c with
  | nil =>
    have := congrArg List.length h
    rw [octets_length, octets_length] at this
    exact (List.eq_nil_of_length_eq_zero (by simp at this; omega)).symm
  | cons x b ih =>
    match c with
    | [] =>
      have := congrArg List.length h
      rw [octets_length, octets_length] at this
      simp at this
    | y :: c =>
      rw [octets_cons, octets_cons] at h
      obtain ⟨h1, h2⟩ := List.append_inj h (by rw [nat_length, nat_length])
      rw [ih h2, UInt8.toNat_inj.1 (nat_inj x.toNat_lt y.toNat_lt h1)]

theorem octets_leBytes (k v : Nat) : octets (leBytes k v) = nat (8 * k) v := by
  induction k generalizing v with
  | zero => rfl
  | succ k ih =>
    rw [leBytes, octets_cons, ih, Nat.mul_succ, Nat.add_comm, nat_add, Nat.shiftRight_eq_div_pow, UInt8.toNat_ofNat']
    rw [nat_mod 8]

theorem octets_byte (v : Nat) : octets [UInt8.ofNat v] = nat 8 v := octets_leBytes 1 v

theorem octets_ofLe (b : Bytes) : octets b = nat (8 * b.length) (ofLe b) := by
  induction b with
  | nil => rfl
  | cons x b ih =>
    rw [octets_cons, ih, ofLe, List.length_cons, Nat.mul_succ, Nat.add_comm (8 * b.length), nat_add]
    have h1 : nat 8 (x.toNat + 256 * ofLe b) = nat 8 x.toNat := nat_congr (by omega)
    have h2 : (x.toNat + 256 * ofLe b) >>> 8 = ofLe b := by
      have := x.toNat_lt
      rw [Nat.shiftRight_eq_div_pow]; omega
    rw [h1, h2]

/-! ### Agreement -/

theorem agrees_append {p q : Pattern} {b c : List Bool} (h : Agrees p b) (h' : Agrees q c) : Agrees (p ++ q) (b ++ c) := by
  induction p generalizing b with
  | nil => cases b with
    | nil => exact h'
    | cons => exact h.elim
  | cons x p ih =>
    cases b with
    | nil => cases x <;> exact h.elim
    | cons y b =>
      cases x with
      | none => exact ih (b := b) h
      | some x => exact ⟨h.1, ih h.2⟩

theorem agrees_length {p : Pattern} {b : List Bool} (h : Agrees p b) : b.length = p.length := by
  induction p generalizing b with
  | nil => cases b with
    | nil => rfl
    | cons => exact h.elim
  | cons x p ih =>
    cases b with
    | nil => cases x <;> exact h.elim
    | cons y b =>
      cases x with
      | none => simp [ih (b := b) h]
      | some x => simp [ih h.2]

theorem agrees_split {p q : Pattern} {b : List Bool} (h : Agrees (p ++ q) b) :
    Agrees p (b.take p.length) ∧ Agrees q (b.drop p.length) := by
  induction p generalizing b with
  | nil => exact ⟨trivial, h⟩
  | cons x p ih =>
    cases b with
    | nil => cases x <;> exact h.elim
    | cons y b =>
      cases x with
      | none => exact ih (b := b) h
      | some x => exact ⟨⟨h.1, (ih h.2).1⟩, (ih h.2).2⟩

theorem agrees_some {l b : List Bool} : Agrees (l.map some) b ↔ b = l := by
  induction l generalizing b with
  | nil => cases b <;> simp [Agrees]
  | cons x l ih => cases b <;> simp [Agrees, ih]

theorem agrees_gap {n : Nat} {b : List Bool} (h : b.length = n) : Agrees (gap n) b := by
  induction n generalizing b with
  | zero => obtain rfl := List.eq_nil_of_length_eq_zero h; trivial
  | succ n ih => cases b with
    | nil => cases h
    | cons x b => exact ih (b := b) (by simpa using h)

theorem agrees_zero (p : Pattern) : Agrees p (p.map (·.getD false)) := by
  induction p with
  | nil => trivial
  | cons x p ih => cases x with
    | none => exact ih
    | some x => exact ⟨rfl, ih⟩

/-! ### Bytes written -/

theorem IsWritten.append {p q : Pattern} {b c : Bytes} (h : IsWritten p b) (h' : IsWritten q c) : IsWritten (p ++ q) (b ++ c) := by
  unfold IsWritten at *
  rw [bitsOf_append, h, h', List.map_append]

theorem IsWritten.matches {p : Pattern} {b : Bytes} (h : IsWritten p b) : Matches p b := by
  unfold Matches IsWritten at *
  rw [h]
  exact agrees_zero p

theorem written_octets (b : Bytes) : IsWritten (octets b) b := by
  unfold IsWritten
  rw [← map_bitsOf, List.map_map]
  simp [Function.comp_def]

theorem written_nil : IsWritten [] [] := rfl

theorem written_nat {n k v : Nat} (h : n = 8 * k) : IsWritten (nat n v) (leBytes k v) := by
  subst h
  rw [← octets_leBytes]
  exact written_octets _

theorem written_byte (v : Nat) : IsWritten (nat 8 v) [UInt8.ofNat v] := written_nat (k := 1) rfl

theorem map_gap (n : Nat) : (gap n).map (·.getD false) = List.replicate n false := by simp [gap]

theorem bitsOf_zeros (k : Nat) : bitsOf (List.replicate k 0) = List.replicate (8 * k) false := by
  induction k with
  | zero => rfl
  | succ k ih =>
    rw [List.replicate_succ, bitsOf_cons, ih, Nat.mul_succ, Nat.add_comm, ← List.replicate_append_replicate]
    rfl

theorem written_gap {n k : Nat} (h : n = 8 * k) : IsWritten (gap n) (List.replicate k 0) := by
  unfold IsWritten
  rw [map_gap, bitsOf_zeros, h]

/-- The bytes with given bits are determined. -/
theorem written_unique {p : Pattern} {b c : Bytes} (h : IsWritten p b) (h' : IsWritten p c) : b = c := by
  unfold IsWritten at *
  apply octets_inj
  rw [← map_bitsOf, ← map_bitsOf, h, h']

/-! ### Bytes read -/

theorem Matches.append {p q : Pattern} {b c : Bytes} (h : Matches p b) (h' : Matches q c) : Matches (p ++ q) (b ++ c) := by
  unfold Matches at *
  rw [bitsOf_append]
  exact agrees_append h h'

theorem Matches.length {p : Pattern} {b : Bytes} (h : Matches p b) : 8 * b.length = p.length := by
  rw [← agrees_length h, bitsOf_length]

theorem matches_octets {b c : Bytes} : Matches (octets b) c ↔ c = b := by
  unfold Matches
  rw [← map_bitsOf, agrees_some]
  constructor
  · intro h
    apply octets_inj
    rw [← map_bitsOf, ← map_bitsOf, h]
  · rintro rfl; rfl

theorem take_bitsOf (k : Nat) (b : Bytes) : (bitsOf b).take (8 * k) = bitsOf (b.take k) := by
  by_cases h : k ≤ b.length
  · conv => lhs; rw [← List.take_append_drop k b, bitsOf_append]
    rw [List.take_append_of_le_length (by rw [bitsOf_length, List.length_take]; omega)]
    exact List.take_of_length_le (by rw [bitsOf_length, List.length_take]; omega)
  · rw [List.take_of_length_le (by rw [bitsOf_length]; omega), List.take_of_length_le (by omega)]

theorem drop_bitsOf (k : Nat) (b : Bytes) : (bitsOf b).drop (8 * k) = bitsOf (b.drop k) := by
  by_cases h : k ≤ b.length
  · have e : 8 * k = (bitsOf (b.take k)).length := by rw [bitsOf_length, List.length_take]; omega
    conv => lhs; rw [e, ← List.take_append_drop k b, bitsOf_append]
    simp
  · rw [List.drop_of_length_le (by rw [bitsOf_length]; omega), List.drop_of_length_le (by omega)]
    rfl

theorem Matches.split {p q : Pattern} {b : Bytes} {k : Nat} (h : Matches (p ++ q) b) (hk : p.length = 8 * k) :
    Matches p (b.take k) ∧ Matches q (b.drop k) := by
  obtain ⟨h1, h2⟩ := agrees_split h
  rw [hk, take_bitsOf] at h1
  rw [hk, drop_bitsOf] at h2
  exact ⟨h1, h2⟩

theorem matches_nil {b : Bytes} : Matches [] b ↔ b = [] := matches_octets (b := [])

/-- The bytes `s` begin with a pattern, and `r` are left. -/
def Takes (p : Pattern) (s r : Bytes) : Prop := ∃ b, s = b ++ r ∧ Matches p b

theorem Takes.matches {p : Pattern} {s : Bytes} (h : Takes p s []) : Matches p s := by
  obtain ⟨b, rfl, h⟩ := h
  rwa [List.append_nil]

theorem _root_.Pica.Spec.Pdl.Matches.takes {p : Pattern} {s : Bytes} (h : Matches p s) : Takes p s [] := ⟨s, by simp, h⟩

theorem Takes.append {p q : Pattern} {s t r : Bytes} (h : Takes p s t) (h' : Takes q t r) : Takes (p ++ q) s r := by
  obtain ⟨b, rfl, h⟩ := h
  obtain ⟨c, rfl, h'⟩ := h'
  exact ⟨b ++ c, by simp, h.append h'⟩

theorem takes_nil (s : Bytes) : Takes [] s s := ⟨[], rfl, trivial⟩

theorem takes_octets {s : Bytes} {k : Nat} : Takes (octets (s.take k)) s (s.drop k) :=
  ⟨s.take k, (List.take_append_drop k s).symm, matches_octets.2 rfl⟩

theorem takes_all (s : Bytes) : Takes (octets s) s [] := ⟨s, by simp, matches_octets.2 rfl⟩

theorem takes_gap {s : Bytes} {n k : Nat} (h : n = 8 * k) (hk : k ≤ s.length) : Takes (gap n) s (s.drop k) :=
  ⟨s.take k, (List.take_append_drop k s).symm, agrees_gap (by rw [bitsOf_length, List.length_take, h]; omega)⟩

theorem takes_ofLe {s : Bytes} {n k : Nat} (h : n = 8 * k) (hk : k ≤ s.length) : Takes (nat n (ofLe (s.take k))) s (s.drop k) := by
  have : nat n (ofLe (s.take k)) = octets (s.take k) := by
    rw [octets_ofLe, List.length_take, Nat.min_eq_left hk, h]
  rw [this]
  exact takes_octets

end Pica.Spec.Pdl
