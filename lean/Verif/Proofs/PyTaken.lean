import Verif.Proofs.PyReadPacket
/-! Bytes with the layout of an object are read as the object, whatever the reserved bits are. -/

namespace Pica.Py
open Spec
open Spec.Pdl (Pattern nat gap octets Agrees Matches Takes IsWritten takes_nil takes_octets takes_all takes_gap takes_ofLe nat_add nat_and nat_inj nat_length octets_ofLe octets_length matches_octets)

set_option linter.unusedSimpArgs false

/-! ### Fields -/

theorem takes_split {p q : Pattern} {s r : Bytes} {k : Nat} (h : Takes (p ++ q) s r) (hk : p.length = 8 * k) :
    k ≤ s.length ∧ Matches p (s.take k) ∧ Takes q (s.drop k) r := by
  obtain ⟨b, rfl, hm⟩ := h
  obtain ⟨h1, h2⟩ := hm.split hk
  have h3 := hm.length
  rw [List.length_append, hk] at h3
  have h4 : k ≤ b.length := by omega
  refine ⟨by rw [List.length_append]; omega, ?_, b.drop k, ?_, h2⟩
  · rwa [List.take_append_of_le_length h4]
  · rw [List.drop_append_of_le_length h4]

theorem takes_left {p : Pattern} {s r : Bytes} {k : Nat} (h : Takes p s r) (hk : p.length = 8 * k) :
    k ≤ s.length ∧ Matches p (s.take k) ∧ r = s.drop k := by
  rw [← List.append_nil p] at h
  obtain ⟨h1, h2, b, h3, h4⟩ := takes_split h hk
  have := Spec.Pdl.matches_nil.1 h4
  subst this
  exact ⟨h1, h2, by rw [h3]; rfl⟩

theorem matches_nat {n k a : Nat} {b : Bytes} (hb : b.length = k) (hn : n = 8 * k) (ha : a < 2 ^ n) (h : Matches (nat n a) b) :
    ofLe b = a := by
  have e : nat n a = octets (leBytes k a) := by rw [Spec.Pdl.octets_leBytes, hn]
  rw [e] at h
  rw [matches_octets.1 h, ofLe_leBytes]
  apply Nat.mod_eq_of_lt
  rw [hn] at ha
  rwa [Nat.pow_mul] at ha

theorem tk_le {n i j a : Nat} {p : Pattern} {s r : Bytes} (h : Takes (nat n a ++ p) (s.drop i) r) (ha : a < 2 ^ n)
    (hij : i ≤ j) (hn : n = 8 * (j - i)) (hi : i ≤ s.length) : j ≤ s.length ∧ le s i j = a ∧ Takes p (s.drop j) r := by
  obtain ⟨h1, h2, h3⟩ := takes_split h (by rw [nat_length]; exact hn)
  rw [List.length_drop] at h1
  rw [List.drop_drop, show i + (j - i) = j by omega] at h3
  refine ⟨by omega, ?_, h3⟩
  have e : slice s i j = (s.drop i).take (j - i) := by unfold slice; rw [List.drop_take]
  unfold le
  rw [e]
  exact matches_nat (by rw [List.length_take, List.length_drop]; omega) hn ha h2

theorem tk_idx {i a : Nat} {p : Pattern} {s r : Bytes} (h : Takes (nat 8 a ++ p) (s.drop i) r) (ha : a < 2 ^ 8)
    (hi : i ≤ s.length) : i + 1 ≤ s.length ∧ idx s i = a ∧ Takes p (s.drop (i + 1)) r := by
  obtain ⟨h1, h2, h3⟩ := tk_le h ha (Nat.le_succ i) (by omega) hi
  refine ⟨h1, ?_, h3⟩
  rw [← h2]
  unfold le idx slice
  rw [List.drop_take, drop_eq_of (by omega), show i + 1 - i = 1 by omega]
  simp [ofLe]

theorem tk_gap {n i j : Nat} {p : Pattern} {s r : Bytes} (h : Takes (gap n ++ p) (s.drop i) r)
    (hij : i ≤ j) (hn : n = 8 * (j - i)) (hi : i ≤ s.length) : j ≤ s.length ∧ Takes p (s.drop j) r := by
  obtain ⟨h1, h2, h3⟩ := takes_split h (k := j - i) (by simp [gap]; exact hn)
  rw [List.length_drop] at h1
  rw [List.drop_drop, show i + (j - i) = j by omega] at h3
  exact ⟨by omega, h3⟩

theorem tk_end {s r : Bytes} (h : Takes [] s r) : r = s := by
  obtain ⟨_, _, h⟩ := takes_left (k := 0) h rfl
  exact h

/-! ### Nothing reserved -/

/-- All bits are given. -/
def Full (p : Pattern) : Prop := none ∉ p

theorem full_nat (n v : Nat) : Full (nat n v) := by simp [Full, nat]
theorem full_octets (b : Bytes) : Full (octets b) := by simp [Full, octets, nat]
theorem full_append {p q : Pattern} (h : Full p) (h' : Full q) : Full (p ++ q) := by
  unfold Full at *; rw [List.mem_append]; exact fun x => x.elim h h'
theorem full_nil : Full [] := by simp [Full]
theorem full_flatMap {α : Type} {f : α → Pattern} (h : ∀ x, Full (f x)) (l : List α) : Full (l.flatMap f) := by
  unfold Full at *
  rw [List.mem_flatMap]
  rintro ⟨x, _, hx⟩
  exact h x hx
theorem full_list {α : Type} {f : α → Pattern} (h : ∀ x, Full (f x)) (l : List α) : Full (listPat f l) :=
  full_append (full_nat _ _) (full_flatMap h l)

theorem full_tlv (p : Nat × Bytes) : Full (tlvPat p) := full_append (full_nat _ _) (full_append (full_nat _ _) (full_octets _))
theorem full_idStatus (p : Nat × Nat) : Full (idStatusPat p) := full_append (full_nat _ _) (full_nat _ _)
theorem full_controleeStatus (p : Bytes × Nat) : Full (controleeStatusPat p) := full_append (full_octets _) (full_nat _ _)
theorem full_frameReportTlv (p : Nat × Bytes) : Full (frameReportTlvPat p) :=
  full_append (full_nat _ _) (full_append (full_nat _ _) (full_octets _))
theorem full_frameReport (p : FrameReport) : Full (frameReportPat p) :=
  full_append (full_nat _ _) (full_append (full_nat _ _) (full_append (full_nat _ _) (full_list full_frameReportTlv _)))

/-- Bytes with all bits given are the bytes written. -/
theorem full_unique {p : Pattern} {b c : Bytes} (hp : Full p) (h : IsWritten p b) (h' : Matches p c) : c = b := by
  have key : ∀ (p : Pattern) (l : List Bool), Full p → Agrees p l → l = p.map (·.getD false) := by
    intro p
    induction p with
    | nil => intro l _ h; cases l with
      | nil => rfl
      | cons => exact h.elim
    | cons x p ih =>
      intro l hp h
      cases x with
      | none => exact (hp List.mem_cons_self).elim
      | some x =>
        cases l with
        | nil => exact h.elim
        | cons y l =>
          obtain ⟨rfl, h⟩ := h
          rw [List.map_cons, ih l (fun hx => hp (List.mem_cons_of_mem _ hx)) h]
          rfl
  have e := key _ _ hp h'
  exact Spec.Pdl.written_unique (show IsWritten p c from e) h

/-! ### Lists -/

theorem takes_items {α : Type} {pat : α → Pattern} {l : List α} (hl : ∀ x ∈ l, ∃ k, (pat x).length = 8 * k) {s r : Bytes}
    (h : Takes (l.flatMap pat) s r) :
    ∃ m : List (α × Bytes), m.map Prod.fst = l ∧ s = m.flatMap Prod.snd ++ r ∧ ∀ y ∈ m, Matches (pat y.1) y.2 := by
  induction l generalizing s with
  | nil =>
    have := tk_end h
    subst this
    exact ⟨[], rfl, rfl, by simp⟩
  | cons x l ih =>
    rw [List.flatMap_cons] at h
    obtain ⟨k, hk⟩ := hl x List.mem_cons_self
    obtain ⟨h1, h2, h3⟩ := takes_split h hk
    obtain ⟨m, h4, h5, h6⟩ := ih (fun y hy => hl y (List.mem_cons_of_mem _ hy)) h3
    refine ⟨(x, s.take k) :: m, by simp [h4], ?_, ?_⟩
    · rw [List.flatMap_cons, List.append_assoc, ← h5, List.take_append_drop]
    · intro y hy
      rcases List.mem_cons.1 hy with rfl | hy
      · exact h2
      · exact h6 y hy

theorem fw_elements {α : Type} {p : Bytes → Option (α × Bytes)} {pat : α → Pattern} {l : List α}
    (hl : ∀ x ∈ l, ∀ s r, Takes (pat x) s r → p s = some (x, r)) (hk : ∀ x ∈ l, ∃ k, (pat x).length = 8 * k) {s r : Bytes}
    (h : Takes (l.flatMap pat) s r) : elements p l.length s = some (l, r) := by
  induction l generalizing s with
  | nil => rw [tk_end h]; rfl
  | cons x l ih =>
    rw [List.flatMap_cons] at h
    obtain ⟨k, hk'⟩ := hk x List.mem_cons_self
    obtain ⟨h1, h2, h3⟩ := takes_split h hk'
    have h4 : Takes (pat x) s (s.drop k) := ⟨s.take k, (List.take_append_drop k s).symm, h2⟩
    have h5 := ih (fun y hy => hl y (List.mem_cons_of_mem _ hy)) (fun y hy => hk y (List.mem_cons_of_mem _ hy)) h3
    rw [List.length_cons, elements, hl x List.mem_cons_self _ _ h4]
    simp only [Option.bind_eq_bind, Option.bind_some, h5]
    rfl

theorem fw_records {α : Type} {p : Bytes → Option (α × Bytes)} {pat : α → Pattern} {l : List α} {k : Nat}
    (hl : ∀ x ∈ l, ∀ s r, Takes (pat x) s r → p s = some (x, r)) (hk : ∀ x ∈ l, (pat x).length = 8 * k) {q : Pattern} {s r : Bytes}
    (h : Takes (l.flatMap pat ++ q) s r) :
    l.length * k ≤ s.length ∧ records p k l.length s = some l ∧ Takes q (s.drop (l.length * k)) r := by
  have hlen : (l.flatMap pat).length = 8 * (l.length * k) := by
    clear h hl
    induction l with
    | nil => simp
    | cons x l ih =>
      rw [List.flatMap_cons, List.length_append, hk x List.mem_cons_self, ih fun y hy => hk y (List.mem_cons_of_mem _ hy),
        List.length_cons, Nat.add_mul, Nat.one_mul]
      omega
  obtain ⟨h1, h2, h3⟩ := takes_split h hlen
  refine ⟨h1, ?_, h3⟩
  have h4 : Takes (l.flatMap pat) s (s.drop (l.length * k)) := ⟨_, (List.take_append_drop _ s).symm, h2⟩
  obtain ⟨m, e1, e2, e3⟩ := takes_items (fun x hx => ⟨k, hk x hx⟩) h4
  generalize s.drop (l.length * k) = t at *
  subst e2
  have := records_eq p (Prod.snd (α := α)) Prod.fst k m t (fun y hy => by
    have a1 := (e3 y hy).length
    have a2 := hk y.1 (e1 ▸ List.mem_map_of_mem hy)
    omega) (fun y hy => hl y.1 (e1 ▸ List.mem_map_of_mem hy) _ _ (e3 y hy).takes)
  rw [e1] at this
  rwa [← List.length_map (f := Prod.fst), e1] at this

/-! ### Structures -/

theorem fw_measurement {x : Measurement} (hx : MeasurementFits 16 x) (s r : Bytes) (h : Takes (measurementPat 16 88 x) s r) :
    measurement s = some (x, r) := by
  cases x
  obtain ⟨f0, f1, f2, f3, f4, f5, f6, f7, f8, f9, f10, f11, f12, f13⟩ := hx
  replace h : Takes _ (s.drop 0) r := h
  unfold measurementPat measurementFront at h
  rw [← List.append_nil (gap 88)] at h
  simp only [List.append_assoc] at h
  obtain ⟨l0, e0, h⟩ := tk_le (i := 0) (j := 2) h f0 (by omega) (by omega) (by omega)
  obtain ⟨l1, e1, h⟩ := tk_idx (i := 2) h f1 (by omega)
  obtain ⟨l2, e2, h⟩ := tk_idx (i := 3) h f2 (by omega)
  obtain ⟨l3, e3, h⟩ := tk_le (i := 4) (j := 6) h f3 (by omega) (by omega) (by omega)
  obtain ⟨l4, e4, h⟩ := tk_le (i := 6) (j := 8) h f4 (by omega) (by omega) (by omega)
  obtain ⟨l5, e5, h⟩ := tk_idx (i := 8) h f5 (by omega)
  obtain ⟨l6, e6, h⟩ := tk_le (i := 9) (j := 11) h f6 (by omega) (by omega) (by omega)
  obtain ⟨l7, e7, h⟩ := tk_idx (i := 11) h f7 (by omega)
  obtain ⟨l8, e8, h⟩ := tk_le (i := 12) (j := 14) h f8 (by omega) (by omega) (by omega)
  obtain ⟨l9, e9, h⟩ := tk_idx (i := 14) h f9 (by omega)
  obtain ⟨l10, e10, h⟩ := tk_le (i := 15) (j := 17) h f10 (by omega) (by omega) (by omega)
  obtain ⟨l11, e11, h⟩ := tk_idx (i := 17) h f11 (by omega)
  obtain ⟨l12, e12, h⟩ := tk_idx (i := 18) h f12 (by omega)
  obtain ⟨l13, e13, h⟩ := tk_idx (i := 19) h f13 (by omega)
  obtain ⟨l14, h⟩ := tk_gap (i := 20) (j := 31) h (by omega) (by omega) (by omega)
  unfold measurement
  rw [need_of_le l14, e0, e1, e2, e3, e4, e5, e6, e7, e8, e9, e10, e11, e12, e13, tk_end h]
  rfl

theorem fw_extMeasurement {x : Measurement} (hx : MeasurementFits 64 x) (s r : Bytes) (h : Takes (measurementPat 64 40 x) s r) :
    extMeasurement s = some (x, r) := by
  cases x
  obtain ⟨f0, f1, f2, f3, f4, f5, f6, f7, f8, f9, f10, f11, f12, f13⟩ := hx
  replace h : Takes _ (s.drop 0) r := h
  unfold measurementPat measurementFront at h
  rw [← List.append_nil (gap 40)] at h
  simp only [List.append_assoc] at h
  obtain ⟨l0, e0, h⟩ := tk_le (i := 0) (j := 8) h f0 (by omega) (by omega) (by omega)
  obtain ⟨l1, e1, h⟩ := tk_idx (i := 8) h f1 (by omega)
  obtain ⟨l2, e2, h⟩ := tk_idx (i := 9) h f2 (by omega)
  obtain ⟨l3, e3, h⟩ := tk_le (i := 10) (j := 12) h f3 (by omega) (by omega) (by omega)
  obtain ⟨l4, e4, h⟩ := tk_le (i := 12) (j := 14) h f4 (by omega) (by omega) (by omega)
  obtain ⟨l5, e5, h⟩ := tk_idx (i := 14) h f5 (by omega)
  obtain ⟨l6, e6, h⟩ := tk_le (i := 15) (j := 17) h f6 (by omega) (by omega) (by omega)
  obtain ⟨l7, e7, h⟩ := tk_idx (i := 17) h f7 (by omega)
  obtain ⟨l8, e8, h⟩ := tk_le (i := 18) (j := 20) h f8 (by omega) (by omega) (by omega)
  obtain ⟨l9, e9, h⟩ := tk_idx (i := 20) h f9 (by omega)
  obtain ⟨l10, e10, h⟩ := tk_le (i := 21) (j := 23) h f10 (by omega) (by omega) (by omega)
  obtain ⟨l11, e11, h⟩ := tk_idx (i := 23) h f11 (by omega)
  obtain ⟨l12, e12, h⟩ := tk_idx (i := 24) h f12 (by omega)
  obtain ⟨l13, e13, h⟩ := tk_idx (i := 25) h f13 (by omega)
  obtain ⟨l14, h⟩ := tk_gap (i := 26) (j := 31) h (by omega) (by omega) (by omega)
  unfold extMeasurement
  rw [need_of_le l14, e0, e1, e2, e3, e4, e5, e6, e7, e8, e9, e10, e11, e12, e13, tk_end h]
  rfl

theorem fw_owrAoa {x : OwrAoa} (hx : OwrAoaFits 16 x) (s r : Bytes) (h : Takes (owrAoaPat 16 x) s r) :
    owrAoa s = some (x, r) := by
  cases x
  obtain ⟨f0, f1, f2, f3, f4, f5, f6, f7, f8⟩ := hx
  replace h : Takes _ (s.drop 0) r := h
  unfold owrAoaPat at h
  rw [← List.append_nil (nat 8 _)] at h
  simp only [List.append_assoc] at h
  obtain ⟨l0, e0, h⟩ := tk_le (i := 0) (j := 2) h f0 (by omega) (by omega) (by omega)
  obtain ⟨l1, e1, h⟩ := tk_idx (i := 2) h f1 (by omega)
  obtain ⟨l2, e2, h⟩ := tk_idx (i := 3) h f2 (by omega)
  obtain ⟨l3, e3, h⟩ := tk_idx (i := 4) h f3 (by omega)
  obtain ⟨l4, e4, h⟩ := tk_le (i := 5) (j := 7) h f4 (by omega) (by omega) (by omega)
  obtain ⟨l5, e5, h⟩ := tk_le (i := 7) (j := 9) h f5 (by omega) (by omega) (by omega)
  obtain ⟨l6, e6, h⟩ := tk_idx (i := 9) h f6 (by omega)
  obtain ⟨l7, e7, h⟩ := tk_le (i := 10) (j := 12) h f7 (by omega) (by omega) (by omega)
  obtain ⟨l8, e8, h⟩ := tk_idx (i := 12) h f8 (by omega)
  unfold owrAoa
  rw [need_of_le l8, e0, e1, e2, e3, e4, e5, e6, e7, e8, tk_end h]
  rfl

theorem fw_extOwrAoa {x : OwrAoa} (hx : OwrAoaFits 64 x) (s r : Bytes) (h : Takes (owrAoaPat 64 x) s r) :
    extOwrAoa s = some (x, r) := by
  cases x
  obtain ⟨f0, f1, f2, f3, f4, f5, f6, f7, f8⟩ := hx
  replace h : Takes _ (s.drop 0) r := h
  unfold owrAoaPat at h
  rw [← List.append_nil (nat 8 _)] at h
  simp only [List.append_assoc] at h
  obtain ⟨l0, e0, h⟩ := tk_le (i := 0) (j := 8) h f0 (by omega) (by omega) (by omega)
  obtain ⟨l1, e1, h⟩ := tk_idx (i := 8) h f1 (by omega)
  obtain ⟨l2, e2, h⟩ := tk_idx (i := 9) h f2 (by omega)
  obtain ⟨l3, e3, h⟩ := tk_idx (i := 10) h f3 (by omega)
  obtain ⟨l4, e4, h⟩ := tk_le (i := 11) (j := 13) h f4 (by omega) (by omega) (by omega)
  obtain ⟨l5, e5, h⟩ := tk_le (i := 13) (j := 15) h f5 (by omega) (by omega) (by omega)
  obtain ⟨l6, e6, h⟩ := tk_idx (i := 15) h f6 (by omega)
  obtain ⟨l7, e7, h⟩ := tk_le (i := 16) (j := 18) h f7 (by omega) (by omega) (by omega)
  obtain ⟨l8, e8, h⟩ := tk_idx (i := 18) h f8 (by omega)
  unfold extOwrAoa
  rw [need_of_le l8, e0, e1, e2, e3, e4, e5, e6, e7, e8, tk_end h]
  rfl


/-! ### Bits -/

theorem agrees_nat {n a c : Nat} {l : List Bool} (ha : a < 2 ^ n) (h : Agrees (nat n a) l) (h' : Agrees (nat n c) l) :
    c &&& (2 ^ n - 1) = a := by
  have e : ∀ v, nat n v = ((List.range n).map v.testBit).map some := fun v => by simp [nat]
  have h1 := h
  have h2 := h'
  rw [e, Spec.Pdl.agrees_some] at h1 h2
  apply nat_inj (by rw [Nat.and_two_pow_sub_one_eq_mod]; exact Nat.mod_lt _ (Nat.two_pow_pos n)) ha
  rw [nat_and, e, e, ← h1, ← h2]

theorem agrees_peel {n a c : Nat} {p q : Pattern} {l : List Bool} (ha : a < 2 ^ n) (h : Agrees (nat n a ++ p) l)
    (h' : Agrees (nat n c ++ q) l) : c &&& (2 ^ n - 1) = a ∧ Agrees p (l.drop n) ∧ Agrees q (l.drop n) := by
  obtain ⟨h1, h2⟩ := Spec.Pdl.agrees_split h
  obtain ⟨h3, h4⟩ := Spec.Pdl.agrees_split h'
  rw [nat_length] at h1 h2 h3 h4
  exact ⟨agrees_nat ha h1 h3, h2, h4⟩

theorem agrees_skip {n c : Nat} {p q : Pattern} {l : List Bool} (h : Agrees (gap n ++ p) l)
    (h' : Agrees (nat n c ++ q) l) : Agrees p (l.drop n) ∧ Agrees q (l.drop n) := by
  obtain ⟨h1, h2⟩ := Spec.Pdl.agrees_split h
  obtain ⟨h3, h4⟩ := Spec.Pdl.agrees_split h'
  rw [nat_length] at h3 h4
  have e : (gap n).length = n := by simp [gap]
  rw [e] at h1 h2
  exact ⟨h2, h4⟩

theorem matches_ofLe {n : Nat} {b : Bytes} (h : n = 8 * b.length) : Matches (nat n (ofLe b)) b := by
  rw [h, ← octets_ofLe]; exact matches_octets.2 rfl

theorem fw_wgs84 {w : Bytes} (hw : w.length = 12) (s r : Bytes) (h : Takes (octets w) s r) : wgs84Location s = some (w, r) := by
  obtain ⟨b, rfl, hb⟩ := h
  have := matches_octets.1 hb
  subst this
  unfold wgs84Location
  rw [need_of_le (by rw [List.length_append]; omega), ← hw]
  simp

theorem fw_relative {x : RelativeLocation} (hx : RelativeFits x) (s r : Bytes) (h : Takes (relativePat x) s r) :
    relativeLocation s = some (x, r) := by
  cases x
  obtain ⟨f0, f1, f2⟩ := hx
  dsimp only at f0 f1 f2
  unfold relativePat at h
  dsimp only at h
  rw [← List.append_assoc] at h
  obtain ⟨l0, h0, h⟩ := takes_split h (k := 7) (by simp [nat_length])
  rw [← List.append_nil (nat 24 _)] at h
  obtain ⟨l1, e2, h⟩ := tk_le (i := 7) (j := 10) h f2 (by omega) (by omega) (by omega)
  have h0' : Agrees (nat 28 (ofLe (s.take 7)) ++ (nat 28 (ofLe (s.take 7) >>> 28) ++ [])) (Spec.Pdl.bitsOf (s.take 7)) := by
    rw [List.append_nil, ← nat_add]
    exact matches_ofLe (by rw [List.length_take]; omega)
  rw [← List.append_nil (nat 28 _ ++ nat 28 _), List.append_assoc] at h0
  obtain ⟨e0, h0, h0'⟩ := agrees_peel f0 h0 h0'
  obtain ⟨e1, _, _⟩ := agrees_peel f1 h0 h0'
  have e : le s 0 7 = ofLe (s.take 7) := rfl
  unfold relativeLocation
  rw [need_of_le l1, e, e2, tk_end h]
  show some (RelativeLocation.mk (ofLe (s.take 7) &&& (2 ^ 28 - 1)) (ofLe (s.take 7) >>> 28 &&& (2 ^ 28 - 1)) _, _) = _
  rw [e0, e1]

theorem fw_timestamp {a b : Option Nat} (hx : StampFits a b) {p : Pattern} {s r : Bytes} (h : Takes (stampPat a b ++ p) s r) :
    ∃ t, timestamp (if b = none then 0 else 1) s = some ((a, b), t) ∧ Takes p t r := by
  rcases hx with ⟨v, rfl, hv, rfl⟩ | ⟨v, rfl, hv, rfl⟩
  · replace h : Takes (nat 40 v ++ p) (s.drop 0) r := h
    obtain ⟨l0, e0, h⟩ := tk_le (i := 0) (j := 5) h hv (by omega) (by omega) (by omega)
    refine ⟨s.drop 5, ?_, h⟩
    rw [if_pos rfl, timestamp, if_pos rfl, need_of_le l0]
    have e : le s 0 5 = ofLe (s.take 5) := rfl
    rw [← e, e0]
    rfl
  · replace h : Takes (nat 64 v ++ p) (s.drop 0) r := h
    obtain ⟨l0, e0, h⟩ := tk_le (i := 0) (j := 8) h hv (by omega) (by omega) (by omega)
    refine ⟨s.drop 8, ?_, h⟩
    rw [if_neg (by simp), timestamp, if_neg (by simp), need_of_le l0]
    have e : le s 0 8 = ofLe (s.take 8) := rfl
    rw [← e, e0]
    rfl

theorem fw_times {t : DlTdoaTimes} (hx : t.anchorCfo < 2 ^ 16 ∧ t.cfo < 2 ^ 16 ∧ t.initiatorReplyTime < 2 ^ 32 ∧
    t.responderReplyTime < 2 ^ 32 ∧ t.initiatorResponderTof < 2 ^ 16) {p : Pattern} {s r : Bytes}
    (h : Takes (nat 16 t.anchorCfo ++ (nat 16 t.cfo ++ (nat 32 t.initiatorReplyTime ++ (nat 32 t.responderReplyTime ++
      (nat 16 t.initiatorResponderTof ++ p))))) s r) : dlTdoaTimes s = some (t, s.drop 14) ∧ Takes p (s.drop 14) r := by
  cases t
  obtain ⟨f0, f1, f2, f3, f4⟩ := hx
  replace h : Takes _ (s.drop 0) r := h
  obtain ⟨l0, e0, h⟩ := tk_le (i := 0) (j := 2) h f0 (by omega) (by omega) (by omega)
  obtain ⟨l1, e1, h⟩ := tk_le (i := 2) (j := 4) h f1 (by omega) (by omega) (by omega)
  obtain ⟨l2, e2, h⟩ := tk_le (i := 4) (j := 8) h f2 (by omega) (by omega) (by omega)
  obtain ⟨l3, e3, h⟩ := tk_le (i := 8) (j := 12) h f3 (by omega) (by omega) (by omega)
  obtain ⟨l4, e4, h⟩ := tk_le (i := 12) (j := 14) h f4 (by omega) (by omega) (by omega)
  refine ⟨?_, h⟩
  unfold dlTdoaTimes
  rw [need_of_le l4, e0, e1, e2, e3, e4]
  rfl

theorem fw_tail {ws : List Bytes} {rs : List RelativeLocation} {na : Bytes} (h1 : ∀ w ∈ ws, w.length = 12)
    (h2 : ∀ l ∈ rs, RelativeFits l) {s r : Bytes}
    (h : Takes (ws.flatMap octets ++ (rs.flatMap relativePat ++ octets na)) s r) :
    dlTdoaTail ws.length rs.length na.length s = some ((ws, rs, na), r) := by
  obtain ⟨l0, e0, h⟩ := fw_records (k := 12) (fun w hw => fw_wgs84 (h1 w hw))
    (fun w hw => by rw [octets_length, h1 w hw]) h
  obtain ⟨l1, e1, h⟩ := fw_records (k := 10) (fun w hw => fw_relative (h2 w hw))
    (fun w hw => by simp [relativePat, nat_length]) h
  obtain ⟨b, hb, hm⟩ := h
  have := matches_octets.1 hm
  subst this
  unfold dlTdoaTail
  rw [need_of_le l0, e0]
  simp only [Option.bind_eq_bind, Option.bind_some]
  rw [need_of_le l1, e1]
  simp only [Option.bind_some]
  rw [hb, need_of_le (by simp)]
  simp

theorem fw_bits {m : DlTdoa} (hm : DlTdoaFits m) {b : Bytes} (hb : b.length = 2) (h : Matches (dlTdoaBitsPat m) b) :
    ofLe b &&& 0x1 = m.txTimestampType ∧ (ofLe b >>> 1) &&& 0x1 = (if m.txTimestamp64 = none then 0 else 1) ∧
      (ofLe b >>> 3) &&& 0x1 = (if m.rxTimestamp64 = none then 0 else 1) ∧ (ofLe b >>> 5) &&& 0x1 = m.wgs84Location.length ∧
      (ofLe b >>> 6) &&& 0x1 = m.relativeLocation.length ∧ (ofLe b >>> 7) &&& 0xf = m.activeRangingRounds.length := by
  obtain ⟨_, _, h1, _, _, _, _, _, _, _, _, _, _, _, _, _, _, _, h2, _, h3, _, h4⟩ := hm
  have h' : Agrees (nat 16 (ofLe b)) (Spec.Pdl.bitsOf b) := matches_ofLe (by omega)
  rw [nat_bits16] at h'
  unfold dlTdoaBitsPat at h
  obtain ⟨e0, h, h'⟩ := agrees_peel h1 h h'
  obtain ⟨e1, h, h'⟩ := agrees_peel (bit_lt _) h h'
  obtain ⟨h, h'⟩ := agrees_skip h h'
  obtain ⟨e3, h, h'⟩ := agrees_peel (bit_lt _) h h'
  obtain ⟨h, h'⟩ := agrees_skip h h'
  obtain ⟨e5, h, h'⟩ := agrees_peel (by omega) h h'
  obtain ⟨e6, h, h'⟩ := agrees_peel (by omega) h h'
  obtain ⟨e7, h, h'⟩ := agrees_peel (by omega) h h'
  exact ⟨e0, e1, e3, e5, e6, e7⟩

theorem fw_dlTdoa {m : DlTdoa} (hm : DlTdoaFits m) (s r : Bytes) (h : Takes (dlTdoaPat m) s r) : dlTdoa s = some (m, r) := by
  have hm' := hm
  obtain ⟨f0, f1, _, f3, f4, f5, f6, f7, f8, f9, f10, f11, f12, f13, f14, f15, f16, f17, _, f19, _, f21, _⟩ := hm
  replace h : Takes _ (s.drop 0) r := h
  unfold dlTdoaPat dlTdoaFront dlTdoaTimesPat at h
  simp only [List.append_assoc] at h
  obtain ⟨l0, e0, h⟩ := tk_idx (i := 0) h f0 (by omega)
  obtain ⟨l1, e1, h⟩ := tk_idx (i := 1) h f1 (by omega)
  obtain ⟨l2, hb, h⟩ := takes_split h (k := 2) (by simp [dlTdoaBitsPat, nat_length, gap])
  rw [List.length_drop] at l2
  rw [List.drop_drop] at h
  obtain ⟨b0, b1, b3, b5, b6, b7⟩ := fw_bits hm' (by rw [List.length_take, List.length_drop]; omega) hb
  have ev : le s 2 4 = ofLe ((s.drop 2).take 2) := by unfold le slice; rw [List.drop_take]
  obtain ⟨l3, e3, h⟩ := tk_le (i := 4) (j := 6) h f3 (by omega) (by omega) (by omega)
  obtain ⟨l4, e4, h⟩ := tk_idx (i := 6) h f4 (by omega)
  obtain ⟨l5, e5, h⟩ := tk_idx (i := 7) h f5 (by omega)
  obtain ⟨l6, e6, h⟩ := tk_le (i := 8) (j := 10) h f6 (by omega) (by omega) (by omega)
  obtain ⟨l7, e7, h⟩ := tk_idx (i := 10) h f7 (by omega)
  obtain ⟨l8, e8, h⟩ := tk_le (i := 11) (j := 13) h f8 (by omega) (by omega) (by omega)
  obtain ⟨l9, e9, h⟩ := tk_idx (i := 13) h f9 (by omega)
  obtain ⟨l10, e10, h⟩ := tk_idx (i := 14) h f10 (by omega)
  obtain ⟨s1, t1, h⟩ := fw_timestamp f11 h
  obtain ⟨s2, t2, h⟩ := fw_timestamp f12 h
  obtain ⟨t3, h⟩ := fw_times (t := ⟨m.anchorCfo, m.cfo, m.initiatorReplyTime, m.responderReplyTime, m.initiatorResponderTof⟩)
    ⟨f13, f14, f15, f16, f17⟩ h
  have t4 := fw_tail f19 f21 h
  unfold dlTdoa
  rw [need_of_le l10]
  simp only [Option.bind_eq_bind, Option.bind_some, ev, b0, b1, b3, b5, b6, b7, t1, t2, t3, t4, e0, e1, e3, e4, e5, e6, e7, e8, e9, e10]
  rfl

theorem fw_addressed {n w : Nat} (hn : n = 8 * w) {x : Nat × DlTdoa} (hx : AddressedFits n x) (s r : Bytes)
    (h : Takes (addressedPat n x) s r) : addressedDlTdoa w s = some (x, r) := by
  obtain ⟨h1, h2⟩ := hx
  replace h : Takes (nat n x.1 ++ dlTdoaPat x.2) (s.drop 0) r := h
  obtain ⟨l0, e0, h⟩ := tk_le (i := 0) (j := w) h h1 (by omega) (by omega) (by omega)
  unfold addressedDlTdoa
  rw [need_of_le l0, fw_dlTdoa h2 _ _ h, e0]
  rfl

end Pica.Py
