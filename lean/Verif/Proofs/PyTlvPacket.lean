import Verif.Proofs.PyControlees
/-! The packets in a report of a frame: the class `FrameReportTlvPacket` of `uci.py` and those derived from it. -/

namespace Pica.Py
open Spec
open Spec.Pdl (Pattern nat gap octets Agrees Matches Takes IsWritten takes_nil takes_octets takes_all takes_gap takes_ofLe nat_add nat_and nat_inj nat_length octets_ofLe octets_length matches_octets written_octets written_nat written_byte written_gap written_nil patterns Field.pattern Values.int Values.get Values.bytes Values.length Values.records)

set_option linter.unusedSimpArgs false

/-! ### Layouts -/

/-- A type, a length, a body. -/
def tlvHead (t : Nat) (body : Pattern) : Pattern := nat 8 t ++ (nat 16 (body.length / 8) ++ body)

def TlvFields.body : TlvFields → Pattern
  | .bare => []
  | .rssi b => octets b
  | .aoa l => l.flatMap aoaPat
  | .cir l => listPat cirPat l

def TlvFields.type : TlvFields → Nat
  | .bare => 0
  | .rssi _ => 0
  | .aoa _ => 1
  | .cir _ => 2

theorem bareTlv_pat (t : Nat) (p : Bytes) : bareTlvBits t p = tlvHead t (octets p) := by
  simp [bareTlvBits, Spec.Pdl.frameReportTlvPacket, Spec.Pdl.Packet.pattern, Spec.Pdl.Packet.within, patterns, Field.pattern,
    Values.int, Values.get, Values.bytes, tlvHead]

theorem tlvFields_pat {f : TlvFields} (hf : f ≠ .bare) : tlvFieldsBits f = tlvHead f.type f.body := by
  cases f with
  | bare => exact (hf rfl).elim
  | rssi b =>
    simp [tlvFieldsBits, Spec.Pdl.rssi, Spec.Pdl.frameReportTlvPacket, Spec.Pdl.Packet.pattern, Spec.Pdl.Packet.within, patterns,
      Field.pattern, Values.int, Values.get, Values.bytes, tlvHead, TlvFields.type, TlvFields.body]
  | aoa l =>
    simp [tlvFieldsBits, Spec.Pdl.aoa, Spec.Pdl.frameReportTlvPacket, Spec.Pdl.Packet.pattern, Spec.Pdl.Packet.within, patterns,
      Field.pattern, Values.int, Values.get, Values.records, tlvHead, TlvFields.type, TlvFields.body, List.flatMap_map, aoa_pat]
  | cir l =>
    simp [tlvFieldsBits, Spec.Pdl.cir, Spec.Pdl.frameReportTlvPacket, Spec.Pdl.Packet.pattern, Spec.Pdl.Packet.within, patterns,
      Field.pattern, Values.int, Values.get, Values.records, Values.length, tlvHead, TlvFields.type, TlvFields.body, listPat,
      List.flatMap_map, cir_pat]

theorem tlvHead_length (t : Nat) (q : Pattern) : (tlvHead t q).length = 24 + q.length := by
  simp only [tlvHead, List.length_append, nat_length]; omega

/-- The bytes of a packet. -/
def tlvWire (t : Nat) (p : Bytes) : Bytes := [UInt8.ofNat t] ++ (leBytes 2 p.length ++ p)

theorem bare_octets (t : Nat) (p : Bytes) : tlvHead t (octets p) = octets (tlvWire t p) := by
  unfold tlvHead tlvWire
  rw [octets_length, Nat.mul_div_cancel_left _ (by decide), Spec.Pdl.octets_append, Spec.Pdl.octets_append,
    Spec.Pdl.octets_byte, Spec.Pdl.octets_leBytes]

theorem tlv_matches {t u : Nat} {q : Pattern} {p : Bytes} (ht : t < 256) (hu : u < 256) :
    Matches (tlvHead u q) (tlvWire t p) ↔ u = t ∧ Matches q p := by
  constructor
  · intro h
    unfold tlvHead at h
    obtain ⟨h1, h2⟩ := h.split (k := 1) (by rw [nat_length])
    obtain ⟨_, h3⟩ := h2.split (k := 2) (by rw [nat_length])
    refine ⟨?_, h3⟩
    have := matches_nat (k := 1) rfl rfl hu h1
    rw [← this]
    simp [tlvWire, ofLe]
    omega
  · rintro ⟨rfl, h⟩
    have hl := h.length
    unfold tlvHead tlvWire
    refine Spec.Pdl.Matches.append (written_byte u).matches (Spec.Pdl.Matches.append ?_ h)
    rw [← hl, Nat.mul_div_cancel_left _ (by decide)]
    exact (written_nat (k := 2) rfl).matches

/-! ### Reading -/

theorem aoa_iff (p : Bytes) (x : TlvPacket) (r : Bytes) : aoa 1 p = some (x, r) ↔
    r = [] ∧ ∃ l, (∀ y ∈ l, AoaMeasurementFits y) ∧ Matches (l.flatMap aoaPat) p ∧ x = ⟨1, p, .aoa l⟩ := by
  constructor
  · intro h
    simp only [aoa, Option.bind_eq_bind, Option.bind_eq_some_iff, forbid_iff, Option.pure_def, Option.some.injEq,
      Prod.mk.injEq] at h
    obtain ⟨_, _, _, h1, l, h2, rfl, rfl⟩ := h
    refine ⟨rfl, l, records_all (fun s x r h => (rd_aoa s x r h).1) h2, ?_, rfl⟩
    obtain ⟨h3, h4⟩ := rd_records (fun s x r h => (rd_aoa s x r h).2) h2
    rw [List.drop_of_length_le (by omega)] at h4
    exact h4.matches
  · rintro ⟨rfl, l, h1, h2, rfl⟩
    have h3 := h2.takes
    rw [← List.append_nil (l.flatMap aoaPat)] at h3
    obtain ⟨l1, e1, h⟩ := fw_records (k := 8) (fun x hx => fw_aoa (h1 x hx)) (fun x hx => by simp [aoaPat, nat_length]) h3
    have hlen : p.length = l.length * 8 := by
      have := (tk_end h)
      have e := congrArg List.length this
      rw [List.length_drop, List.length_nil] at e
      omega
    unfold aoa
    rw [forbid_false (by simp), forbid_false (by omega), show p.length / 8 = l.length by omega, e1]
    rfl

theorem cirPat_aligned (x : CirValue) : ∃ k, (cirPat x).length = 8 * k :=
  ⟨16 + x.sampleWindow.length, by simp only [cirPat, List.length_append, nat_length, octets_length]; omega⟩

theorem cir_iff (p : Bytes) (x : TlvPacket) : cir 2 p = some (x, []) ↔
    ∃ l, l.length ≤ 255 ∧ (∀ y ∈ l, CirValueFits y) ∧ Matches (listPat cirPat l) p ∧ x = ⟨2, p, .cir l⟩ := by
  constructor
  · intro h
    simp only [cir, Option.bind_eq_bind, Option.bind_eq_some_iff, forbid_iff, need_iff, Option.pure_def, Option.some.injEq,
      Prod.mk.injEq, Prod.exists] at h
    obtain ⟨_, _, _, h1, l, r, h2, rfl, rfl⟩ := h
    obtain ⟨h3, h4⟩ := rd_elements (fun s x r h => (rd_cir s x r h).2) h2
    have h5 := idx_lt p 0
    refine ⟨l, by omega, elements_all (fun s x r h => (rd_cir s x r h).1) h2, ?_, rfl⟩
    apply Spec.Pdl.Takes.matches
    refine Spec.Pdl.Takes.append (t := p.drop 1) ?_ h4
    rw [h3]
    exact rd_idx (s := p) (i := 0) (by omega)
  · rintro ⟨l, h0, h1, h2, rfl⟩
    have h3 : Takes (nat 8 l.length ++ l.flatMap cirPat) (p.drop 0) [] := h2.takes
    obtain ⟨l0, e0, h⟩ := tk_idx (i := 0) h3 (by omega) (by omega)
    have e1 := fw_elements (fun x hx => fw_cir (h1 x hx)) (fun x _ => cirPat_aligned x) h
    unfold cir
    rw [forbid_false (by simp), need_of_le l0, e0, e1]
    rfl

/-- The derived class that takes a payload. -/
def tlvChild (t : Nat) (p : Bytes) : TlvPacket := (firstChild [rssi t p, aoa t p, cir t p]).getD ⟨t, p, .bare⟩

theorem rssi_none {t : Nat} (h : t ≠ 0) (p : Bytes) : rssi t p = none := by unfold rssi; rw [forbid_true h]; rfl
theorem aoa_none {t : Nat} (h : t ≠ 1) (p : Bytes) : aoa t p = none := by unfold aoa; rw [forbid_true h]; rfl
theorem cir_none {t : Nat} (h : t ≠ 2) (p : Bytes) : cir t p = none := by unfold cir; rw [forbid_true h]; rfl

theorem child_zero (p : Bytes) : tlvChild 0 p = ⟨0, p, .rssi p⟩ := by
  unfold tlvChild rssi
  rw [forbid_false (by simp)]
  rfl

theorem child_one (p : Bytes) : tlvChild 1 p = ((aoa 1 p).map Prod.fst).getD ⟨1, p, .bare⟩ := by
  unfold tlvChild
  rw [rssi_none (by decide), cir_none (by decide)]
  cases h : aoa 1 p with
  | none => rfl
  | some y =>
    obtain ⟨x, r⟩ := y
    obtain ⟨rfl, _⟩ := (aoa_iff p x r).1 h
    rfl

theorem child_two (p : Bytes) : (∃ x, cir 2 p = some (x, []) ∧ tlvChild 2 p = x) ∨
    (tlvChild 2 p = ⟨2, p, .bare⟩ ∧ ∀ x, cir 2 p ≠ some (x, [])) := by
  unfold tlvChild
  rw [rssi_none (by decide), aoa_none (by decide)]
  cases h : cir 2 p with
  | none => exact .inr ⟨rfl, by simp⟩
  | some y =>
    obtain ⟨x, r⟩ := y
    cases r with
    | nil => exact .inl ⟨x, rfl, rfl⟩
    | cons => exact .inr ⟨rfl, by simp⟩

/-- The fields fit, the type is the one of the class, and the payload has the layout. -/
def TlvFields.Of (f : TlvFields) (t : Nat) (p : Bytes) : Prop :=
  f ≠ .bare ∧ f.type = t ∧ Matches f.body p ∧
    match f with
    | .bare => False
    | .rssi _ => True
    | .aoa l => ∀ y ∈ l, AoaMeasurementFits y
    | .cir l => l.length ≤ 255 ∧ ∀ y ∈ l, CirValueFits y

theorem child_iff {t : Nat} (ht : t ≤ 2) (p : Bytes) (x : TlvPacket) : tlvChild t p = x ↔
    x.t = t ∧ x.payload = p ∧ ((x.fields = .bare ∧ ∀ f : TlvFields, ¬ f.Of t p) ∨ x.fields.Of t p) := by
  obtain ⟨xt, xp, xf⟩ := x
  dsimp only
  have cases3 : t = 0 ∨ t = 1 ∨ t = 2 := by omega
  rcases cases3 with rfl | rfl | rfl
  · rw [child_zero]
    constructor
    · intro h
      injection h with h1 h2 h3
      subst h1 h2 h3
      exact ⟨rfl, rfl, .inr ⟨by simp, rfl, matches_octets.2 rfl, trivial⟩⟩
    · rintro ⟨rfl, rfl, ⟨rfl, h⟩ | h⟩
      · exact (h (.rssi xp) ⟨by simp, rfl, matches_octets.2 rfl, trivial⟩).elim
      · obtain ⟨h1, h2, h3, h4⟩ := h
        cases xf with
        | bare => exact h4.elim
        | rssi b => rw [matches_octets.1 h3]
        | aoa l => cases h2
        | cir l => cases h2
  · rw [child_one]
    constructor
    · intro h
      cases e : aoa 1 p with
      | none =>
        rw [e] at h
        injection h with h1 h2 h3
        subst h1 h2 h3
        refine ⟨rfl, rfl, .inl ⟨rfl, ?_⟩⟩
        rintro f ⟨h1, h2, h3, h4⟩
        cases f with
        | bare => exact h4
        | rssi b => cases h2
        | aoa l =>
          rw [(aoa_iff p _ []).2 ⟨rfl, l, h4, h3, rfl⟩] at e
          cases e
        | cir l => cases h2
      | some y =>
        obtain ⟨y, r⟩ := y
        rw [e] at h
        obtain ⟨rfl, l, h1, h2, rfl⟩ := (aoa_iff p y r).1 e
        injection h with k1 k2 k3
        subst k1 k2 k3
        exact ⟨rfl, rfl, .inr ⟨by simp, rfl, h2, h1⟩⟩
    · rintro ⟨rfl, rfl, ⟨rfl, h⟩ | h⟩
      · cases e : aoa 1 xp with
        | none => rfl
        | some y =>
          obtain ⟨y, r⟩ := y
          obtain ⟨rfl, l, h1, h2, rfl⟩ := (aoa_iff xp y r).1 e
          exact (h (.aoa l) ⟨by simp, rfl, h2, h1⟩).elim
      · obtain ⟨h1, h2, h3, h4⟩ := h
        cases xf with
        | bare => exact h4.elim
        | rssi b => cases h2
        | aoa l =>
          rw [(aoa_iff xp _ []).2 ⟨rfl, l, h4, h3, rfl⟩]
          rfl
        | cir l => cases h2
  · constructor
    · intro h
      rcases child_two p with ⟨y, h1, h2⟩ | ⟨h1, h2⟩
      · rw [h] at h2
        subst h2
        obtain ⟨l, k1, k2, k3, k4⟩ := (cir_iff p _).1 h1
        injection k4 with k4 k5 k6
        subst k4 k5 k6
        exact ⟨rfl, rfl, .inr ⟨by simp, rfl, k3, k1, k2⟩⟩
      · rw [h] at h1
        injection h1 with k1 k2 k3
        subst k1 k2 k3
        refine ⟨rfl, rfl, .inl ⟨rfl, ?_⟩⟩
        rintro f ⟨h1, h3, h4, h5⟩
        cases f with
        | bare => exact h5
        | rssi b => cases h3
        | aoa l => cases h3
        | cir l => exact h2 _ ((cir_iff xp _).2 ⟨l, h5.1, h5.2, h4, rfl⟩)
    · rintro ⟨rfl, rfl, ⟨rfl, h⟩ | h⟩
      · rcases child_two xp with ⟨y, h1, h2⟩ | ⟨h1, h2⟩
        · obtain ⟨l, k1, k2, k3, k4⟩ := (cir_iff xp _).1 h1
          exact (h (.cir l) ⟨by simp, rfl, k3, k1, k2⟩).elim
        · exact h1
      · obtain ⟨h1, h2, h3, h4⟩ := h
        cases xf with
        | bare => exact h4.elim
        | rssi b => cases h2
        | aoa l => cases h2
        | cir l =>
          have e := (cir_iff xp _).2 ⟨l, h4.1, h4.2, h3, rfl⟩
          rcases child_two xp with ⟨y, h1, h2⟩ | ⟨_, h2⟩
          · rw [e] at h1
            injection h1 with h1
            injection h1 with h1
            rw [h2, ← h1]
          · exact (h2 _ e).elim

theorem tlvPacket_iff (s : Bytes) (x : TlvPacket) (r : Bytes) : tlvPacket s = some (x, r) ↔
    ∃ t p, t ≤ 2 ∧ p.length < 2 ^ 16 ∧ s = tlvWire t p ++ r ∧ tlvChild t p = x := by
  have mem : ∀ v, v ∈ frameReportTlvTypes ↔ v ≤ 2 := fun v => by simp [frameReportTlvTypes]; omega
  constructor
  · intro h
    simp only [tlvPacket, Option.bind_eq_bind, Option.bind_eq_some_iff, need_iff, fromInt_iff, Option.pure_def,
      Option.some.injEq, Prod.mk.injEq] at h
    obtain ⟨_, h0, _, ⟨h1, rfl⟩, _, h2, rfl, rfl⟩ := h
    have hlen : ((s.drop 3).take (le s 1 3)).length = le s 1 3 := by rw [List.length_take]; omega
    refine ⟨idx s 0, (s.drop 3).take (le s 1 3), (mem _).1 h1, by rw [hlen]; exact le_lt s 1 3, ?_, rfl⟩
    have hT : Takes (tlvHead (idx s 0) (octets ((s.drop 3).take (le s 1 3)))) s ((s.drop 3).drop (le s 1 3)) := by
      unfold tlvHead
      rw [octets_length, Nat.mul_div_cancel_left _ (by decide), hlen]
      show Takes _ (s.drop 0) _
      rdf; rdf
      exact takes_octets
    obtain ⟨b, hb, hm⟩ := hT
    rw [bare_octets] at hm
    rw [← matches_octets.1 hm]
    exact hb
  · rintro ⟨t, p, h1, h2, rfl, rfl⟩
    have hT : Takes (tlvHead t (octets p)) (tlvWire t p ++ r) r := ⟨_, rfl, by rw [bare_octets]; exact matches_octets.2 rfl⟩
    generalize tlvWire t p ++ r = s at hT
    replace hT : Takes _ (s.drop 0) r := hT
    unfold tlvHead at hT
    rw [octets_length, Nat.mul_div_cancel_left _ (by decide), ← List.append_nil (octets p)] at hT
    obtain ⟨l0, e0, h⟩ := tk_idx (i := 0) hT (by omega) (by omega)
    obtain ⟨l1, e1, h⟩ := tk_le (i := 1) (j := 3) h h2 (by omega) (by omega) (by omega)
    obtain ⟨l2, e2, h⟩ := tk_octets h
    unfold tlvPacket
    rw [need_of_le l1]
    simp only [Option.bind_eq_bind, Option.bind_some]
    rw [e0, fromInt_iff.2 ⟨(mem t).2 h1, rfl⟩]
    simp only [Option.bind_some]
    rw [e1, need_of_le l2, e2, ← tk_end h]
    rfl

theorem type_le (f : TlvFields) : f.type ≤ 2 := by cases f <;> simp [TlvFields.type]

theorem of_iff {f : TlvFields} {t : Nat} {p : Bytes} (ht : t ≤ 2) (hp : p.length < 2 ^ 16) :
    f.Of t p ↔ TlvFieldsFit f ∧ Matches (tlvFieldsBits f) (tlvWire t p) := by
  by_cases hb : f = .bare
  · subst hb
    exact ⟨fun h => (h.1 rfl).elim, fun h => h.1.elim⟩
  have hm : Matches (tlvFieldsBits f) (tlvWire t p) ↔ f.type = t ∧ Matches f.body p := by
    rw [tlvFields_pat hb]
    exact tlv_matches (by omega) (by have := type_le f; omega)
  rw [hm]
  constructor
  · rintro ⟨_, h2, h3, h4⟩
    refine ⟨?_, h2, h3⟩
    have hl := h3.length
    have hl' : (tlvFieldsBits f).length < 8 * (2 ^ 16 + 3) := by
      rw [tlvFields_pat hb, tlvHead_length, ← hl]; omega
    cases f with
    | bare => exact (hb rfl).elim
    | rssi b => rw [matches_octets.1 h3] at hp; exact hp
    | aoa l => exact ⟨h4, hl'⟩
    | cir l => exact ⟨h4.1, h4.2, hl'⟩
  · rintro ⟨h1, h2, h3⟩
    refine ⟨hb, h2, h3, ?_⟩
    cases f with
    | bare => exact (hb rfl).elim
    | rssi b => trivial
    | aoa l => exact h1.1
    | cir l => exact ⟨h1.1, h1.2.1⟩

theorem tlvReads_iff (s : Bytes) (x : TlvPacket) (r : Bytes) : tlvPacket s = some (x, r) ↔ ∃ b, s = b ++ r ∧ TlvReads b x := by
  rw [tlvPacket_iff]
  have key : ∀ b, TlvReads b x ↔ x.t ≤ 2 ∧ x.payload.length < 2 ^ 16 ∧ b = tlvWire x.t x.payload ∧
      ((x.fields = .bare ∧ ∀ f : TlvFields, ¬ f.Of x.t x.payload) ∨ x.fields.Of x.t x.payload) := by
    intro b
    unfold TlvReads
    rw [bareTlv_pat, bare_octets, matches_octets]
    refine and_congr_right fun h1 => and_congr_right fun h2 => and_congr_right fun h3 => ?_
    subst h3
    obtain ⟨xt, xp, xf⟩ := x
    dsimp only at *
    cases xf with
    | bare =>
      constructor
      · intro h
        exact .inl ⟨rfl, fun f hf => h f ((of_iff h1 h2).1 hf).1 ((of_iff h1 h2).1 hf).2⟩
      · rintro (⟨_, h⟩ | h)
        · exact fun f hf hm => h f ((of_iff h1 h2).2 ⟨hf, hm⟩)
        · exact (h.1 rfl).elim
    | rssi b => simp only [reduceCtorEq, false_and, false_or]; exact (of_iff h1 h2).symm
    | aoa l => simp only [reduceCtorEq, false_and, false_or]; exact (of_iff h1 h2).symm
    | cir l => simp only [reduceCtorEq, false_and, false_or]; exact (of_iff h1 h2).symm
  constructor
  · rintro ⟨t, p, h1, h2, rfl, h3⟩
    obtain ⟨rfl, rfl, h4⟩ := (child_iff h1 p x).1 h3
    exact ⟨_, rfl, (key _).2 ⟨h1, h2, rfl, h4⟩⟩
  · rintro ⟨b, rfl, h⟩
    obtain ⟨h1, h2, rfl, h4⟩ := (key b).1 h
    exact ⟨_, _, h1, h2, rfl, (child_iff h1 _ x).2 ⟨rfl, rfl, h4⟩⟩

/-! ### Writing -/

theorem fields_written {f : TlvFields} (hf : TlvFieldsFit f) : ∃ b, f.bytes = some b ∧ IsWritten f.body b := by
  cases f with
  | bare => exact hf.elim
  | rssi b => exact ⟨b, rfl, written_octets b⟩
  | aoa l =>
    obtain ⟨bs, hbs⟩ := mapM_some (f := aoaMeasurementBytes) (l := l) fun x _ => ⟨_, rfl⟩
    exact ⟨bs.flatten, by simp [TlvFields.bytes, hbs], wr_mapM (fun x _ => wr_aoa x) hbs⟩
  | cir l =>
    obtain ⟨b, hb⟩ := list_some (f := cirValueBytes) hf.1 fun x hx => cirBytes_some (hf.2.1 x hx)
    exact ⟨b, hb, wr_list hf.1 (fun x _ => wr_cir x) hb⟩

theorem body_length {f : TlvFields} (hf : TlvFieldsFit f) : f.body.length < 8 * 2 ^ 16 := by
  cases f with
  | bare => exact hf.elim
  | rssi b => show (octets b).length < _; rw [octets_length]; have : b.length < 2 ^ 16 := hf; omega
  | aoa l => have := hf.2; rw [tlvFields_pat (by simp), tlvHead_length] at this; omega
  | cir l => have := hf.2.2; rw [tlvFields_pat (by simp), tlvHead_length] at this; omega

theorem serialize_eq (x : TlvPacket) {own : Bytes} (h : x.fields.bytes = some own) (ht : x.t < 256) {p : Bytes}
    (hp : p = if own = [] then x.payload else own) (hl : p.length < 2 ^ 16) : x.serialize = some (tlvWire x.t p) := by
  unfold TlvPacket.serialize
  rw [h, byte_iff.2 ⟨ht, rfl⟩]
  simp only [Option.bind_eq_bind, Option.bind_some]
  rw [← hp, forbid_false (by omega)]
  simp [tlvWire]

theorem wire_written (t : Nat) {q : Pattern} {p : Bytes} (h : IsWritten q p) : IsWritten (tlvHead t q) (tlvWire t p) := by
  have hl := h.matches.length
  unfold tlvHead tlvWire
  refine (written_byte t).append (IsWritten.append ?_ h)
  rw [← hl, Nat.mul_div_cancel_left _ (by decide)]
  exact written_nat rfl

theorem tlv_written (x : TlvPacket) (ht : TlvTyped x) (hf : TlvFieldsFit x.fields)
    (hp : x.payload = [] ∨ (x.fields ≠ .rssi [] ∧ x.fields ≠ .aoa [])) :
    ∃ b, x.serialize = some b ∧ IsWritten (tlvFieldsBits x.fields) b := by
  obtain ⟨own, h1, h2⟩ := fields_written hf
  have hl := h2.matches.length
  have hb := body_length hf
  have hne : x.fields ≠ .bare := by rintro h; rw [h] at hf; exact hf
  have htt : x.t = x.fields.type := by
    unfold TlvTyped at ht
    split at ht
    · exact ht.elim
    all_goals (rename_i e; rw [ht, e]; rfl)
  have hsel : own = if own = [] then x.payload else own := by
    split
    · rename_i e
      rcases hp with hp | ⟨k1, k2⟩
      · rw [hp, e]
      · exfalso
        subst e
        cases hx : x.fields with
        | bare => exact hne hx
        | rssi b =>
          rw [hx] at h2 h1 k1
          simp only [TlvFields.bytes, Option.some.injEq] at h1
          subst h1
          exact k1 rfl
        | aoa l =>
          rw [hx] at hl k2
          cases l with
          | nil => exact k2 rfl
          | cons y l => simp only [TlvFields.body, aoaPat, List.flatMap_cons, List.length_append, nat_length, List.length_nil] at hl; omega
        | cir l =>
          rw [hx] at hl
          simp only [TlvFields.body, listPat, List.length_append, nat_length, List.length_nil] at hl; omega
    · rfl
  refine ⟨_, serialize_eq x h1 (by rw [htt]; have := type_le x.fields; omega) hsel (by omega), ?_⟩
  rw [tlvFields_pat hne, htt]
  exact wire_written _ h2

theorem bareTlv_written (x : TlvPacket) (h : x.fields = .bare) (ht : x.t < 2 ^ 8) (hp : x.payload.length < 2 ^ 16) :
    ∃ b, x.serialize = some b ∧ IsWritten (bareTlvBits x.t x.payload) b := by
  refine ⟨_, serialize_eq x (own := []) (by rw [h]; rfl) ht (by rw [if_pos rfl]) hp, ?_⟩
  rw [bareTlv_pat]
  exact wire_written _ (written_octets _)

theorem kept_written (x : TlvPacket) (h : x.fields = .rssi [] ∨ x.fields = .aoa []) (ht : x.t < 2 ^ 8)
    (hp : x.payload.length < 2 ^ 16) : ∃ b, x.serialize = some b ∧ IsWritten (bareTlvBits x.t x.payload) b := by
  refine ⟨_, serialize_eq x (own := []) (by rcases h with h | h <;> (rw [h]; rfl)) ht (by rw [if_pos rfl]) hp, ?_⟩
  rw [bareTlv_pat]
  exact wire_written _ (written_octets _)

end Pica.Py
