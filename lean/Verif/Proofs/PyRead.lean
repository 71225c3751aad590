import Verif.Proofs.PyWritten
/-! What the parsers of `uci.py` read has the layout of the packet description. -/

namespace Pica.Py
open Spec
open Spec.Pdl (Pattern nat gap octets Agrees Matches Takes takes_nil takes_octets takes_all takes_gap takes_ofLe nat_add nat_and)

/-! ### Fields -/

theorem drop_eq_of {s : Bytes} {i : Nat} (h : i < s.length) : s.drop i = s.getD i 0 :: s.drop (i + 1) := by
  rw [List.drop_eq_getElem_cons h]
  simp [List.getD, h]

theorem rd_idx {s : Bytes} {i : Nat} (h : i < s.length) : Takes (nat 8 (idx s i)) (s.drop i) (s.drop (i + 1)) :=
  ⟨[s.getD i 0], drop_eq_of h, Spec.Pdl.matches_octets (b := [s.getD i 0]) |>.2 rfl⟩

theorem rd_le {s : Bytes} {i j n : Nat} (h : j ≤ s.length) (hij : i ≤ j) (hn : n = 8 * (j - i)) :
    Takes (nat n (le s i j)) (s.drop i) (s.drop j) := by
  have e : slice s i j = (s.drop i).take (j - i) := by unfold slice; rw [List.drop_take]
  have e2 : s.drop j = (s.drop i).drop (j - i) := by rw [List.drop_drop]; congr 1; omega
  unfold le
  rw [e, e2]
  exact takes_ofLe hn (by rw [List.length_drop]; omega)

theorem rd_gap {s : Bytes} {i j n : Nat} (h : j ≤ s.length) (hij : i ≤ j) (hn : n = 8 * (j - i)) :
    Takes (gap n) (s.drop i) (s.drop j) := by
  have e2 : s.drop j = (s.drop i).drop (j - i) := by rw [List.drop_drop]; congr 1; omega
  rw [e2]
  exact takes_gap hn (by rw [List.length_drop]; omega)

/-- The next field. -/
macro "rdf" : tactic => `(tactic| first
  | (with_reducible exact rd_idx (by omega))
  | (with_reducible exact rd_le (by omega) (by omega) (by decide))
  | (with_reducible refine Spec.Pdl.Takes.append (rd_idx (by omega)) ?_)
  | (with_reducible refine Spec.Pdl.Takes.append (rd_le (by omega) (by omega) (by decide)) ?_))

theorem rd_elements {α : Type} {p : Bytes → Option (α × Bytes)} {pat : α → Pattern}
    (hp : ∀ s x r, p s = some (x, r) → Takes (pat x) s r) {n : Nat} {s : Bytes} {l : List α} {r : Bytes}
    (h : elements p n s = some (l, r)) : l.length = n ∧ Takes (l.flatMap pat) s r := by
  induction n generalizing s l r with
  | zero =>
    simp only [elements, Option.some.injEq, Prod.mk.injEq] at h
    obtain ⟨rfl, rfl⟩ := h
    exact ⟨rfl, takes_nil s⟩
  | succ n ih =>
    simp only [elements, Option.bind_eq_bind, Option.bind_eq_some_iff, Option.pure_def, Option.some.injEq,
      Prod.mk.injEq, Prod.exists] at h
    obtain ⟨x, s', h1, xs, s'', h2, rfl, rfl⟩ := h
    obtain ⟨h3, h4⟩ := ih h2
    exact ⟨by simp [h3], by rw [List.flatMap_cons]; exact (hp _ _ _ h1).append h4⟩

theorem rd_mapM {α : Type} {pat : α → Pattern} {k n i : Nat} {s : Bytes} {g : Nat → Option α} {l : List α}
    (hg : ∀ j < i + n, ∀ x, g j = some x → Takes (pat x) (s.drop (j * k)) (s.drop ((j + 1) * k)))
    (h : (List.range' i n).mapM g = some l) : l.length = n ∧ Takes (l.flatMap pat) (s.drop (i * k)) (s.drop ((i + n) * k)) := by
  induction n generalizing i l with
  | zero =>
    simp only [List.range'_zero, List.mapM_nil, Option.pure_def, Option.some.injEq] at h
    subst h
    exact ⟨rfl, takes_nil _⟩
  | succ n ih =>
    simp only [List.range'_succ, List.mapM_cons, Option.bind_eq_bind, Option.bind_eq_some_iff, Option.pure_def,
      Option.some.injEq] at h
    obtain ⟨x, h1, xs, h2, rfl⟩ := h
    obtain ⟨h3, h4⟩ := ih (i := i + 1) (fun j hj => hg j (by omega)) h2
    refine ⟨by simp [h3], ?_⟩
    rw [List.flatMap_cons]
    have e : i + (n + 1) = i + 1 + n := by omega
    rw [e]
    exact (hg i (by omega) x h1).append h4

theorem rd_records {α : Type} {p : Bytes → Option (α × Bytes)} {pat : α → Pattern}
    (hp : ∀ s x r, p s = some (x, r) → Takes (pat x) s r) {k n : Nat} {s : Bytes} {l : List α}
    (h : records p k n s = some l) : l.length = n ∧ Takes (l.flatMap pat) s (s.drop (n * k)) := by
  unfold records at h
  rw [List.range_eq_range'] at h
  have := rd_mapM (pat := pat) (k := k) (s := s) (fun j hj x hx => by
    unfold parseAll at hx
    split at hx
    · rename_i y e
      simp only [Option.some.injEq] at hx
      subst hx
      obtain ⟨b, hb, hm⟩ := hp _ _ _ e
      rw [List.append_nil] at hb
      subst hb
      refine ⟨_, ?_, hm⟩
      have e1 : slice s (j * k) ((j + 1) * k) = (s.drop (j * k)).take k := by
        unfold slice; rw [List.drop_take, Nat.succ_mul]; congr 1; omega
      have e2 : s.drop ((j + 1) * k) = (s.drop (j * k)).drop k := by rw [List.drop_drop, Nat.succ_mul]
      rw [e1, e2, List.take_append_drop]
    · cases hx) h
  simpa using this

theorem rd_members {m : List Nat} {n : Nat} {s : Bytes} {l : List Nat} (hs : n ≤ s.length) (h : members m n s = some l) :
    l.length = n ∧ Takes (l.flatMap (nat 8)) s (s.drop n) := by
  unfold members at h
  rw [List.range_eq_range'] at h
  have := rd_mapM (pat := nat 8) (k := 1) (s := s) (fun j hj x hx => by
    obtain ⟨_, rfl⟩ := fromInt_iff.1 hx
    rw [Nat.mul_one, Nat.mul_one]
    exact rd_le (by omega) (by omega) (by omega)) h
  simpa using this

/-! ### Structures -/

theorem rd_tlv (s : Bytes) (x : Nat × Bytes) (r : Bytes) (h : tlv s = some (x, r)) : Takes (tlvPat x) s r := by
  simp only [tlv, Option.bind_eq_bind, Option.bind_eq_some_iff, need_iff, Option.pure_def,
    Option.some.injEq, Prod.mk.injEq] at h
  obtain ⟨_, h1, _, h2, rfl, rfl⟩ := h
  have e : ((s.drop 2).take (idx s 1)).length = idx s 1 := by rw [List.length_take]; omega
  show Takes (nat 8 (idx s 0) ++ (nat 8 ((s.drop 2).take (idx s 1)).length ++ octets ((s.drop 2).take (idx s 1)))) (s.drop 0) _
  rw [e]
  rdf; rdf
  exact takes_octets

theorem rd_idStatus (s : Bytes) (x : Nat × Nat) (r : Bytes) (h : idStatus s = some (x, r)) : Takes (idStatusPat x) s r := by
  simp only [idStatus, Option.bind_eq_bind, Option.bind_eq_some_iff, need_iff, Option.pure_def,
    Option.some.injEq, Prod.mk.injEq] at h
  obtain ⟨_, h1, rfl, rfl⟩ := h
  show Takes (nat 8 (idx s 0) ++ nat 8 (idx s 1)) (s.drop 0) _
  rdf; rdf

theorem rd_controleeStatus (s : Bytes) (x : Bytes × Nat) (r : Bytes) (h : controleeStatus s = some (x, r)) :
    Takes (controleeStatusPat x) s r := by
  simp only [controleeStatus, Option.bind_eq_bind, Option.bind_eq_some_iff, need_iff, fromInt_iff, Option.pure_def,
    Option.some.injEq, Prod.mk.injEq] at h
  obtain ⟨_, h1, _, h2, v, ⟨h3, rfl⟩, rfl, rfl⟩ := h
  refine Spec.Pdl.Takes.append takes_octets ?_
  exact rd_idx (s := s.drop 2) (i := 0) (by omega)

theorem rd_measurement (s : Bytes) (x : Measurement) (r : Bytes) (h : measurement s = some (x, r)) :
    Takes (measurementPat 16 88 x) s r := by
  simp only [measurement, Option.bind_eq_bind, Option.bind_eq_some_iff, need_iff, Option.pure_def, Option.some.injEq,
    Prod.mk.injEq] at h
  obtain ⟨_, h1, rfl, rfl⟩ := h
  unfold measurementPat measurementFront
  dsimp only
  refine Spec.Pdl.Takes.append (t := s.drop 20) ?_ (rd_gap (by omega) (by omega) (by decide))
  show Takes _ (s.drop 0) _
  iterate 14 rdf

theorem rd_extMeasurement (s : Bytes) (x : Measurement) (r : Bytes) (h : extMeasurement s = some (x, r)) :
    Takes (measurementPat 64 40 x) s r := by
  simp only [extMeasurement, Option.bind_eq_bind, Option.bind_eq_some_iff, need_iff, Option.pure_def, Option.some.injEq,
    Prod.mk.injEq] at h
  obtain ⟨_, h1, rfl, rfl⟩ := h
  unfold measurementPat measurementFront
  dsimp only
  refine Spec.Pdl.Takes.append (t := s.drop 26) ?_ (rd_gap (by omega) (by omega) (by decide))
  show Takes _ (s.drop 0) _
  iterate 14 rdf

theorem rd_owrAoa (s : Bytes) (x : OwrAoa) (r : Bytes) (h : owrAoa s = some (x, r)) : Takes (owrAoaPat 16 x) s r := by
  simp only [owrAoa, Option.bind_eq_bind, Option.bind_eq_some_iff, need_iff, Option.pure_def, Option.some.injEq,
    Prod.mk.injEq] at h
  obtain ⟨_, h1, rfl, rfl⟩ := h
  unfold owrAoaPat
  dsimp only
  show Takes _ (s.drop 0) _
  iterate 9 rdf

theorem rd_extOwrAoa (s : Bytes) (x : OwrAoa) (r : Bytes) (h : extOwrAoa s = some (x, r)) : Takes (owrAoaPat 64 x) s r := by
  simp only [extOwrAoa, Option.bind_eq_bind, Option.bind_eq_some_iff, need_iff, Option.pure_def, Option.some.injEq,
    Prod.mk.injEq] at h
  obtain ⟨_, h1, rfl, rfl⟩ := h
  unfold owrAoaPat
  dsimp only
  show Takes _ (s.drop 0) _
  iterate 9 rdf

theorem rd_wgs84 (s : Bytes) (x : Bytes) (r : Bytes) (h : wgs84Location s = some (x, r)) : Takes (octets x) s r := by
  simp only [wgs84Location, Option.bind_eq_bind, Option.bind_eq_some_iff, need_iff, Option.pure_def, Option.some.injEq,
    Prod.mk.injEq] at h
  obtain ⟨_, h1, rfl, rfl⟩ := h
  exact takes_octets

theorem rd_relative (s : Bytes) (x : RelativeLocation) (r : Bytes) (h : relativeLocation s = some (x, r)) :
    Takes (relativePat x) s r := by
  simp only [relativeLocation, Option.bind_eq_bind, Option.bind_eq_some_iff, need_iff, Option.pure_def, Option.some.injEq,
    Prod.mk.injEq] at h
  obtain ⟨_, h1, rfl, rfl⟩ := h
  unfold relativePat
  dsimp only
  have e1 := nat_and 28 (le s 0 7)
  have e2 := nat_and 28 (le s 0 7 >>> 28)
  rw [show (0xfffffff : Nat) = 2 ^ 28 - 1 from rfl, e1, e2, ← List.append_assoc, ← nat_add]
  show Takes _ (s.drop 0) _
  rdf; rdf

theorem rd_timestamp {bit : Nat} {s : Bytes} {t : Option Nat × Option Nat} {r : Bytes} (hb : bit < 2)
    (h : timestamp bit s = some (t, r)) : (if t.2 = none then 0 else 1) = bit ∧ Takes (stampPat t.1 t.2) s r := by
  unfold timestamp at h
  split at h
  · simp only [Option.bind_eq_bind, Option.bind_eq_some_iff, need_iff, Option.pure_def, Option.some.injEq,
      Prod.mk.injEq] at h
    obtain ⟨_, h1, rfl, rfl⟩ := h
    exact ⟨by simp_all, takes_ofLe (by decide) h1⟩
  · simp only [Option.bind_eq_bind, Option.bind_eq_some_iff, need_iff, Option.pure_def, Option.some.injEq,
      Prod.mk.injEq] at h
    obtain ⟨_, h1, rfl, rfl⟩ := h
    exact ⟨by simp only [reduceCtorEq, if_false]; omega, takes_ofLe (by decide) h1⟩

theorem rd_times {s : Bytes} {t : DlTdoaTimes} {r : Bytes} (h : dlTdoaTimes s = some (t, r)) :
    Takes (nat 16 t.anchorCfo ++ (nat 16 t.cfo ++ (nat 32 t.initiatorReplyTime ++ (nat 32 t.responderReplyTime ++
      nat 16 t.initiatorResponderTof)))) s r := by
  simp only [dlTdoaTimes, Option.bind_eq_bind, Option.bind_eq_some_iff, need_iff, Option.pure_def, Option.some.injEq,
    Prod.mk.injEq] at h
  obtain ⟨_, h1, rfl, rfl⟩ := h
  show Takes _ (s.drop 0) _
  dsimp only
  iterate 5 rdf

theorem rd_tail {nw nr na : Nat} {s : Bytes} {l : List Bytes × List RelativeLocation × Bytes} {r : Bytes}
    (h : dlTdoaTail nw nr na s = some (l, r)) : l.1.length = nw ∧ l.2.1.length = nr ∧ l.2.2.length = na ∧
      Takes (l.1.flatMap octets ++ (l.2.1.flatMap relativePat ++ octets l.2.2)) s r := by
  simp only [dlTdoaTail, Option.bind_eq_bind, Option.bind_eq_some_iff, need_iff, Option.pure_def, Option.some.injEq,
    Prod.mk.injEq] at h
  obtain ⟨_, _, ws, h1, _, _, rs, h2, _, h3, rfl, rfl⟩ := h
  obtain ⟨k1, k2⟩ := rd_records rd_wgs84 h1
  obtain ⟨k3, k4⟩ := rd_records rd_relative h2
  exact ⟨k1, k3, by simp only [List.length_take]; omega, k2.append (k4.append takes_octets)⟩

/-! ### Bits nobody reads -/

/-- Whatever agrees with the one agrees with the other. -/
def Looser (p q : Pattern) : Prop := p.length = q.length ∧ ∀ b, Agrees p b → Agrees q b

theorem looser_refl (p : Pattern) : Looser p p := ⟨rfl, fun _ h => h⟩

theorem looser_gap (n v : Nat) : Looser (nat n v) (gap n) :=
  ⟨by rw [Spec.Pdl.nat_length]; simp [gap], fun b h =>
    Spec.Pdl.agrees_gap (by have := Spec.Pdl.agrees_length h; rw [Spec.Pdl.nat_length] at this; omega)⟩

theorem Looser.append {p q p' q' : Pattern} (h : Looser p q) (h' : Looser p' q') : Looser (p ++ p') (q ++ q') := by
  refine ⟨by simp [h.1, h'.1], fun b hb => ?_⟩
  obtain ⟨h1, h2⟩ := Spec.Pdl.agrees_split hb
  have := Spec.Pdl.agrees_append (h.2 _ h1) (h'.2 _ h2)
  rwa [List.take_append_drop] at this

theorem Looser.takes {p q : Pattern} (h : Looser p q) {s r : Bytes} (ht : Takes p s r) : Takes q s r := by
  obtain ⟨b, hb, hm⟩ := ht
  exact ⟨b, hb, h.2 _ hm⟩

theorem nat_bits16 (v : Nat) : nat 16 v = nat 1 v ++ (nat 1 (v >>> 1) ++ (nat 1 (v >>> 2) ++ (nat 1 (v >>> 3) ++
    (nat 1 (v >>> 4) ++ (nat 1 (v >>> 5) ++ (nat 1 (v >>> 6) ++ (nat 4 (v >>> 7) ++ nat 5 (v >>> 11)))))))) := by
  rw [show (16 : Nat) = 1 + (1 + (1 + (1 + (1 + (1 + (1 + (4 + 5))))))) from rfl]
  simp only [nat_add, ← Nat.shiftRight_add]

theorem nat_one (x : Nat) : nat 1 (x &&& 0x1) = nat 1 x := nat_and 1 x
theorem nat_four (x : Nat) : nat 4 (x &&& 0xf) = nat 4 x := nat_and 4 x

theorem and_one_lt (x : Nat) : x &&& 0x1 < 2 := by rw [Nat.and_one_is_mod]; omega

theorem rd_dlTdoa (s : Bytes) (x : DlTdoa) (r : Bytes) (h : dlTdoa s = some (x, r)) : Takes (dlTdoaPat x) s r := by
  simp only [dlTdoa, Option.bind_eq_bind, Option.bind_eq_some_iff, need_iff, Option.pure_def, Option.some.injEq,
    Prod.mk.injEq, Prod.exists] at h
  obtain ⟨_, h0, tx1, tx2, s1, h1, rx1, rx2, s2, h2, t, s3, h3, ws, rs, na, s4, h4, rfl, rfl⟩ := h
  obtain ⟨a1, a2⟩ := rd_timestamp (and_one_lt _) h1
  obtain ⟨b1, b2⟩ := rd_timestamp (and_one_lt _) h2
  have c := rd_times h3
  obtain ⟨d1, d2, d3, d4⟩ := rd_tail h4
  dsimp only at a1 a2 b1 b2 d1 d2 d3 d4
  unfold dlTdoaPat
  refine Spec.Pdl.Takes.append (t := s.drop 2) ?_ (Spec.Pdl.Takes.append (t := s.drop 4) ?_
    (Spec.Pdl.Takes.append (t := s.drop 15) ?_ (Spec.Pdl.Takes.append a2 (Spec.Pdl.Takes.append b2 (Spec.Pdl.Takes.append c d4)))))
  · show Takes _ (s.drop 0) _
    dsimp only
    rdf; rdf
  · have e : Takes (nat 16 (le s 2 4)) (s.drop 2) (s.drop 4) := rd_le (by omega) (by omega) (by decide)
    refine Looser.takes ?_ e
    rw [nat_bits16]
    unfold dlTdoaBitsPat
    dsimp only
    rw [a1, b1, d1, d2, d3, nat_one, nat_one, nat_one, nat_one, nat_one, nat_four]
    exact (looser_refl _).append ((looser_refl _).append ((looser_gap 1 _).append ((looser_refl _).append
      ((looser_gap 1 _).append ((looser_refl _).append ((looser_refl _).append ((looser_refl _).append (looser_gap 5 _))))))))
  · unfold dlTdoaFront
    dsimp only
    iterate 8 rdf

theorem rd_addressed {w n : Nat} (hn : n = 8 * w) (s : Bytes) (x : Nat × DlTdoa) (r : Bytes)
    (h : addressedDlTdoa w s = some (x, r)) : Takes (addressedPat n x) s r := by
  simp only [addressedDlTdoa, Option.bind_eq_bind, Option.bind_eq_some_iff, need_iff, Option.pure_def, Option.some.injEq,
    Prod.mk.injEq, Prod.exists] at h
  obtain ⟨_, h1, m, r, h2, rfl, rfl⟩ := h
  show Takes _ (s.drop 0) _
  exact Spec.Pdl.Takes.append (rd_le h1 (Nat.zero_le _) hn) (rd_dlTdoa _ _ _ h2)

theorem rd_frameReportTlv (s : Bytes) (x : Nat × Bytes) (r : Bytes) (h : frameReportTlv s = some (x, r)) :
    Takes (frameReportTlvPat x) s r := by
  simp only [frameReportTlv, Option.bind_eq_bind, Option.bind_eq_some_iff, need_iff, fromInt_iff, Option.pure_def,
    Option.some.injEq, Prod.mk.injEq] at h
  obtain ⟨_, h1, v, ⟨h2, rfl⟩, _, h3, rfl, rfl⟩ := h
  have e : ((s.drop 3).take (le s 1 3)).length = le s 1 3 := by rw [List.length_take]; omega
  unfold frameReportTlvPat
  dsimp only
  rw [e]
  show Takes _ (s.drop 0) _
  rdf; rdf
  exact takes_octets

theorem rd_frameReport (s : Bytes) (x : FrameReport) (r : Bytes) (h : frameReport s = some (x, r)) :
    Takes (frameReportPat x) s r := by
  simp only [frameReport, Option.bind_eq_bind, Option.bind_eq_some_iff, need_iff, Option.pure_def,
    Option.some.injEq, Prod.mk.injEq, Prod.exists] at h
  obtain ⟨_, h1, l, r', h2, rfl, rfl⟩ := h
  obtain ⟨h3, h4⟩ := rd_elements rd_frameReportTlv h2
  unfold frameReportPat listPat
  dsimp only
  rw [h3]
  show Takes _ (s.drop 0) _
  rdf; rdf; rdf; rdf
  exact h4

end Pica.Py
