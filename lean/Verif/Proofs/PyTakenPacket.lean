import Verif.Proofs.PyTaken
/-! Bytes with the layout of an object are read as the object: whole packets. -/

namespace Pica.Py
open Spec
open Spec.Pdl (Pattern nat gap octets Agrees Matches Takes IsWritten takes_nil takes_octets takes_all takes_gap takes_ofLe nat_add nat_and nat_inj nat_length octets_ofLe octets_length matches_octets)

set_option linter.unusedSimpArgs false

/-- The notifications with measurements. -/
def IsInfo : Obj → Prop
  | .shortMacTwoWaySessionInfoNtf .. | .extendedMacTwoWaySessionInfoNtf .. | .shortMacDlTDoASessionInfoNtf ..
  | .extendedMacDlTDoASessionInfoNtf .. | .shortMacOwrAoaSessionInfoNtf .. | .extendedMacOwrAoaSessionInfoNtf ..
  | .sessionInfoNtf .. => True
  | _ => False

macro "fullp" : tactic => `(tactic| repeat (first
  | (with_reducible exact full_nat _ _) | (with_reducible exact full_octets _) | (with_reducible exact full_nil)
  | (with_reducible exact full_list full_tlv _) | (with_reducible exact full_list (full_nat 8) _)
  | (with_reducible exact full_list full_idStatus _) | (with_reducible exact full_list full_controleeStatus _)
  | (with_reducible exact full_list full_frameReport _) | (with_reducible apply full_append)))

theorem full_body {o : Obj} (h : ¬ IsInfo o) : Full (bodyPat o) := by
  cases o with
  | command c => cases c <;> simp only [bodyPat, commandPat] <;> fullp
  | shortMacTwoWaySessionInfoNtf => exact (h trivial).elim
  | extendedMacTwoWaySessionInfoNtf => exact (h trivial).elim
  | shortMacDlTDoASessionInfoNtf => exact (h trivial).elim
  | extendedMacDlTDoASessionInfoNtf => exact (h trivial).elim
  | shortMacOwrAoaSessionInfoNtf => exact (h trivial).elim
  | extendedMacOwrAoaSessionInfoNtf => exact (h trivial).elim
  | sessionInfoNtf => exact (h trivial).elim
  | _ => simp only [bodyPat] <;> fullp

theorem fw_info {n t r i type ind : Nat} {q : Pattern} {s : Bytes} (hf : InfoFits n t r i) (ht : type ∈ rangingMeasurementTypes)
    (hi : ind ∈ macAddressIndicators) (h : Takes (infoPat n t r i type ind q) s []) :
    sessionInfoNtf 3 0 s = some ((infoChild n t r i type ind (s.drop 24)).getD (.sessionInfoNtf n t r i type ind (s.drop 24)), []) ∧
      Takes q (s.drop 24) [] := by
  obtain ⟨f0, f1, f2, f3⟩ := hf
  have f4 := measurementType_lt ht
  have f5 := indicator_lt hi
  replace h : Takes _ (s.drop 0) [] := h
  unfold infoPat at h
  obtain ⟨l0, e0, h⟩ := tk_le (i := 0) (j := 4) h f0 (by omega) (by omega) (by omega)
  obtain ⟨l1, e1, h⟩ := tk_le (i := 4) (j := 8) h f1 (by omega) (by omega) (by omega)
  obtain ⟨l2, e2, h⟩ := tk_idx (i := 8) h f2 (by omega)
  obtain ⟨l3, e3, h⟩ := tk_le (i := 9) (j := 13) h f3 (by omega) (by omega) (by omega)
  obtain ⟨l4, e4, h⟩ := tk_idx (i := 13) h f4 (by omega)
  obtain ⟨l5, h⟩ := tk_gap (i := 14) (j := 15) h (by omega) (by omega) (by omega)
  obtain ⟨l6, e6, h⟩ := tk_idx (i := 15) h f5 (by omega)
  obtain ⟨l7, h⟩ := tk_gap (i := 16) (j := 24) h (by omega) (by omega) (by omega)
  refine ⟨?_, h⟩
  unfold sessionInfoNtf
  rw [forbid_false (by simp), need_of_le l7, e0, e1, e2, e3, e4, e6, fromInt_of ht, fromInt_of hi]
  rfl

theorem fw_counted' {α : Type} {p : Bytes → Option (α × Bytes)} {pat : α → Pattern} {size : Nat} {k : List α → Bytes → Obj}
    {l : List α} {v : Bytes} {s : Bytes} (hl : l.length ≤ 255) (hp : ∀ x ∈ l, ∀ s r, Takes (pat x) s r → p s = some (x, r))
    (hk : ∀ x ∈ l, (pat x).length = 8 * size) (h : Takes (listPat pat l ++ octets v) s []) :
    counted p size k s = some (k l v, []) := by
  replace h : Takes _ (s.drop 0) [] := h
  unfold listPat at h
  rw [List.append_assoc] at h
  obtain ⟨l0, e0, h⟩ := tk_idx (i := 0) h (by omega) (by omega)
  obtain ⟨l1, e1, h⟩ := fw_records hp hk h
  obtain ⟨b, hb, hm⟩ := h
  have := matches_octets.1 hm
  subst this
  unfold counted
  rw [need_of_le l0, e0]
  simp only [Option.bind_eq_bind, Option.bind_some]
  rw [need_of_le l1, e1]
  simp only [Option.bind_some, hb, List.append_nil]
  rfl

theorem bits_length (m : DlTdoa) : (dlTdoaBitsPat m).length = 16 := by simp [dlTdoaBitsPat, nat_length, gap]

theorem dlTdoaPat_length {m : DlTdoa} (h : DlTdoaFits m) : ∃ k, (dlTdoaPat m).length = 8 * k := by
  have := (codec_dlTdoa.1 m h)
  obtain ⟨b, hb, _⟩ := this
  exact ⟨b.length, (wr_dlTdoa h hb).matches.length.symm⟩

theorem fw_dlTDoAs' {w n : Nat} (hn : n = 8 * w) {k : List (Nat × DlTdoa) → Obj} {l : List (Nat × DlTdoa)} {s : Bytes}
    (hl : Listed (AddressedFits n) l) (h : Takes (listPat (addressedPat n) l) s []) : dlTDoAs w k s = some (k l, []) := by
  replace h : Takes _ (s.drop 0) [] := h
  unfold listPat at h
  have h0 := hl.1
  obtain ⟨l0, e0, h⟩ := tk_idx (i := 0) h (by omega) (by omega)
  have h1 := fw_elements (p := addressedDlTdoa w) (fun x hx => fw_addressed hn (hl.2 x hx)) (fun x hx => by
    obtain ⟨k, hk⟩ := dlTdoaPat_length (hl.2 x hx).2
    exact ⟨w + k, by rw [addressedPat, List.length_append, nat_length, hk]; omega⟩) h
  unfold dlTDoAs
  rw [need_of_le l0, e0]
  simp only [Option.bind_eq_bind, Option.bind_some, h1]
  rfl

theorem measurementPat_length (w z : Nat) (m : Measurement) : (measurementPat w z m).length = w + 144 + z := by
  simp [measurementPat, measurementFront, nat_length, gap]; omega

theorem owrAoaPat_length (w : Nat) (m : OwrAoa) : (owrAoaPat w m).length = w + 88 := by
  simp [owrAoaPat, nat_length]

/-- The notifications with measurements are read. -/
theorem fw_isInfo {o : Obj} (ho : ObjFits o) (hi : IsInfo o) {p : Bytes} (h : Matches (bodyPat o) p) :
    sessionInfoNtf 3 0 p = some (o, []) := by
  have h := h.takes
  cases o with
  | shortMacTwoWaySessionInfoNtf n t r i l v =>
    obtain ⟨h1, h2⟩ := ho
    obtain ⟨k1, k2⟩ := fw_info (type := 1) (ind := 0) h1 (by decide) (by decide) h
    have key : shortMacTwoWaySessionInfoNtf 1 0 (.shortMacTwoWaySessionInfoNtf n t r i) (p.drop 24) = some (.shortMacTwoWaySessionInfoNtf n t r i l v, []) := by
      unfold shortMacTwoWaySessionInfoNtf
      rw [forbid_false (by simp)]
      exact fw_counted' h2.1 (fun x hx => fw_measurement (h2.2 x hx)) (fun x hx => by rw [measurementPat_length]) k2
    rw [k1]
    simp only [infoChild, key]
    rfl
  | extendedMacTwoWaySessionInfoNtf n t r i l v =>
    obtain ⟨h1, h2⟩ := ho
    obtain ⟨k1, k2⟩ := fw_info (type := 1) (ind := 1) h1 (by decide) (by decide) h
    have key : extendedMacTwoWaySessionInfoNtf 1 1 (.extendedMacTwoWaySessionInfoNtf n t r i) (p.drop 24) = some (.extendedMacTwoWaySessionInfoNtf n t r i l v, []) := by
      unfold extendedMacTwoWaySessionInfoNtf
      rw [forbid_false (by simp)]
      exact fw_counted' h2.1 (fun x hx => fw_extMeasurement (h2.2 x hx)) (fun x hx => by rw [measurementPat_length]) k2
    rw [k1]
    simp only [infoChild, key]
    rfl
  | shortMacOwrAoaSessionInfoNtf n t r i l v =>
    obtain ⟨h1, h2⟩ := ho
    obtain ⟨k1, k2⟩ := fw_info (type := 3) (ind := 0) h1 (by decide) (by decide) h
    have key : shortMacOwrAoaSessionInfoNtf 3 0 (.shortMacOwrAoaSessionInfoNtf n t r i) (p.drop 24) = some (.shortMacOwrAoaSessionInfoNtf n t r i l v, []) := by
      unfold shortMacOwrAoaSessionInfoNtf
      rw [forbid_false (by simp)]
      exact fw_counted' h2.1 (fun x hx => fw_owrAoa (h2.2 x hx)) (fun x hx => by rw [owrAoaPat_length]) k2
    rw [k1]
    simp only [infoChild, key]
    rfl
  | extendedMacOwrAoaSessionInfoNtf n t r i l v =>
    obtain ⟨h1, h2⟩ := ho
    obtain ⟨k1, k2⟩ := fw_info (type := 3) (ind := 1) h1 (by decide) (by decide) h
    have key : extendedMacOwrAoaSessionInfoNtf 3 1 (.extendedMacOwrAoaSessionInfoNtf n t r i) (p.drop 24) = some (.extendedMacOwrAoaSessionInfoNtf n t r i l v, []) := by
      unfold extendedMacOwrAoaSessionInfoNtf
      rw [forbid_false (by simp)]
      exact fw_counted' h2.1 (fun x hx => fw_extOwrAoa (h2.2 x hx)) (fun x hx => by rw [owrAoaPat_length]) k2
    rw [k1]
    simp only [infoChild, key]
    rfl
  | shortMacDlTDoASessionInfoNtf n t r i l =>
    obtain ⟨h1, h2⟩ := ho
    obtain ⟨k1, k2⟩ := fw_info (type := 2) (ind := 0) h1 (by decide) (by decide) h
    have key : shortMacDlTDoASessionInfoNtf 2 0 (.shortMacDlTDoASessionInfoNtf n t r i) (p.drop 24) = some (.shortMacDlTDoASessionInfoNtf n t r i l, []) := by
      unfold shortMacDlTDoASessionInfoNtf
      rw [forbid_false (by simp)]
      exact fw_dlTDoAs' (w := 2) (by decide) h2 k2
    rw [k1]
    simp only [infoChild, key]
    rfl
  | extendedMacDlTDoASessionInfoNtf n t r i l =>
    obtain ⟨h1, h2⟩ := ho
    obtain ⟨k1, k2⟩ := fw_info (type := 2) (ind := 1) h1 (by decide) (by decide) h
    have key : extendedMacDlTDoASessionInfoNtf 2 1 (.extendedMacDlTDoASessionInfoNtf n t r i) (p.drop 24) = some (.extendedMacDlTDoASessionInfoNtf n t r i l, []) := by
      unfold extendedMacDlTDoASessionInfoNtf
      rw [forbid_false (by simp)]
      exact fw_dlTDoAs' (w := 8) (by decide) h2 k2
    rw [k1]
    simp only [infoChild, key]
    rfl
  | sessionInfoNtf => exact ho.elim
  | _ => exact hi.elim

/-- The classes of a group read the object. -/
theorem fw_groupChild {o : Obj} (ho : ObjFits o) (hd : ¬ IsData o) (hn : NotMulticastRsp o) {p : Bytes}
    (h : Matches (bodyPat o) p) : groupChild o.code.1 o.code.2.1 o.code.2.2 p = some o := by
  by_cases hi : IsInfo o
  · have h1 := fw_isInfo ho hi h
    have hc : o.code = (2, 3, 0) := by
      cases o with
      | command c => exact hi.elim
      | _ => first | rfl | exact hi.elim
    rw [hc]
    show sessionControlChild 3 0 p = some o
    simp only [sessionControlChild, h1]
    rfl
  · obtain ⟨b, h1, h2⟩ := chosen_of ho hd
    have h3 := wr_body (Or.inl (Or.inl ho)) hn h1
    rw [full_unique (full_body hi) h3 h]
    exact h2

/-! ### Heads -/

theorem idx_matches {s : Bytes} (h : 1 ≤ s.length) : Agrees (nat 8 (idx s 0)) (Spec.Pdl.bitsOf (s.take 1)) := by
  have e : s.take 1 = [s.getD 0 0] := by
    cases s with
    | nil => simp at h
    | cons x s => rfl
  rw [e]
  exact matches_octets (b := [s.getD 0 0]) |>.2 rfl

theorem fw_first {g m : Nat} (hg : g < 16) (hm : m < 8) {q : Pattern} {s r : Bytes} (h : Takes (firstPat g m ++ q) s r) :
    1 ≤ s.length ∧ idx s 0 &&& 0xf = g ∧ (idx s 0 >>> 5) &&& 0x7 = m ∧ Takes q (s.drop 1) r := by
  obtain ⟨l0, h0, h⟩ := takes_split h (k := 1) (by simp [firstPat, nat_length, gap])
  have h' := idx_matches l0
  rw [nat_first, ← List.append_nil (nat 3 _)] at h'
  unfold firstPat at h0
  rw [← List.append_nil (nat 3 _)] at h0
  obtain ⟨e0, h0, h'⟩ := agrees_peel hg h0 h'
  obtain ⟨h0, h'⟩ := agrees_skip h0 h'
  obtain ⟨e1, _, _⟩ := agrees_peel hm h0 h'
  exact ⟨l0, e0, e1, h⟩

theorem fw_opcode {oid : Nat} (ho : oid < 64) {l : List Nat} (hl : oid ∈ l) {q : Pattern} {s r : Bytes}
    (h : Takes (opcodePat oid ++ q) s r) : opcode l s = some (oid, s.drop 3) ∧ Takes q (s.drop 3) r := by
  unfold opcodePat at h
  rw [← List.append_assoc (nat 6 oid), List.append_assoc] at h
  obtain ⟨l0, h0, h⟩ := takes_split h (k := 1) (by simp [nat_length, gap])
  obtain ⟨l1, h⟩ := tk_gap (i := 1) (j := 3) h (by omega) (by omega) l0
  have h' := idx_matches l0
  rw [show (8 : Nat) = 6 + 2 from rfl, nat_add] at h'
  obtain ⟨e0, _, _⟩ := agrees_peel ho h0 h'
  refine ⟨?_, h⟩
  unfold opcode
  rw [need_of_le l1, show idx s 0 &&& 0x3f = oid from e0, fromInt_of hl]
  rfl

theorem fw_dataHead {d b m : Nat} (hd : d < 16) (hb : b < 2) (hm : m < 8) {q : Pattern} {s r : Bytes}
    (h : Takes (dataPat d b m ++ q) s r) : 4 ≤ s.length ∧ idx s 0 &&& 0xf = d ∧ (idx s 0 >>> 4) &&& 0x1 = b ∧
      (idx s 0 >>> 5) &&& 0x7 = m ∧ Takes q (s.drop 4) r := by
  have e : dataPat d b m ++ q = (nat 4 d ++ (nat 1 b ++ nat 3 m)) ++ (gap 24 ++ q) := by
    unfold dataPat
    rw [show (24 : Nat) = 8 + 16 from rfl, gap_add]
    simp only [List.append_assoc]
  rw [e] at h
  obtain ⟨l0, h0, h⟩ := takes_split h (k := 1) (by simp [nat_length])
  obtain ⟨l1, h⟩ := tk_gap (i := 1) (j := 4) h (by omega) (by omega) l0
  have h' := idx_matches l0
  rw [nat_first, ← List.append_nil (nat 3 _)] at h'
  rw [← List.append_nil (nat 3 _)] at h0
  obtain ⟨e0, h0, h'⟩ := agrees_peel hd h0 h'
  obtain ⟨e1, h0, h'⟩ := agrees_peel hb h0 h'
  obtain ⟨e2, _, _⟩ := agrees_peel hm h0 h'
  exact ⟨l1, e0, e1, e2, h⟩

/-- Bytes with the layout of a message are read as the message. -/
theorem fw_control {o : Obj} (ho : ObjFits o) (hd : ¬ IsData o) (hn : NotMulticastRsp o) {s : Bytes}
    (h : Matches (layout o) s) : parseControl s = some o := by
  have hv := validCode_of ho hd
  have hh : headPat o = firstPat o.code.1 o.code.2.1 ++ opcodePat o.code.2.2 := headPat_of hd (by
    rintro g m p rfl
    exact ho)
  rw [layout_eq, hh, List.append_assoc] at h
  have hc : ∀ p, Matches (bodyPat o) p → groupChild o.code.1 o.code.2.1 o.code.2.2 p = some o :=
    fun p => fw_groupChild ho hd hn
  generalize bodyPat o = q at h hc
  generalize o.code = c at h hc hv
  obtain ⟨g, m, oid⟩ := c
  dsimp only at h hc
  simp only [validCode, Bool.and_eq_true, Bool.or_eq_true, decide_eq_true_eq] at hv
  obtain ⟨hm, hv⟩ := hv
  have hm8 : m < 8 := (by decide : ∀ m ∈ messageTypes, m < 8) m hm
  have key : ∀ (l : List Nat), g ∈ groupIds → oid ∈ l → (∀ x ∈ l, x < 64) → (∀ x ∈ groupIds, x < 16) →
      1 ≤ s.length ∧ idx s 0 &&& 0xf = g ∧ (idx s 0 >>> 5) &&& 0x7 = m ∧ ∃ p, opcode l (s.drop 1) = some (oid, p) ∧
        groupChild g m oid p = some o := by
    intro l h1 h2 h3 h4
    obtain ⟨k1, k2, k3, k4⟩ := fw_first (h4 g h1) hm8 h.takes
    obtain ⟨k5, k6⟩ := fw_opcode (h3 oid h2) h2 k4
    exact ⟨k1, k2, k3, _, k5, hc _ k6.matches⟩
  rcases hv with ((⟨rfl, hv⟩ | ⟨rfl, hv⟩) | ⟨rfl, hv⟩) | ⟨rfl, hv⟩
  · obtain ⟨k1, k2, k3, p, k4, k5⟩ := key coreOpcodes (by decide) hv (by decide) (by decide)
    replace k5 : coreChild m oid p = some o := k5
    have e : corePacket 0 m (s.drop 1) = some (o, []) := by
      unfold corePacket
      rw [forbid_false (by simp), k4]
      simp only [Option.bind_eq_bind, Option.bind_some, k5]
      rfl
    unfold parseControl
    rw [need_of_le k1, k2, k3, fromInt_of (by decide), fromInt_of hm]
    simp only [Option.bind_eq_bind, Option.bind_some, e]
    rfl
  · obtain ⟨k1, k2, k3, p, k4, k5⟩ := key sessionConfigOpcodes (by decide) hv (by decide) (by decide)
    replace k5 : sessionConfigChild m oid p = some o := k5
    have e : sessionConfigPacket 1 m (s.drop 1) = some (o, []) := by
      unfold sessionConfigPacket
      rw [forbid_false (by simp), k4]
      simp only [Option.bind_eq_bind, Option.bind_some, k5]
      rfl
    unfold parseControl
    rw [need_of_le k1, k2, k3, fromInt_of (by decide), fromInt_of hm]
    simp only [Option.bind_eq_bind, Option.bind_some, e]
    have : corePacket 1 m (s.drop 1) = none := by unfold corePacket; rw [forbid_true (by simp)]; rfl
    rw [this]
    rfl
  · obtain ⟨k1, k2, k3, p, k4, k5⟩ := key sessionControlOpcodes (by decide) hv (by decide) (by decide)
    replace k5 : sessionControlChild m oid p = some o := k5
    have e : sessionControlPacket 2 m (s.drop 1) = some (o, []) := by
      unfold sessionControlPacket
      rw [forbid_false (by simp), k4]
      simp only [Option.bind_eq_bind, Option.bind_some, k5]
      rfl
    unfold parseControl
    rw [need_of_le k1, k2, k3, fromInt_of (by decide), fromInt_of hm]
    simp only [Option.bind_eq_bind, Option.bind_some, e]
    have : corePacket 2 m (s.drop 1) = none := by unfold corePacket; rw [forbid_true (by simp)]; rfl
    rw [this]
    have : sessionConfigPacket 2 m (s.drop 1) = none := by unfold sessionConfigPacket; rw [forbid_true (by simp)]; rfl
    rw [this]
    rfl
  · obtain ⟨k1, k2, k3, p, k4, k5⟩ := key androidOpcodes (by decide) hv (by decide) (by decide)
    replace k5 : androidChild m oid p = some o := k5
    have e : androidPacket 12 m (s.drop 1) = some (o, []) := by
      unfold androidPacket
      rw [forbid_false (by simp), k4]
      simp only [Option.bind_eq_bind, Option.bind_some, k5]
      rfl
    unfold parseControl
    rw [need_of_le k1, k2, k3, fromInt_of (by decide), fromInt_of hm]
    simp only [Option.bind_eq_bind, Option.bind_some, e]
    have : corePacket 12 m (s.drop 1) = none := by unfold corePacket; rw [forbid_true (by simp)]; rfl
    rw [this]
    have : sessionConfigPacket 12 m (s.drop 1) = none := by unfold sessionConfigPacket; rw [forbid_true (by simp)]; rfl
    rw [this]
    have : sessionControlPacket 12 m (s.drop 1) = none := by unfold sessionControlPacket; rw [forbid_true (by simp)]; rfl
    rw [this]
    rfl

theorem fw_data {o : Obj} (ho : ObjFits o) (hd : IsData o) {s : Bytes} (h : Matches (layout o) s) : parseData s = some o := by
  rw [layout_eq] at h
  have hf : Full (bodyPat o) := full_body (by
    cases o with
    | dataMessageSnd => exact fun h => h
    | dataMessageRcv => exact fun h => h
    | dataPacket => exact fun h => h
    | _ => exact hd.elim)
  obtain ⟨b, x, k1, k2, k3, k4⟩ := written_of ho
  have hw := wr_body (Or.inl (Or.inl ho)) (by rintro s rfl; exact hd) k1
  have key : ∀ {d pb : Nat}, headPat o = dataPat d pb 0 → d ∈ dataPacketFormats → pb ≤ 1 →
      (∀ p, p = x → dataChild d pb 0 p = some o) → parseData s = some o := by
    intro d pb hh h1 h2 h3
    rw [hh] at h
    obtain ⟨l, e0, e1, e2, ht⟩ := fw_dataHead ((by decide : ∀ d ∈ dataPacketFormats, d < 16) d h1) (by omega) (by omega) h.takes
    have e3 := h3 _ (full_unique hf hw ht.matches)
    unfold parseData
    rw [need_of_le l, e0, e1, e2, fromInt_of h1, fromInt_of (show pb ∈ pbfs by rcases Nat.le_one_iff_eq_zero_or_eq_one.1 h2 with rfl | rfl <;> decide),
      fromInt_of (by decide)]
    unfold dataChild at e3
    simp only [Option.bind_eq_bind, Option.bind_some, e3]
    rfl
  cases o with
  | dataMessageSnd pb hh d n v =>
    refine key rfl (by decide) ho.1 ?_
    rintro p rfl
    obtain ⟨y, j1, j2⟩ := reads_snd ho
    rw [k1] at j1
    cases j1
    simp only [dataChild, j2]
    rfl
  | dataMessageRcv pb hh d a n v =>
    refine key rfl (by decide) ho.1 ?_
    rintro p rfl
    obtain ⟨y, j1, j2⟩ := reads_rcv ho
    rw [k1] at j1
    cases j1
    simp only [dataChild, j2]
    rfl
  | dataPacket => exact ho.elim
  | _ => exact hd.elim

/-- Bytes with the layout of an object are read as the object. -/
theorem fw_readAs {o : Obj} (ho : ObjFits o) (hn : NotMulticastRsp o) {s : Bytes} (h : Matches (layout o) s) : ReadAs s o := by
  by_cases hd : IsData o
  · exact Or.inl ⟨hd, fw_data ho hd h⟩
  · exact Or.inr ⟨hd, fw_control ho hd hn h⟩

end Pica.Py
