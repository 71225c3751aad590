import Verif.Proofs.PyStructs
/-! The controlees of a multicast update, and the values in a report of a frame. -/

namespace Pica.Py
open Spec
open Spec.Pdl (Pattern nat gap octets Agrees Matches Takes IsWritten takes_nil takes_octets takes_all takes_gap takes_ofLe nat_add nat_and nat_inj nat_length octets_ofLe octets_length matches_octets written_octets written_nat written_byte written_gap written_nil patterns Field.pattern Values.int Values.get Values.bytes Values.length Values.records)

set_option linter.unusedSimpArgs false

/-! ### Controlees -/

def controleeEntryPat (x : ControleeEntry) : Pattern := octets x.shortAddress ++ (nat 32 x.subsessionId ++ octets x.subsessionKey)

theorem controleeEntry_pat {k : Nat} (hk : k = 0 ∨ k = 16 ∨ k = 32) {x : ControleeEntry} (hx : ControleeEntryFits k x) :
    patterns (controleeEntryValues x) [] (controleeFields k) = controleeEntryPat x := by
  obtain ⟨_, _, h⟩ := hx
  rcases hk with rfl | rfl | rfl
  · have := List.eq_nil_of_length_eq_zero h
    simp [controleeFields, controleeEntryValues, Spec.Pdl.controlee, patterns, Field.pattern, Values.int, Values.get, Values.bytes,
      controleeEntryPat, this, Spec.Pdl.octets_nil]
  · simp [controleeFields, controleeEntryValues, Spec.Pdl.controlee_V2_0_16_Byte_Version, patterns, Field.pattern, Values.int,
      Values.get, Values.bytes, controleeEntryPat]
  · simp [controleeFields, controleeEntryValues, Spec.Pdl.controlee_V2_0_32_Byte_Version, patterns, Field.pattern, Values.int,
      Values.get, Values.bytes, controleeEntryPat]

theorem rd_controleeEntry {k : Nat} (s : Bytes) (x : ControleeEntry) (r : Bytes) (h : controleeEntry k s = some (x, r)) :
    ControleeEntryFits k x ∧ Takes (controleeEntryPat x) s r := by
  simp only [controleeEntry, Option.bind_eq_bind, Option.bind_eq_some_iff, need_iff, Option.pure_def, Option.some.injEq,
    Prod.mk.injEq] at h
  obtain ⟨_, h1, _, h2, _, h3, rfl, rfl⟩ := h
  refine ⟨⟨by rw [List.length_take]; omega, le_lt _ 0 4, by rw [List.length_take]; omega⟩, ?_⟩
  refine Spec.Pdl.Takes.append takes_octets (Spec.Pdl.Takes.append ?_ takes_octets)
  exact rd_le (s := s.drop 2) (i := 0) (j := 4) h2 (by omega) (by decide)

theorem tk_octets {b : Bytes} {q : Pattern} {s r : Bytes} (h : Takes (octets b ++ q) s r) :
    b.length ≤ s.length ∧ s.take b.length = b ∧ Takes q (s.drop b.length) r := by
  obtain ⟨h1, h2, h3⟩ := takes_split h (octets_length b)
  exact ⟨h1, matches_octets.1 h2, h3⟩

theorem fw_controleeEntry {k : Nat} {x : ControleeEntry} (hx : ControleeEntryFits k x) (s r : Bytes)
    (h : Takes (controleeEntryPat x) s r) : controleeEntry k s = some (x, r) := by
  obtain ⟨f0, f1, f2⟩ := hx
  unfold controleeEntryPat at h
  rw [← List.append_nil (octets x.subsessionKey)] at h
  obtain ⟨l0, e0, h⟩ := tk_octets h
  rw [f0] at l0 e0 h
  obtain ⟨l1, e1, h⟩ := tk_le (s := s.drop 2) (i := 0) (j := 4) h f1 (by omega) (by omega) (by omega)
  obtain ⟨l2, e2, h⟩ := tk_octets h
  rw [f2] at l2 e2 h
  unfold controleeEntry
  rw [need_of_le l0, e0]
  simp only [Option.bind_eq_bind, Option.bind_some]
  rw [need_of_le l1, e1]
  simp only [Option.bind_some]
  rw [need_of_le l2, e2, ← tk_end h]
  rfl

theorem wr_controleeEntry (x : ControleeEntry) : IsWritten (controleeEntryPat x) (x.shortAddress ++ int 4 x.subsessionId ++ x.subsessionKey) := by
  rw [List.append_assoc]
  exact (written_octets _).append ((wr_int rfl).append (written_octets _))

theorem follows_controleeEntry {k : Nat} (hk : k = 0 ∨ k = 16 ∨ k = 32) :
    Follows (controleeFields k) controleeEntryValues (ControleeEntryFits k) (controleeEntry k) controleeEntryBytes := by
  constructor
  · intro s x r
    constructor
    · intro h
      obtain ⟨h1, h2⟩ := rd_controleeEntry s x r h
      exact ⟨h1, by rw [controleeEntry_pat hk h1]; exact h2⟩
    · rintro ⟨h1, h2⟩
      rw [controleeEntry_pat hk h1] at h2
      exact fw_controleeEntry h1 s r h2
  · intro x hx
    rw [controleeEntry_pat hk hx]
    exact ⟨_, rfl, wr_controleeEntry x⟩

theorem controleeEntries_pat {k : Nat} (hk : k = 0 ∨ k = 16 ∨ k = 32) {l : List ControleeEntry} (hl : ∀ x ∈ l, ControleeEntryFits k x) :
    patterns (controleesValues l) [] (controleesFields k) = listPat controleeEntryPat l := by
  have e : l.flatMap (fun x => patterns (controleeEntryValues x) [] (controleeFields k)) = l.flatMap controleeEntryPat := by
    rw [List.flatMap_def, List.flatMap_def]
    congr 1
    exact List.map_congr_left fun x hx => controleeEntry_pat hk (hl x hx)
  unfold listPat
  rw [← e]
  rcases hk with rfl | rfl | rfl
  · simp [controleesFields, controleesValues, controleeFields, Spec.Pdl.sessionUpdateControllerMulticastListCmdPayload, patterns, Field.pattern,
      Values.length, Values.get, Values.records, List.flatMap_map]
  · simp [controleesFields, controleesValues, controleeFields, Spec.Pdl.sessionUpdateControllerMulticastListCmd_2_0_16_Byte_Payload, patterns,
      Field.pattern, Values.length, Values.get, Values.records, List.flatMap_map]
  · simp [controleesFields, controleesValues, controleeFields, Spec.Pdl.sessionUpdateControllerMulticastListCmd_2_0_32_Byte_Payload, patterns,
      Field.pattern, Values.length, Values.get, Values.records, List.flatMap_map]

/-- What every element of a list of records satisfies. -/
theorem records_all {α : Type} {p : Bytes → Option (α × Bytes)} {P : α → Prop} (hp : ∀ s x r, p s = some (x, r) → P x) {k n : Nat}
    {s : Bytes} {l : List α} (h : records p k n s = some l) : ∀ x ∈ l, P x := by
  have key : ∀ (js : List Nat) (l : List α), (js.mapM fun n => parseAll p (slice s (n * k) ((n + 1) * k))) = some l → ∀ x ∈ l, P x := by
    intro js
    induction js with
    | nil => intro l h; simp only [List.mapM_nil, Option.pure_def, Option.some.injEq] at h; subst h; simp
    | cons j js ih =>
      intro l h
      simp only [List.mapM_cons, Option.bind_eq_bind, Option.bind_eq_some_iff, Option.pure_def, Option.some.injEq] at h
      obtain ⟨x, h1, xs, h2, rfl⟩ := h
      intro y hy
      rcases List.mem_cons.1 hy with rfl | hy
      · unfold parseAll at h1
        split at h1
        · rename_i z e
          simp only [Option.some.injEq] at h1
          subst h1
          exact hp _ _ _ e
        · cases h1
      · exact ih xs h2 y hy
  exact key _ l h

theorem elements_all {α : Type} {p : Bytes → Option (α × Bytes)} {P : α → Prop} (hp : ∀ s x r, p s = some (x, r) → P x) {n : Nat}
    {s r : Bytes} {l : List α} (h : elements p n s = some (l, r)) : ∀ x ∈ l, P x := by
  induction n generalizing s l with
  | zero => simp only [elements, Option.some.injEq, Prod.mk.injEq] at h; obtain ⟨rfl, rfl⟩ := h; simp
  | succ n ih =>
    simp only [elements, Option.bind_eq_bind, Option.bind_eq_some_iff, Option.pure_def, Option.some.injEq,
      Prod.mk.injEq, Prod.exists] at h
    obtain ⟨x, s', h1, xs, s'', h2, rfl, rfl⟩ := h
    intro y hy
    rcases List.mem_cons.1 hy with rfl | hy
    · exact hp _ _ _ h1
    · exact ih h2 y hy

theorem mapM_some {α : Type} {f : α → Option Bytes} {l : List α} (hf : ∀ x ∈ l, ∃ b, f x = some b) : ∃ bs, l.mapM f = some bs := by
  induction l with
  | nil => exact ⟨[], rfl⟩
  | cons x l ih =>
    obtain ⟨b, hb⟩ := hf x List.mem_cons_self
    obtain ⟨bs, hbs⟩ := ih fun y hy => hf y (List.mem_cons_of_mem _ hy)
    exact ⟨b :: bs, by rw [List.mapM_cons, hb, hbs]; rfl⟩

theorem list_some {α : Type} {f : α → Option Bytes} {l : List α} (hl : l.length ≤ 255) (hf : ∀ x ∈ l, ∃ b, f x = some b) :
    ∃ b, list f l = some b := by
  obtain ⟨bs, hbs⟩ := mapM_some hf
  refine ⟨[UInt8.ofNat l.length] ++ bs.flatten, ?_⟩
  unfold list
  rw [List.take_of_length_le hl]
  dsimp only
  rw [hbs, byte_iff.2 ⟨by omega, rfl⟩]
  rfl

theorem controleeEntryPat_length {k : Nat} {x : ControleeEntry} (hx : ControleeEntryFits k x) :
    (controleeEntryPat x).length = 8 * (6 + k) := by
  obtain ⟨f0, _, f2⟩ := hx
  simp only [controleeEntryPat, List.length_append, octets_length, nat_length, f0, f2]
  omega

theorem follows_controleeEntries {k : Nat} (hk : k = 0 ∨ k = 16 ∨ k = 32) :
    Follows (controleesFields k) controleesValues (ControleesFit k) (controleeEntries k) controleeEntriesBytes := by
  constructor
  · intro s l r
    constructor
    · intro h
      simp only [controleeEntries, Option.bind_eq_bind, Option.bind_eq_some_iff, need_iff, Option.pure_def, Option.some.injEq,
        Prod.mk.injEq] at h
      obtain ⟨_, h1, _, h2, l', h3, rfl, rfl⟩ := h
      obtain ⟨e1, e2⟩ := rd_records (fun s x r h => (rd_controleeEntry s x r h).2) h3
      have e3 := records_all (fun s x r h => (rd_controleeEntry s x r h).1) h3
      have e4 := idx_lt s 0
      refine ⟨⟨by omega, e3⟩, ?_⟩
      rw [controleeEntries_pat hk e3]
      refine Spec.Pdl.Takes.append (t := s.drop 1) ?_ e2
      rw [e1]
      exact rd_idx (s := s) (i := 0) (by omega)
    · rintro ⟨⟨h1, h2⟩, h3⟩
      rw [controleeEntries_pat hk h2] at h3
      replace h3 : Takes (nat 8 l.length ++ l.flatMap controleeEntryPat) (s.drop 0) r := h3
      obtain ⟨l0, e0, h⟩ := tk_idx (i := 0) h3 (by omega) (by omega)
      rw [← List.append_nil (l.flatMap _)] at h
      obtain ⟨l1, e1, h⟩ := fw_records (fun x hx => fw_controleeEntry (h2 x hx)) (fun x hx => controleeEntryPat_length (h2 x hx)) h
      unfold controleeEntries
      rw [need_of_le l0]
      simp only [Option.bind_eq_bind, Option.bind_some]
      rw [e0, need_of_le l1, e1, ← tk_end h]
      rfl
  · rintro l ⟨h1, h2⟩
    rw [controleeEntries_pat hk h2]
    have key : ∃ b, controleeEntriesBytes l = some b := list_some h1 fun x _ => ⟨_, rfl⟩
    obtain ⟨b, hb⟩ := key
    refine ⟨b, hb, wr_list h1 (fun x _ b h => ?_) hb⟩
    simp only [controleeEntryBytes, Option.some.injEq] at h
    subst h
    exact wr_controleeEntry x

/-! ### Angles and impulse responses -/

def aoaPat (x : AoaMeasurement) : Pattern := nat 16 x.tdoa ++ (nat 16 x.pdoa ++ (nat 16 x.aoa ++ (nat 8 x.fom ++ nat 8 x.t)))
def cirPat (x : CirValue) : Pattern :=
  nat 16 x.firstPathIndex ++ (nat 16 x.firstPathSnr ++ (nat 16 x.firstPathNs ++ (nat 16 x.peakPathIndex ++
    (nat 16 x.peakPathSnr ++ (nat 16 x.peakPathNs ++ (nat 8 x.firstPathSampleOffset ++ (nat 8 x.samplesNumber ++
    (nat 16 x.sampleWindow.length ++ octets x.sampleWindow))))))))

theorem aoa_pat (x : AoaMeasurement) : patterns (aoaMeasurementValues x) [] Spec.Pdl.aoaMeasurement = aoaPat x := by
  simp [aoaMeasurementValues, Spec.Pdl.aoaMeasurement, patterns, Field.pattern, Values.int, Values.get, aoaPat]

theorem cir_pat (x : CirValue) : patterns (cirValueValues x) [] Spec.Pdl.cirValue = cirPat x := by
  simp [cirValueValues, Spec.Pdl.cirValue, patterns, Field.pattern, Values.int, Values.get, Values.bytes, Values.length, cirPat]

theorem rd_aoa (s : Bytes) (x : AoaMeasurement) (r : Bytes) (h : aoaMeasurement s = some (x, r)) :
    AoaMeasurementFits x ∧ Takes (aoaPat x) s r := by
  simp only [aoaMeasurement, Option.bind_eq_bind, Option.bind_eq_some_iff, need_iff, Option.pure_def, Option.some.injEq,
    Prod.mk.injEq] at h
  obtain ⟨_, h1, rfl, rfl⟩ := h
  refine ⟨⟨le_lt _ 0 2, le_lt _ 2 4, le_lt _ 4 6, idx_lt _ _, idx_lt _ _⟩, ?_⟩
  unfold aoaPat
  dsimp only
  show Takes _ (s.drop 0) _
  iterate 5 rdf

theorem fw_aoa {x : AoaMeasurement} (hx : AoaMeasurementFits x) (s r : Bytes) (h : Takes (aoaPat x) s r) :
    aoaMeasurement s = some (x, r) := by
  cases x
  obtain ⟨f0, f1, f2, f3, f4⟩ := hx
  replace h : Takes _ (s.drop 0) r := h
  unfold aoaPat at h
  rw [← List.append_nil (nat 8 _)] at h
  simp only [List.append_assoc] at h
  obtain ⟨l0, e0, h⟩ := tk_le (i := 0) (j := 2) h f0 (by omega) (by omega) (by omega)
  obtain ⟨l1, e1, h⟩ := tk_le (i := 2) (j := 4) h f1 (by omega) (by omega) (by omega)
  obtain ⟨l2, e2, h⟩ := tk_le (i := 4) (j := 6) h f2 (by omega) (by omega) (by omega)
  obtain ⟨l3, e3, h⟩ := tk_idx (i := 6) h f3 (by omega)
  obtain ⟨l4, e4, h⟩ := tk_idx (i := 7) h f4 (by omega)
  unfold aoaMeasurement
  rw [need_of_le l4, e0, e1, e2, e3, e4, tk_end h]
  rfl

theorem wr_aoa (x : AoaMeasurement) (b : Bytes) (h : aoaMeasurementBytes x = some b) : IsWritten (aoaPat x) b := by
  simp only [aoaMeasurementBytes, Option.some.injEq] at h
  subst h
  simp only [List.append_assoc]
  exact (wr_int rfl).append ((wr_int rfl).append ((wr_int rfl).append ((wr_int rfl).append (wr_int rfl))))

theorem follows_aoaMeasurement : Follows Spec.Pdl.aoaMeasurement aoaMeasurementValues AoaMeasurementFits aoaMeasurement
    aoaMeasurementBytes := by
  constructor
  · intro s x r
    rw [aoa_pat]
    exact ⟨fun h => rd_aoa s x r h, fun h => fw_aoa h.1 s r h.2⟩
  · intro x _
    rw [aoa_pat]
    exact ⟨_, rfl, wr_aoa x _ rfl⟩

theorem rd_cir (s : Bytes) (x : CirValue) (r : Bytes) (h : cirValue s = some (x, r)) : CirValueFits x ∧ Takes (cirPat x) s r := by
  simp only [cirValue, Option.bind_eq_bind, Option.bind_eq_some_iff, need_iff, Option.pure_def, Option.some.injEq,
    Prod.mk.injEq] at h
  obtain ⟨_, h1, _, h2, rfl, rfl⟩ := h
  have e : ((s.drop 16).take (le s 14 16)).length = le s 14 16 := by rw [List.length_take]; omega
  refine ⟨⟨le_lt _ 0 2, le_lt _ 2 4, le_lt _ 4 6, le_lt _ 6 8, le_lt _ 8 10, le_lt _ 10 12, idx_lt _ _, idx_lt _ _, ?_⟩, ?_⟩
  · dsimp only
    rw [e]
    exact le_lt _ 14 16
  unfold cirPat
  dsimp only
  rw [e]
  show Takes _ (s.drop 0) _
  iterate 9 rdf
  exact takes_octets

theorem fw_cir {x : CirValue} (hx : CirValueFits x) (s r : Bytes) (h : Takes (cirPat x) s r) : cirValue s = some (x, r) := by
  cases x
  obtain ⟨f0, f1, f2, f3, f4, f5, f6, f7, f8⟩ := hx
  replace h : Takes _ (s.drop 0) r := h
  unfold cirPat at h
  rw [← List.append_nil (octets _)] at h
  dsimp only at *
  obtain ⟨l0, e0, h⟩ := tk_le (i := 0) (j := 2) h f0 (by omega) (by omega) (by omega)
  obtain ⟨l1, e1, h⟩ := tk_le (i := 2) (j := 4) h f1 (by omega) (by omega) (by omega)
  obtain ⟨l2, e2, h⟩ := tk_le (i := 4) (j := 6) h f2 (by omega) (by omega) (by omega)
  obtain ⟨l3, e3, h⟩ := tk_le (i := 6) (j := 8) h f3 (by omega) (by omega) (by omega)
  obtain ⟨l4, e4, h⟩ := tk_le (i := 8) (j := 10) h f4 (by omega) (by omega) (by omega)
  obtain ⟨l5, e5, h⟩ := tk_le (i := 10) (j := 12) h f5 (by omega) (by omega) (by omega)
  obtain ⟨l6, e6, h⟩ := tk_idx (i := 12) h f6 (by omega)
  obtain ⟨l7, e7, h⟩ := tk_idx (i := 13) h f7 (by omega)
  obtain ⟨l8, e8, h⟩ := tk_le (i := 14) (j := 16) h f8 (by omega) (by omega) (by omega)
  obtain ⟨l9, e9, h⟩ := tk_octets h
  unfold cirValue
  rw [need_of_le l8]
  simp only [Option.bind_eq_bind, Option.bind_some]
  rw [e8, need_of_le l9, e9, ← tk_end h, e0, e1, e2, e3, e4, e5, e6, e7]
  rfl

theorem wr_cir (x : CirValue) (b : Bytes) (h : cirValueBytes x = some b) : IsWritten (cirPat x) b := by
  simp only [cirValueBytes, Option.bind_eq_bind, Option.bind_eq_some_iff, Option.pure_def, Option.some.injEq] at h
  obtain ⟨w, h1, rfl⟩ := h
  simp only [List.append_assoc]
  exact (wr_int rfl).append ((wr_int rfl).append ((wr_int rfl).append ((wr_int rfl).append ((wr_int rfl).append
    ((wr_int rfl).append ((wr_int rfl).append ((wr_int rfl).append (wr_sized h1))))))))

theorem cirBytes_some {x : CirValue} (hx : CirValueFits x) : ∃ b, cirValueBytes x = some b := by
  have : sizedBytes x.sampleWindow = some (leBytes 2 x.sampleWindow.length ++ x.sampleWindow) := by
    unfold sizedBytes
    rw [exactly_iff.2 ⟨hx.2.2.2.2.2.2.2.2, rfl⟩]
    rfl
  unfold cirValueBytes
  rw [this]
  exact ⟨_, rfl⟩

theorem follows_cirValue : Follows Spec.Pdl.cirValue cirValueValues CirValueFits cirValue cirValueBytes := by
  constructor
  · intro s x r
    rw [cir_pat]
    exact ⟨fun h => rd_cir s x r h, fun h => fw_cir h.1 s r h.2⟩
  · intro x hx
    rw [cir_pat]
    obtain ⟨b, hb⟩ := cirBytes_some hx
    exact ⟨b, hb, wr_cir x b hb⟩

end Pica.Py
