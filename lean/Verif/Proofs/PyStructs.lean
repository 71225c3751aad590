import Verif.Spec.PyStructs
import Verif.Proofs.PyTaken
import Verif.Proofs.Command
/-! The classes of `uci.py` outside the messages read and write the structures of the packet description. -/

namespace Pica.Py
open Spec
open Spec.Pdl (Pattern nat gap octets Agrees Matches Takes IsWritten takes_nil takes_octets takes_all takes_gap takes_ofLe nat_add nat_and nat_inj nat_length octets_ofLe octets_length matches_octets written_octets written_nat written_byte written_gap written_nil patterns Field.pattern Values.int Values.get Values.bytes Values.length Values.records)

set_option linter.unusedSimpArgs false

/-- Agreement with a layout can be computed. -/
def agreesDec : ∀ p b, Decidable (Agrees p b)
  | [], [] => isTrue trivial
  | none :: p, _ :: b => agreesDec p b
  | some x :: p, y :: b => @instDecidableAnd (y = x) (Agrees p b) inferInstance (agreesDec p b)
  | [], _ :: _ => isFalse id
  | none :: _, [] => isFalse id
  | some _ :: _, [] => isFalse id

local instance (p : Pattern) (b : Bytes) : Decidable (Matches p b) := agreesDec p _

/-! ### One byte of bits -/

theorem takes_one {p q : Pattern} {s r : Bytes} (hp : p.length = 8) :
    Takes (p ++ q) s r ↔ ∃ b t, s = b :: t ∧ Matches p [b] ∧ Takes q t r := by
  constructor
  · intro h
    obtain ⟨h1, h2, h3⟩ := takes_split (k := 1) h (by omega)
    match s with
    | [] => simp at h1
    | b :: t => exact ⟨b, t, rfl, h2, h3⟩
  · rintro ⟨b, t, rfl, h1, h2⟩
    exact Spec.Pdl.Takes.append ⟨[b], rfl, h1⟩ h2

theorem takes_only {p : Pattern} {s r : Bytes} (hp : p.length = 8) : Takes p s r ↔ ∃ b, s = b :: r ∧ Matches p [b] := by
  rw [← List.append_nil p, takes_one hp]
  constructor
  · rintro ⟨b, t, rfl, h1, h2⟩
    rw [tk_end h2, List.append_nil]
    exact ⟨b, rfl, h1⟩
  · rintro ⟨b, rfl, h⟩
    rw [List.append_nil] at h
    exact ⟨b, r, rfl, h, takes_nil r⟩

def roundControlPat (a b c d : Nat) : Pattern := nat 1 a ++ (nat 1 1 ++ (nat 1 b ++ (gap 3 ++ (nat 1 c ++ nat 1 d))))
def reportConfigPat (a b c d : Nat) : Pattern := nat 1 a ++ (nat 1 b ++ (nat 1 c ++ (nat 1 d ++ gap 4)))
def packetHeadPat (pbf mt : Nat) : Pattern := gap 4 ++ (nat 1 pbf ++ nat 3 mt)

theorem roundControl_pat (x : RangingRoundControl) :
    patterns (rangingRoundControlValues x) [] Spec.Pdl.rangingRoundControl = roundControlPat x.rrrm x.rcp x.mrp x.mrm := by
  simp [rangingRoundControlValues, Spec.Pdl.rangingRoundControl, patterns, Field.pattern, Values.int, Values.get, roundControlPat]

theorem reportConfig_pat (x : ResultReportConfig) :
    patterns (resultReportConfigValues x) [] Spec.Pdl.resultReportConfig =
      reportConfigPat x.tof x.aoaAzimuth x.aoaElevation x.aoaFom := by
  simp [resultReportConfigValues, Spec.Pdl.resultReportConfig, patterns, Field.pattern, Values.int, Values.get, reportConfigPat]

theorem commonHeader_pat (x : CommonHeader) :
    patterns (commonHeaderValues x) [] Spec.Pdl.commonPacketHeader = packetHeadPat x.pbf x.mt := by
  simp [commonHeaderValues, Spec.Pdl.commonPacketHeader, patterns, Field.pattern, Values.int, Values.get, packetHeadPat]

theorem controlHeader_pat (x : LengthHeader) :
    patterns (lengthHeaderValues x) [] Spec.Pdl.controlPacketHeader =
      packetHeadPat x.pbf x.mt ++ (gap 16 ++ nat 8 x.payloadLength) := by
  simp [lengthHeaderValues, Spec.Pdl.controlPacketHeader, patterns, Field.pattern, Values.int, Values.get, packetHeadPat]

theorem dataHeader_pat (x : LengthHeader) :
    patterns (lengthHeaderValues x) [] Spec.Pdl.dataPacketHeader =
      packetHeadPat x.pbf x.mt ++ (gap 8 ++ nat 16 x.payloadLength) := by
  simp [lengthHeaderValues, Spec.Pdl.dataPacketHeader, patterns, Field.pattern, Values.int, Values.get, packetHeadPat]

set_option synthInstance.maxSize 4096 in
set_option synthInstance.maxHeartbeats 2000000 in
theorem roundControl_byte (b : UInt8) : ∀ a < 2, ∀ c < 2, ∀ d < 2, ∀ e < 2,
    Matches (roundControlPat a c d e) [b] ↔ (b.toNat >>> 1) &&& 0x1 = 0x1 ∧ (b.toNat >>> 0) &&& 0x1 = a ∧
      (b.toNat >>> 2) &&& 0x1 = c ∧ (b.toNat >>> 6) &&& 0x1 = d ∧ (b.toNat >>> 7) &&& 0x1 = e := by
  revert b
  apply forall_u8
  decide +kernel

set_option synthInstance.maxSize 4096 in
set_option synthInstance.maxHeartbeats 2000000 in
theorem reportConfig_byte (b : UInt8) : ∀ a < 2, ∀ c < 2, ∀ d < 2, ∀ e < 2,
    Matches (reportConfigPat a c d e) [b] ↔ (b.toNat >>> 0) &&& 0x1 = a ∧
      (b.toNat >>> 1) &&& 0x1 = c ∧ (b.toNat >>> 2) &&& 0x1 = d ∧ (b.toNat >>> 3) &&& 0x1 = e := by
  revert b
  apply forall_u8
  decide +kernel

theorem packetHead_byte (b : UInt8) : ∀ p < 2, ∀ m < 8,
    Matches (packetHeadPat p m) [b] ↔ (b.toNat >>> 4) &&& 0x1 = p ∧ (b.toNat >>> 5) &&& 0x7 = m := by
  revert b
  apply forall_u8
  decide +kernel

theorem bit_two (v : Nat) : v &&& 0x1 < 2 := by
  rw [show (0x1 : Nat) = 2 ^ 1 - 1 from rfl, Nat.and_two_pow_sub_one_eq_mod]; omega

theorem follows_roundControl : Follows Spec.Pdl.rangingRoundControl rangingRoundControlValues RangingRoundControlFits
    rangingRoundControl rangingRoundControlBytes := by
  constructor
  · intro s x r
    rw [roundControl_pat]
    show _ ↔ _ ∧ Takes _ s r
    rw [takes_only rfl]
    match s with
    | [] => simp [rangingRoundControl, need]
    | b :: t =>
      have hn : need (b :: t) 1 = some () := need_of_le (by simp)
      have hi : idx (b :: t) 0 = b.toNat := rfl
      simp only [rangingRoundControl, hn, hi, Option.bind_eq_bind, Option.bind_eq_some_iff, forbid_iff, Option.pure_def,
        Option.some.injEq, Prod.mk.injEq, List.drop_succ_cons, List.drop_zero, exists_true_left, exists_const, List.cons.injEq]
      constructor
      · rintro ⟨_, h1, rfl, rfl⟩
        refine ⟨⟨bit_two _, bit_two _, bit_two _, bit_two _⟩, b, ⟨rfl, rfl⟩, ?_⟩
        exact (roundControl_byte b _ (bit_two _) _ (bit_two _) _ (bit_two _) _ (bit_two _)).2
          ⟨by simpa using h1, rfl, rfl, rfl, rfl⟩
      · rintro ⟨⟨f0, f1, f2, f3⟩, c, ⟨rfl, rfl⟩, h⟩
        obtain ⟨h0, h1, h2, h3, h4⟩ := (roundControl_byte b _ f0 _ f1 _ f2 _ f3).1 h
        exact ⟨trivial, by simpa using h0, by rw [h1, h2, h3, h4], rfl⟩
  · rintro ⟨a, b, c, d⟩ ⟨f0, f1, f2, f3⟩
    rw [roundControl_pat]
    dsimp only at *
    unfold rangingRoundControlBytes
    dsimp only
    rw [cut_of f0, cut_of f1, cut_of f2, cut_of f3]
    have key : ∀ a < 2, ∀ b < 2, ∀ c < 2, ∀ d < 2, (a <<< 0 ||| 1 <<< 1 ||| b <<< 2 ||| c <<< 6 ||| d <<< 7) < 256 ∧
        IsWritten (roundControlPat a b c d) [UInt8.ofNat (a <<< 0 ||| 1 <<< 1 ||| b <<< 2 ||| c <<< 6 ||| d <<< 7)] := by
      unfold IsWritten
      decide +kernel
    obtain ⟨k1, k2⟩ := key a f0 b f1 c f2 d f3
    exact ⟨_, byte_iff.2 ⟨k1, rfl⟩, k2⟩

theorem follows_reportConfig : Follows Spec.Pdl.resultReportConfig resultReportConfigValues ResultReportConfigFits
    resultReportConfig resultReportConfigBytes := by
  constructor
  · intro s x r
    rw [reportConfig_pat]
    show _ ↔ _ ∧ Takes _ s r
    rw [takes_only rfl]
    match s with
    | [] => simp [resultReportConfig, need]
    | b :: t =>
      have hn : need (b :: t) 1 = some () := need_of_le (by simp)
      have hi : idx (b :: t) 0 = b.toNat := rfl
      simp only [resultReportConfig, hn, hi, Option.bind_eq_bind, Option.bind_some, Option.pure_def,
        Option.some.injEq, Prod.mk.injEq, List.drop_succ_cons, List.drop_zero, List.cons.injEq]
      constructor
      · rintro ⟨rfl, rfl⟩
        refine ⟨⟨bit_two _, bit_two _, bit_two _, bit_two _⟩, b, ⟨rfl, rfl⟩, ?_⟩
        exact (reportConfig_byte b _ (bit_two _) _ (bit_two _) _ (bit_two _) _ (bit_two _)).2 ⟨rfl, rfl, rfl, rfl⟩
      · rintro ⟨⟨f0, f1, f2, f3⟩, c, ⟨rfl, rfl⟩, h⟩
        obtain ⟨h1, h2, h3, h4⟩ := (reportConfig_byte b _ f0 _ f1 _ f2 _ f3).1 h
        exact ⟨by rw [h1, h2, h3, h4], rfl⟩
  · rintro ⟨a, b, c, d⟩ ⟨f0, f1, f2, f3⟩
    rw [reportConfig_pat]
    dsimp only at *
    unfold resultReportConfigBytes
    dsimp only
    rw [cut_of f0, cut_of f1, cut_of f2, cut_of f3]
    have key : ∀ a < 2, ∀ b < 2, ∀ c < 2, ∀ d < 2, (a <<< 0 ||| b <<< 1 ||| c <<< 2 ||| d <<< 3) < 256 ∧
        IsWritten (reportConfigPat a b c d) [UInt8.ofNat (a <<< 0 ||| b <<< 1 ||| c <<< 2 ||| d <<< 3)] := by
      unfold IsWritten
      decide +kernel
    obtain ⟨k1, k2⟩ := key a f0 b f1 c f2 d f3
    exact ⟨_, byte_iff.2 ⟨k1, rfl⟩, k2⟩

/-! ### Heads -/

theorem mt_iff (v : Nat) : v ∈ messageTypes ↔ v ≤ 3 := by simp [messageTypes]; omega

theorem wr_packetHead {p m : Nat} (hp : p ≤ 1) (hm : m ≤ 3) :
    ∃ b, byte (p <<< 4 ||| m <<< 5) = some b ∧ IsWritten (packetHeadPat p m) b := by
  have key : ∀ p < 2, ∀ m < 4, (p <<< 4 ||| m <<< 5) < 256 ∧ IsWritten (packetHeadPat p m) [UInt8.ofNat (p <<< 4 ||| m <<< 5)] := by
    unfold IsWritten
    decide +kernel
  obtain ⟨k1, k2⟩ := key p (by omega) m (by omega)
  exact ⟨_, byte_iff.2 ⟨k1, rfl⟩, k2⟩

theorem seven_lt (v : Nat) : v &&& 0x7 < 8 := by
  rw [show (0x7 : Nat) = 2 ^ 3 - 1 from rfl, Nat.and_two_pow_sub_one_eq_mod]; omega

theorem follows_commonHeader : Follows Spec.Pdl.commonPacketHeader commonHeaderValues CommonHeaderFits commonHeader
    commonHeaderBytes := by
  constructor
  · intro s x r
    rw [commonHeader_pat]
    show _ ↔ _ ∧ Takes _ s r
    rw [takes_only rfl]
    match s with
    | [] => simp [commonHeader, need]
    | b :: t =>
      have hn : need (b :: t) 1 = some () := need_of_le (by simp)
      have hi : idx (b :: t) 0 = b.toNat := rfl
      simp only [commonHeader, hn, hi, Option.bind_eq_bind, Option.bind_some, Option.bind_eq_some_iff, fromInt_iff, Option.pure_def,
        Option.some.injEq, Prod.mk.injEq, List.drop_succ_cons, List.drop_zero, List.cons.injEq]
      constructor
      · rintro ⟨_, ⟨h1, rfl⟩, _, ⟨h2, rfl⟩, rfl, rfl⟩
        exact ⟨⟨pbf_iff.1 h1, (mt_iff _).1 h2⟩, b, ⟨rfl, rfl⟩,
          (packetHead_byte b _ (bit_two _) _ (seven_lt _)).2 ⟨rfl, rfl⟩⟩
      · rintro ⟨⟨f0, f1⟩, c, ⟨rfl, rfl⟩, h⟩
        obtain ⟨h1, h2⟩ := (packetHead_byte b _ (by omega) _ (by omega)).1 h
        exact ⟨_, ⟨pbf_iff.2 (h1 ▸ f0), rfl⟩, _, ⟨(mt_iff _).2 (h2 ▸ f1), rfl⟩, by rw [h1, h2], rfl⟩
  · rintro x ⟨f0, f1⟩
    rw [commonHeader_pat]
    exact wr_packetHead f0 f1

theorem follows_controlHeader : Follows Spec.Pdl.controlPacketHeader lengthHeaderValues (LengthHeaderFits 8) controlHeader
    controlHeaderBytes := by
  constructor
  · intro s x r
    rw [controlHeader_pat]
    show _ ↔ _ ∧ Takes _ s r
    rw [takes_one rfl]
    simp only [controlHeader, Option.bind_eq_bind, Option.bind_eq_some_iff, need_iff, fromInt_iff, Option.pure_def,
      Option.some.injEq, Prod.mk.injEq]
    constructor
    · rintro ⟨_, h0, _, ⟨h1, rfl⟩, _, ⟨h2, rfl⟩, rfl, rfl⟩
      match s with
      | [] => simp at h0
      | b :: t =>
        refine ⟨⟨pbf_iff.1 h1, (mt_iff _).1 h2, idx_lt _ _⟩, b, t, rfl,
          (packetHead_byte b _ (bit_two _) _ (seven_lt _)).2 ⟨rfl, rfl⟩, ?_⟩
        exact (rd_gap (s := b :: t) (i := 1) (j := 3) (by omega) (by omega) (by decide)).append (rd_idx (by omega))
    · rintro ⟨⟨f0, f1, f2⟩, b, t, rfl, h, h'⟩
      obtain ⟨h1, h2⟩ := (packetHead_byte b _ (by omega) _ (by omega)).1 h
      replace h' : Takes _ ((b :: t).drop 1) r := h'
      rw [← List.append_nil (nat 8 _)] at h'
      obtain ⟨l1, h'⟩ := tk_gap (i := 1) (j := 3) h' (by omega) (by omega) (by simp)
      obtain ⟨l2, e2, h'⟩ := tk_idx (i := 3) h' f2 (by omega)
      refine ⟨(), l2, _, ⟨pbf_iff.2 (show (b.toNat >>> 4) &&& 0x1 ≤ 1 from h1 ▸ f0), rfl⟩, _,
        ⟨(mt_iff _).2 (show (b.toNat >>> 5) &&& 0x7 ≤ 3 from h2 ▸ f1), rfl⟩, ?_, (tk_end h').symm⟩
      rw [e2]
      show LengthHeader.mk ((b.toNat >>> 4) &&& 0x1) ((b.toNat >>> 5) &&& 0x7) _ = _
      rw [h1, h2]
  · rintro x ⟨f0, f1, f2⟩
    rw [controlHeader_pat]
    obtain ⟨b, h1, h2⟩ := wr_packetHead f0 f1
    refine ⟨_, by rw [controlHeaderBytes, h1]; rfl, ?_⟩
    rw [List.append_assoc]
    exact h2.append ((written_gap rfl).append (wr_int rfl))

theorem follows_dataHeader : Follows Spec.Pdl.dataPacketHeader lengthHeaderValues (LengthHeaderFits 16) dataHeader
    dataHeaderBytes := by
  constructor
  · intro s x r
    rw [dataHeader_pat]
    show _ ↔ _ ∧ Takes _ s r
    rw [takes_one rfl]
    simp only [dataHeader, Option.bind_eq_bind, Option.bind_eq_some_iff, need_iff, fromInt_iff, Option.pure_def,
      Option.some.injEq, Prod.mk.injEq]
    constructor
    · rintro ⟨_, h0, _, ⟨h1, rfl⟩, _, ⟨h2, rfl⟩, rfl, rfl⟩
      match s with
      | [] => simp at h0
      | b :: t =>
        refine ⟨⟨pbf_iff.1 h1, (mt_iff _).1 h2, le_lt _ 2 4⟩, b, t, rfl,
          (packetHead_byte b _ (bit_two _) _ (seven_lt _)).2 ⟨rfl, rfl⟩, ?_⟩
        exact (rd_gap (s := b :: t) (i := 1) (j := 2) (by omega) (by omega) (by decide)).append
          (rd_le (by omega) (by omega) (by decide))
    · rintro ⟨⟨f0, f1, f2⟩, b, t, rfl, h, h'⟩
      obtain ⟨h1, h2⟩ := (packetHead_byte b _ (by omega) _ (by omega)).1 h
      replace h' : Takes _ ((b :: t).drop 1) r := h'
      rw [← List.append_nil (nat 16 _)] at h'
      obtain ⟨l1, h'⟩ := tk_gap (i := 1) (j := 2) h' (by omega) (by omega) (by simp)
      obtain ⟨l2, e2, h'⟩ := tk_le (i := 2) (j := 4) h' f2 (by omega) (by omega) (by omega)
      refine ⟨(), l2, _, ⟨pbf_iff.2 (show (b.toNat >>> 4) &&& 0x1 ≤ 1 from h1 ▸ f0), rfl⟩, _,
        ⟨(mt_iff _).2 (show (b.toNat >>> 5) &&& 0x7 ≤ 3 from h2 ▸ f1), rfl⟩, ?_, (tk_end h').symm⟩
      rw [e2]
      show LengthHeader.mk ((b.toNat >>> 4) &&& 0x1) ((b.toNat >>> 5) &&& 0x7) _ = _
      rw [h1, h2]
  · rintro x ⟨f0, f1, f2⟩
    rw [dataHeader_pat]
    obtain ⟨b, h1, h2⟩ := wr_packetHead f0 f1
    refine ⟨_, by rw [dataHeaderBytes, h1]; rfl, ?_⟩
    rw [List.append_assoc]
    exact h2.append ((written_gap rfl).append (wr_int rfl))

end Pica.Py
