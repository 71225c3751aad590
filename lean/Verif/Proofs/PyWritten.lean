import Verif.Proofs.PyPatterns
/-! What the serialisers of `uci.py` write has the layout of the packet description. -/

namespace Pica.Py
open Spec
open Spec.Pdl (Pattern nat gap octets IsWritten written_octets written_nat written_byte written_gap written_nil nat_add nat_and)

theorem byte_iff {v : Nat} {b : Bytes} : byte v = some b ↔ v < 256 ∧ [UInt8.ofNat v] = b := by
  unfold byte; split <;> simp_all; omega

theorem exactly_iff {k v : Nat} {b : Bytes} : exactly k v = some b ↔ v < 256 ^ k ∧ leBytes k v = b := by
  unfold exactly; split <;> simp_all; omega

theorem wr_byte {v : Nat} {b : Bytes} (h : byte v = some b) : IsWritten (nat 8 v) b := by
  obtain ⟨_, rfl⟩ := byte_iff.1 h
  exact written_byte v

theorem wr_exactly {n k v : Nat} {b : Bytes} (h : exactly k v = some b) (hn : n = 8 * k) : IsWritten (nat n v) b := by
  obtain ⟨_, rfl⟩ := exactly_iff.1 h
  exact written_nat hn

theorem wr_int {n k v : Nat} (hn : n = 8 * k) : IsWritten (nat n v) (int k v) := by
  unfold int
  have e : nat n (if 256 ^ k - 1 < v then v &&& (256 ^ k - 1) else v) = nat n v := by
    split
    · have : 256 ^ k = 2 ^ n := by rw [hn, Nat.pow_mul]
      rw [this, nat_and]
    · rfl
  rw [← e]
  exact written_nat hn

theorem wr_mapM {α : Type} {f : α → Option Bytes} {pat : α → Pattern} {l : List α} {bs : List Bytes}
    (hf : ∀ x ∈ l, ∀ b, f x = some b → IsWritten (pat x) b) (h : l.mapM f = some bs) : IsWritten (l.flatMap pat) bs.flatten := by
  induction l generalizing bs with
  | nil => simp only [List.mapM_nil, Option.pure_def, Option.some.injEq] at h; subst h; exact written_nil
  | cons x l ih =>
    simp only [List.mapM_cons, Option.bind_eq_bind, Option.bind_eq_some_iff, Option.pure_def, Option.some.injEq] at h
    obtain ⟨y, h1, ys, h2, rfl⟩ := h
    rw [List.flatMap_cons, List.flatten_cons]
    exact (hf x List.mem_cons_self y h1).append (ih (fun z hz => hf z (List.mem_cons_of_mem _ hz)) h2)

theorem wr_list {α : Type} {f : α → Option Bytes} {pat : α → Pattern} {l : List α} {b : Bytes} (hl : l.length ≤ 255)
    (hf : ∀ x ∈ l, ∀ b, f x = some b → IsWritten (pat x) b) (h : list f l = some b) : IsWritten (listPat pat l) b := by
  unfold list at h
  rw [List.take_of_length_le hl] at h
  simp only [Option.bind_eq_bind, Option.bind_eq_some_iff, Option.pure_def, Option.some.injEq] at h
  obtain ⟨n, h1, xs, h2, rfl⟩ := h
  exact (wr_byte h1).append (wr_mapM hf h2)

theorem wr_counted {v b : Bytes} (hv : v.length ≤ 255) (h : countedBytes v = some b) :
    IsWritten (nat 8 v.length ++ octets v) b := by
  unfold countedBytes at h
  rw [List.take_of_length_le hv] at h
  simp only [Option.bind_eq_bind, Option.bind_eq_some_iff, Option.pure_def, Option.some.injEq] at h
  obtain ⟨n, h1, rfl⟩ := h
  exact (wr_byte h1).append (written_octets v)

theorem wr_sized {v b : Bytes} (h : sizedBytes v = some b) : IsWritten (nat 16 v.length ++ octets v) b := by
  simp only [sizedBytes, Option.bind_eq_bind, Option.bind_eq_some_iff, Option.pure_def, Option.some.injEq] at h
  obtain ⟨n, h1, rfl⟩ := h
  exact (wr_exactly h1 rfl).append (written_octets v)

/-! ### Structures -/

theorem wr_configParameter {p : Nat × Bytes} {b : Bytes} (h : configParameter p = some b) : IsWritten (tlvPat p) b := by
  simp only [configParameter, Option.bind_eq_bind, Option.bind_eq_some_iff, Option.pure_def, Option.some.injEq] at h
  obtain ⟨i, h1, n, h2, rfl⟩ := h
  rw [List.append_assoc]
  exact (wr_byte h1).append ((wr_byte h2).append (written_octets _))

theorem wr_appConfigTlv {p : Nat × Bytes} {b : Bytes} (hp : p.2.length ≤ 255) (h : appConfigTlv p = some b) :
    IsWritten (tlvPat p) b := by
  unfold appConfigTlv at h
  rw [List.take_of_length_le hp] at h
  exact wr_configParameter h

theorem wr_idStatus {p : Nat × Nat} {b : Bytes} (h : idStatusBytes p = some b) : IsWritten (idStatusPat p) b := by
  simp only [idStatusBytes, Option.bind_eq_bind, Option.bind_eq_some_iff, Option.pure_def, Option.some.injEq] at h
  obtain ⟨i, h1, n, h2, rfl⟩ := h
  exact (wr_byte h1).append (wr_byte h2)

theorem wr_controleeStatus {p : Bytes × Nat} {b : Bytes} (h : controleeStatusBytes p = some b) :
    IsWritten (controleeStatusPat p) b := by
  simp only [controleeStatusBytes, Option.bind_eq_bind, Option.bind_eq_some_iff, Option.pure_def, Option.some.injEq] at h
  obtain ⟨i, h1, rfl⟩ := h
  exact (written_octets _).append (wr_byte h1)

theorem wr_measurement {n w z k : Nat} (hn : n = 8 * w) (hz : z = 8 * k) {m : Measurement} {b : Bytes}
    (h : measurementBytes w k m = some b) : IsWritten (measurementPat n z m) b := by
  simp only [measurementBytes, Option.bind_eq_bind, Option.bind_eq_some_iff, Option.pure_def, Option.some.injEq] at h
  obtain ⟨i, h1, rfl⟩ := h
  refine IsWritten.append ?_ (written_gap hz)
  simp only [List.append_assoc]
  exact (wr_int hn).append ((wr_byte h1).append ((wr_int rfl).append ((wr_int rfl).append ((wr_int rfl).append
    ((wr_int rfl).append ((wr_int rfl).append ((wr_int rfl).append ((wr_int rfl).append ((wr_int rfl).append
    ((wr_int rfl).append ((wr_int rfl).append ((wr_int rfl).append (wr_int rfl)))))))))))))

theorem wr_owrAoa {n w : Nat} (hn : n = 8 * w) {m : OwrAoa} {b : Bytes} (h : owrAoaBytes w m = some b) :
    IsWritten (owrAoaPat n m) b := by
  simp only [owrAoaBytes, Option.bind_eq_bind, Option.bind_eq_some_iff, Option.pure_def, Option.some.injEq] at h
  obtain ⟨i, h1, rfl⟩ := h
  simp only [List.append_assoc]
  exact (wr_int hn).append ((wr_byte h1).append ((wr_int rfl).append ((wr_int rfl).append ((wr_int rfl).append
    ((wr_int rfl).append ((wr_int rfl).append ((wr_int rfl).append (wr_int rfl))))))))

theorem wr_relative {l : RelativeLocation} (hl : RelativeFits l) {b : Bytes} (h : relativeLocationBytes l = some b) :
    IsWritten (relativePat l) b := by
  obtain ⟨h1, h2, _⟩ := hl
  simp only [relativeLocationBytes, Option.some.injEq] at h
  subst h
  rw [cut_of h1, cut_of h2, packed h1]
  unfold relativePat
  rw [← List.append_assoc]
  refine IsWritten.append ?_ (wr_int rfl)
  have e : nat 28 l.x ++ nat 28 l.y = nat 56 (l.y * 2 ^ 28 + l.x) := by
    rw [show 56 = 28 + 28 from rfl, nat_add, Nat.shiftRight_eq_div_pow,
      show (l.y * 2 ^ 28 + l.x) / 2 ^ 28 = l.y by omega,
      Spec.Pdl.nat_congr (n := 28) (v := l.y * 2 ^ 28 + l.x) (w := l.x) (by omega)]
  rw [e]
  exact written_nat rfl

instance (p : Pattern) (b : Bytes) : Decidable (IsWritten p b) := by unfold IsWritten; exact inferInstance

theorem bits_written : ∀ t < 2, ∀ x < 2, ∀ y < 2, ∀ w < 2, ∀ r < 2, ∀ n < 16,
    IsWritten (nat 1 t ++ (nat 1 x ++ (gap 1 ++ (nat 1 y ++ (gap 1 ++ (nat 1 w ++ (nat 1 r ++ (nat 4 n ++ gap 5))))))))
      (leBytes 2 (t ||| (x <<< 1) ||| (y <<< 3) ||| (w <<< 5) ||| (r <<< 6) ||| (n <<< 7))) := by decide +kernel

theorem isSome_bit (t : Option Nat) : (if t.isSome then 1 else 0) = if t = none then 0 else 1 := by cases t <;> rfl

theorem bit_lt (t : Option Nat) : (if t = none then 0 else 1) < 2 := by cases t <;> simp

theorem wr_bits {m : DlTdoa} (h : DlTdoaFits m) : IsWritten (dlTdoaBitsPat m) (leBytes 2 m.bits) := by
  obtain ⟨_, _, h1, _, _, _, _, _, _, _, _, _, _, _, _, _, _, _, h2, _, h3, _, h4⟩ := h
  unfold DlTdoa.bits
  rw [List.take_of_length_le h2, List.take_of_length_le h3, List.take_of_length_le h4, cut_of (k := 1) h1, isSome_bit, isSome_bit]
  exact bits_written _ h1 _ (bit_lt _) _ (bit_lt _) _ (by omega) _ (by omega) _ (by omega)

theorem wr_stamp {a b : Option Nat} (h : StampFits a b) {x y : Bytes} (hx : optional 5 a = some x) (hy : optional 8 b = some y) :
    IsWritten (stampPat a b) (x ++ y) := by
  rcases h with ⟨v, rfl, _, rfl⟩ | ⟨v, rfl, _, rfl⟩
  · cases hy
    rw [List.append_nil]
    exact wr_exactly hx rfl
  · cases hx
    exact wr_exactly hy rfl

theorem wr_flatten (l : List Bytes) : IsWritten (l.flatMap octets) l.flatten := by
  induction l with
  | nil => exact written_nil
  | cons x l ih => rw [List.flatMap_cons, List.flatten_cons]; exact (written_octets x).append ih

theorem wr_dlTdoa {m : DlTdoa} (hm : DlTdoaFits m) {b : Bytes} (h : dlTdoaBytes m = some b) : IsWritten (dlTdoaPat m) b := by
  have hb := wr_bits hm
  obtain ⟨_, _, h1, _, _, _, _, _, _, _, _, hs1, hs2, _, _, _, _, _, h2, _, h3, h5, h4⟩ := hm
  simp only [dlTdoaBytes, Option.bind_eq_bind, Option.bind_eq_some_iff, Option.pure_def, Option.some.injEq] at h
  obtain ⟨s, k1, v, k2, t1, k3, t2, k4, t3, k5, t4, k6, rs, k7, rfl⟩ := h
  obtain ⟨_, rfl⟩ := exactly_iff.1 k2
  rw [List.take_of_length_le h3] at k7
  rw [List.take_of_length_le h2, List.take_of_length_le h4]
  have e : ∀ a b c d e f g h i j k x y z u1 u2 u3 u4 u5 p q r : Bytes,
      (a ++ b ++ c ++ d ++ e ++ f ++ g ++ h ++ i ++ j ++ k) ++ (x ++ y) ++ (z ++ u1) ++ (u2 ++ u3 ++ u4 ++ u5 ++ p) ++ (q ++ r)
      = (a ++ b) ++ (c ++ ((d ++ (e ++ (f ++ (g ++ (h ++ (i ++ (j ++ k))))))) ++ ((x ++ y) ++ ((z ++ u1) ++
        ((u2 ++ (u3 ++ (u4 ++ (u5 ++ p)))) ++ (q ++ r)))))) := by
    intros; simp only [List.append_assoc]
  rw [List.append_assoc (m.wgs84Location.flatten), e]
  unfold dlTdoaPat dlTdoaFront dlTdoaTimesPat
  exact ((wr_byte k1).append (wr_int rfl)).append (hb.append (((wr_int rfl).append ((wr_int rfl).append ((wr_int rfl).append
    ((wr_int rfl).append ((wr_int rfl).append ((wr_int rfl).append ((wr_int rfl).append (wr_int rfl)))))))).append
    ((wr_stamp hs1 k3 k4).append ((wr_stamp hs2 k5 k6).append (((wr_int rfl).append ((wr_int rfl).append ((wr_int rfl).append
    ((wr_int rfl).append (wr_int rfl))))).append ((wr_flatten _).append
    ((wr_mapM (fun x hx _ h => wr_relative (h5 x hx) h) k7).append (written_octets _))))))))

theorem wr_addressed {n w : Nat} (hn : n = 8 * w) {m : Nat × DlTdoa} (hm : DlTdoaFits m.2) {b : Bytes}
    (h : addressedDlTdoaBytes w m = some b) : IsWritten (addressedPat n m) b := by
  simp only [addressedDlTdoaBytes, Option.bind_eq_bind, Option.bind_eq_some_iff, Option.pure_def, Option.some.injEq] at h
  obtain ⟨x, h1, rfl⟩ := h
  exact (wr_int hn).append (wr_dlTdoa hm h1)

theorem wr_frameReportTlv {p : Nat × Bytes} {b : Bytes} (h : frameReportTlvBytes p = some b) :
    IsWritten (frameReportTlvPat p) b := by
  simp only [frameReportTlvBytes, Option.bind_eq_bind, Option.bind_eq_some_iff, Option.pure_def, Option.some.injEq] at h
  obtain ⟨i, h1, n, h2, rfl⟩ := h
  exact (wr_byte h1).append (wr_sized h2)

theorem wr_frameReport {r : FrameReport} (hr : r.frameReportTlvs.length ≤ 255) {b : Bytes} (h : frameReportBytes r = some b) :
    IsWritten (frameReportPat r) b := by
  simp only [frameReportBytes, Option.bind_eq_bind, Option.bind_eq_some_iff, Option.pure_def, Option.some.injEq] at h
  obtain ⟨l, h1, rfl⟩ := h
  simp only [List.append_assoc]
  exact (wr_int rfl).append ((wr_int rfl).append ((wr_int rfl).append (wr_list hr (fun _ _ _ h => wr_frameReportTlv h) h1)))

/-! ### Messages -/

theorem wr_statusList {α : Type} {f : α → Option Bytes} {pat : α → Pattern} {s : Nat} {l : List α} {b : Bytes}
    (hl : l.length ≤ 255) (hf : ∀ x ∈ l, ∀ b, f x = some b → IsWritten (pat x) b) (h : statusList f s l = some b) :
    IsWritten (nat 8 s ++ listPat pat l) b := by
  simp only [statusList, Option.bind_eq_bind, Option.bind_eq_some_iff, Option.pure_def, Option.some.injEq] at h
  obtain ⟨i, h1, n, h2, rfl⟩ := h
  exact (wr_byte h1).append (wr_list hl hf h2)

theorem wr_info {n t r i type ind : Nat} {p : Bytes} {q : Pattern} {b : Bytes} (hq : IsWritten q p)
    (h : infoBody n t r i type ind p = some b) : IsWritten (infoPat n t r i type ind q) b := by
  simp only [infoBody, Option.bind_eq_bind, Option.bind_eq_some_iff, Option.pure_def, Option.some.injEq] at h
  obtain ⟨x, h1, y, h2, rfl⟩ := h
  simp only [List.append_assoc]
  exact (wr_int rfl).append ((wr_int rfl).append ((wr_int rfl).append ((wr_int rfl).append ((wr_byte h1).append
    ((written_gap (k := 1) rfl).append ((wr_byte h2).append ((written_gap rfl).append hq)))))))

theorem wr_command {c : Command} (hc : FitsOpen (.command c)) {b : Bytes} (h : c.body = some b) : IsWritten (commandPat c) b := by
  have small : ∀ l, c = .coreGetConfig l ∨ (∃ t, c = .sessionGetAppConfig t l) → l.length ≤ 255 := by
    intro l hl
    rcases hc with hc | ⟨l', e, hl'⟩ | ⟨t, l', e, _, hl'⟩
    · rcases hl with rfl | ⟨t, rfl⟩
      · exact hc.1
      · exact hc.2.1
    · cases e
      rcases hl with e | ⟨t, e⟩ <;> cases e
      exact hl'.1
    · cases e
      rcases hl with e | ⟨t, e⟩ <;> cases e
      exact hl'.1
  have other : ObjFits (.command c) ∨ (∃ l, c = .coreGetConfig l) ∨ ∃ t l, c = .sessionGetAppConfig t l := by
    rcases hc with hc | ⟨l', e, _⟩ | ⟨t, l', e, _⟩
    · exact Or.inl hc
    · cases e; exact Or.inr (Or.inl ⟨_, rfl⟩)
    · cases e; exact Or.inr (Or.inr ⟨_, _, rfl⟩)
  cases c with
  | coreDeviceReset c => exact wr_byte h
  | coreGetDeviceInfo => cases h; exact written_nil
  | coreGetCapsInfo => cases h; exact written_nil
  | coreQueryTimeStamp => cases h; exact written_nil
  | sessionGetCount => cases h; exact written_nil
  | sessionUpdateDtAnchorRangingRounds => cases h; exact written_nil
  | androidGetPowerStats => cases h; exact written_nil
  | coreSetConfig l =>
    rcases other with hc | ⟨_, e⟩ | ⟨_, _, e⟩
    · exact wr_list hc.1 (fun _ _ _ h => wr_configParameter h) h
    · cases e
    · cases e
  | coreGetConfig l => exact wr_list (small l (Or.inl rfl)) (fun _ _ _ h => wr_byte h) h
  | sessionInit t s =>
    simp only [Command.body, Option.bind_eq_bind, Option.bind_eq_some_iff, Option.pure_def, Option.some.injEq] at h
    obtain ⟨x, h1, rfl⟩ := h
    exact (wr_int rfl).append (wr_byte h1)
  | sessionDeinit => cases h; exact wr_int rfl
  | sessionGetState => cases h; exact wr_int rfl
  | sessionQueryMaxDataSizeInRanging => cases h; exact wr_int rfl
  | sessionStart => cases h; exact wr_int rfl
  | sessionStop => cases h; exact wr_int rfl
  | sessionGetRangingCount => cases h; exact wr_int rfl
  | sessionSetAppConfig t l =>
    simp only [Command.body, Option.bind_eq_bind, Option.bind_eq_some_iff, Option.pure_def, Option.some.injEq] at h
    obtain ⟨x, h1, rfl⟩ := h
    rcases other with hc | ⟨_, e⟩ | ⟨_, _, e⟩
    · exact (wr_int rfl).append (wr_list hc.2.1 (fun x hx _ h => wr_appConfigTlv (hc.2.2 x hx).2 h) h1)
    · cases e
    · cases e
  | sessionGetAppConfig t l =>
    simp only [Command.body, Option.bind_eq_bind, Option.bind_eq_some_iff, Option.pure_def, Option.some.injEq] at h
    obtain ⟨x, h1, rfl⟩ := h
    exact (wr_int rfl).append (wr_list (small l (Or.inr ⟨t, rfl⟩)) (fun _ _ _ h => wr_byte h) h1)
  | sessionUpdateDtTagRangingRounds t v =>
    rcases other with hc | ⟨_, e⟩ | ⟨_, _, e⟩
    · unfold Command.body at h
      dsimp only at h
      rw [List.take_of_length_le hc.2] at h
      simp only [Option.bind_eq_bind, Option.bind_eq_some_iff, Option.pure_def, Option.some.injEq] at h
      obtain ⟨x, h1, rfl⟩ := h
      rw [List.append_assoc]
      exact (wr_int rfl).append ((wr_byte h1).append (written_octets _))
    · cases e
    · cases e
  | sessionUpdateControllerMulticastList t a p =>
    simp only [Command.body, Option.bind_eq_bind, Option.bind_eq_some_iff, Option.pure_def, Option.some.injEq] at h
    obtain ⟨x, h1, rfl⟩ := h
    rw [List.append_assoc]
    exact (wr_int rfl).append ((wr_byte h1).append (written_octets _))
  | androidSetCountryCode c => cases h; exact written_octets _

/-- The part of a message after the head is written with its layout. -/
theorem wr_body {o : Obj} (ho : FitsOpen o ∨ Bare o) (hm : ∀ s, o ≠ .sessionUpdateControllerMulticastListRsp s) {b : Bytes}
    (h : o.body = some b) : IsWritten (bodyPat o) b := by
  by_cases hcmd : ∃ c, o = .command c
  · obtain ⟨c, rfl⟩ := hcmd
    rcases ho with ho | ho
    · exact wr_command ho h
    · exact ho.elim
  have ho : ObjFits o ∨ Bare o := by
    rcases ho with (ho | ⟨l, rfl, _⟩ | ⟨t, l, rfl, _⟩) | ho
    · exact Or.inl ho
    · exact (hcmd ⟨_, rfl⟩).elim
    · exact (hcmd ⟨_, rfl⟩).elim
    · exact Or.inr ho
  cases o with
  | command c => exact (hcmd ⟨_, rfl⟩).elim
  | controlPacket => cases h; exact written_octets _
  | corePacket => cases h; exact written_octets _
  | sessionConfigPacket => cases h; exact written_octets _
  | sessionControlPacket => cases h; exact written_octets _
  | androidPacket => cases h; exact written_octets _
  | dataPacket => cases h; exact written_octets _
  | coreDeviceResetRsp => exact wr_byte h
  | coreGenericErrorNtf => exact wr_byte h
  | sessionInitRsp => exact wr_byte h
  | sessionDeinitRsp => exact wr_byte h
  | sessionUpdateControllerMulticastListRsp s => exact (hm s rfl).elim
  | sessionStartRsp => exact wr_byte h
  | sessionStopRsp => exact wr_byte h
  | androidSetCountryCodeRsp => exact wr_byte h
  | coreDeviceStatusNtf => exact wr_byte h
  | coreGetDeviceInfoRsp s a b c d v =>
    have ho := ho.resolve_right fun h => h
    simp only [Obj.body, Option.bind_eq_bind, Option.bind_eq_some_iff, Option.pure_def, Option.some.injEq] at h
    obtain ⟨x, h1, y, h2, rfl⟩ := h
    simp only [List.append_assoc]
    exact (wr_byte h1).append ((wr_int rfl).append ((wr_int rfl).append ((wr_int rfl).append ((wr_int rfl).append
      (wr_counted ho.2.2.2.2.2 h2)))))
  | coreGetCapsInfoRsp s l =>
    have ho := ho.resolve_right fun h => h
    exact wr_statusList ho.2.1 (fun x hx _ h => wr_appConfigTlv (ho.2.2 x hx).2 h) h
  | sessionGetAppConfigRsp s l =>
    have ho := ho.resolve_right fun h => h
    exact wr_statusList ho.2.1 (fun x hx _ h => wr_appConfigTlv (ho.2.2 x hx).2 h) h
  | coreGetConfigRsp s l =>
    have ho := ho.resolve_right fun h => h
    exact wr_statusList ho.2.1 (fun _ _ _ h => wr_configParameter h) h
  | coreSetConfigRsp s l =>
    have ho := ho.resolve_right fun h => h
    exact wr_statusList ho.2.1 (fun _ _ _ h => wr_idStatus h) h
  | sessionSetAppConfigRsp s l =>
    have ho := ho.resolve_right fun h => h
    exact wr_statusList ho.2.1 (fun _ _ _ h => wr_idStatus h) h
  | coreQueryTimeStampRsp s t =>
    simp only [Obj.body, Option.bind_eq_bind, Option.bind_eq_some_iff, Option.pure_def, Option.some.injEq] at h
    obtain ⟨x, h1, rfl⟩ := h
    exact (wr_byte h1).append (wr_int rfl)
  | sessionInitRspV2 s n =>
    simp only [Obj.body, Option.bind_eq_bind, Option.bind_eq_some_iff, Option.pure_def, Option.some.injEq] at h
    obtain ⟨x, h1, rfl⟩ := h
    exact (wr_byte h1).append (wr_int rfl)
  | sessionGetRangingCountRsp s n =>
    simp only [Obj.body, Option.bind_eq_bind, Option.bind_eq_some_iff, Option.pure_def, Option.some.injEq] at h
    obtain ⟨x, h1, rfl⟩ := h
    exact (wr_byte h1).append (wr_int rfl)
  | sessionStatusNtf t s r =>
    simp only [Obj.body, Option.bind_eq_bind, Option.bind_eq_some_iff, Option.pure_def, Option.some.injEq] at h
    obtain ⟨x, h1, rfl⟩ := h
    rw [List.append_assoc]
    exact (wr_int rfl).append ((wr_byte h1).append (wr_int rfl))
  | sessionGetCountRsp s n =>
    simp only [Obj.body, Option.bind_eq_bind, Option.bind_eq_some_iff, Option.pure_def, Option.some.injEq] at h
    obtain ⟨x, h1, rfl⟩ := h
    exact (wr_byte h1).append (wr_int rfl)
  | sessionGetStateRsp s t =>
    simp only [Obj.body, Option.bind_eq_bind, Option.bind_eq_some_iff, Option.pure_def, Option.some.injEq] at h
    obtain ⟨x, h1, y, h2, rfl⟩ := h
    exact (wr_byte h1).append (wr_byte h2)
  | sessionUpdateDtAnchorRangingRoundsRsp => cases h; exact written_nil
  | sessionUpdateDtTagRangingRoundsRsp s v =>
    have ho := ho.resolve_right fun h => h
    simp only [Obj.body, Option.bind_eq_bind, Option.bind_eq_some_iff, Option.pure_def, Option.some.injEq] at h
    obtain ⟨x, h1, y, h2, rfl⟩ := h
    exact (wr_byte h1).append (wr_counted ho.2 h2)
  | sessionUpdateControllerMulticastListNtf t l =>
    have ho := ho.resolve_right fun h => h
    simp only [Obj.body, Option.bind_eq_bind, Option.bind_eq_some_iff, Option.pure_def, Option.some.injEq] at h
    obtain ⟨x, h1, rfl⟩ := h
    exact (wr_int rfl).append (wr_list ho.2.1 (fun _ _ _ h => wr_controleeStatus h) h1)
  | sessionQueryMaxDataSizeInRangingRsp t n => cases h; exact (wr_int rfl).append (wr_int rfl)
  | sessionDataCreditNtf t c =>
    simp only [Obj.body, Option.bind_eq_bind, Option.bind_eq_some_iff, Option.pure_def, Option.some.injEq] at h
    obtain ⟨x, h1, rfl⟩ := h
    exact (wr_int rfl).append (wr_byte h1)
  | sessionDataTransferStatusNtf t n s c =>
    simp only [Obj.body, Option.bind_eq_bind, Option.bind_eq_some_iff, Option.pure_def, Option.some.injEq] at h
    obtain ⟨x, h1, rfl⟩ := h
    simp only [List.append_assoc]
    exact (wr_int rfl).append ((wr_int rfl).append ((wr_byte h1).append (wr_int rfl)))
  | sessionInfoNtf n t r i y d p => exact wr_info (written_octets p) h
  | shortMacTwoWaySessionInfoNtf n t r i l v =>
    have ho := ho.resolve_right fun h => h
    simp only [Obj.body, Option.bind_eq_bind, Option.bind_eq_some_iff] at h
    obtain ⟨x, h1, h⟩ := h
    exact wr_info ((wr_list ho.2.1 (fun _ _ _ h => wr_measurement rfl rfl h) h1).append (written_octets v)) h
  | extendedMacTwoWaySessionInfoNtf n t r i l v =>
    have ho := ho.resolve_right fun h => h
    simp only [Obj.body, Option.bind_eq_bind, Option.bind_eq_some_iff] at h
    obtain ⟨x, h1, h⟩ := h
    exact wr_info ((wr_list ho.2.1 (fun _ _ _ h => wr_measurement rfl rfl h) h1).append (written_octets v)) h
  | shortMacDlTDoASessionInfoNtf n t r i l =>
    have ho := ho.resolve_right fun h => h
    simp only [Obj.body, Option.bind_eq_bind, Option.bind_eq_some_iff] at h
    obtain ⟨x, h1, h⟩ := h
    exact wr_info (wr_list ho.2.1 (fun x hx _ h => wr_addressed rfl (ho.2.2 x hx).2 h) h1) h
  | extendedMacDlTDoASessionInfoNtf n t r i l =>
    have ho := ho.resolve_right fun h => h
    simp only [Obj.body, Option.bind_eq_bind, Option.bind_eq_some_iff] at h
    obtain ⟨x, h1, h⟩ := h
    exact wr_info (wr_list ho.2.1 (fun x hx _ h => wr_addressed rfl (ho.2.2 x hx).2 h) h1) h
  | shortMacOwrAoaSessionInfoNtf n t r i l v =>
    have ho := ho.resolve_right fun h => h
    simp only [Obj.body, Option.bind_eq_bind, Option.bind_eq_some_iff] at h
    obtain ⟨x, h1, h⟩ := h
    exact wr_info ((wr_list ho.2.1 (fun _ _ _ h => wr_owrAoa rfl h) h1).append (written_octets v)) h
  | extendedMacOwrAoaSessionInfoNtf n t r i l v =>
    have ho := ho.resolve_right fun h => h
    simp only [Obj.body, Option.bind_eq_bind, Option.bind_eq_some_iff] at h
    obtain ⟨x, h1, h⟩ := h
    exact wr_info ((wr_list ho.2.1 (fun _ _ _ h => wr_owrAoa rfl h) h1).append (written_octets v)) h
  | androidGetPowerStatsRsp s a b c d =>
    simp only [Obj.body, Option.bind_eq_bind, Option.bind_eq_some_iff, Option.pure_def, Option.some.injEq] at h
    obtain ⟨x, h1, rfl⟩ := h
    simp only [List.append_assoc]
    exact (wr_byte h1).append ((wr_int rfl).append ((wr_int rfl).append ((wr_int rfl).append (wr_int rfl))))
  | androidRangeDiagnosticsNtf t n l =>
    have ho := ho.resolve_right fun h => h
    simp only [Obj.body, Option.bind_eq_bind, Option.bind_eq_some_iff, Option.pure_def, Option.some.injEq] at h
    obtain ⟨x, h1, rfl⟩ := h
    simp only [List.append_assoc]
    exact (wr_int rfl).append ((wr_int rfl).append (wr_list ho.2.2.1 (fun x hx _ h => wr_frameReport (ho.2.2.2 x hx).2.2.2.1 h) h1))
  | dataMessageSnd p k d n v =>
    simp only [Obj.body, Option.bind_eq_bind, Option.bind_eq_some_iff, Option.pure_def, Option.some.injEq] at h
    obtain ⟨x, h1, rfl⟩ := h
    simp only [List.append_assoc]
    exact (wr_int rfl).append ((wr_int rfl).append ((wr_int rfl).append (wr_sized h1)))
  | dataMessageRcv p k s a n v =>
    simp only [Obj.body, Option.bind_eq_bind, Option.bind_eq_some_iff, Option.pure_def, Option.some.injEq] at h
    obtain ⟨x, h1, y, h2, rfl⟩ := h
    simp only [List.append_assoc]
    exact (wr_int rfl).append ((wr_byte h1).append ((wr_int rfl).append ((wr_int rfl).append (wr_sized h2))))

theorem first_written : ∀ g < 16, ∀ m < 8, IsWritten (firstPat g m) [UInt8.ofNat (g ||| (m <<< 5))] := by decide +kernel

theorem opcode_written : ∀ o < 64, IsWritten (opcodePat o) ([UInt8.ofNat o] ++ [0, 0]) := by decide +kernel

theorem data_head_written : ∀ d < 16, ∀ p < 2, ∀ m < 8,
    IsWritten (dataPat d p m) ([UInt8.ofNat (d ||| (p <<< 4) ||| (m <<< 5))] ++ [0] ++ [0, 0]) := by decide +kernel

theorem wr_control {g m : Nat} (hg : g < 16) (hm : m < 8) {p b : Bytes} {q : Pattern} (hq : IsWritten q p)
    (h : controlHead g m p = some b) : IsWritten (firstPat g m ++ q) b := by
  simp only [controlHead, Option.bind_eq_bind, Option.bind_eq_some_iff, Option.pure_def, Option.some.injEq] at h
  obtain ⟨x, h1, rfl⟩ := h
  obtain ⟨_, rfl⟩ := byte_iff.1 h1
  exact (first_written g hg m hm).append hq

theorem wr_group {g m o : Nat} (hg : g < 16) (hm : m < 8) (ho : o < 64) {p b : Bytes} {q : Pattern} (hq : IsWritten q p)
    (h : groupHead g m o p = some b) : IsWritten (firstPat g m ++ opcodePat o ++ q) b := by
  simp only [groupHead, Option.bind_eq_bind, Option.bind_eq_some_iff] at h
  obtain ⟨x, h1, h⟩ := h
  obtain ⟨_, rfl⟩ := byte_iff.1 h1
  rw [List.append_assoc]
  exact wr_control hg hm ((opcode_written o ho).append hq) h

theorem wr_data {d p m : Nat} (hd : d < 16) (hp : p < 2) (hm : m < 8) {x b : Bytes} {q : Pattern} (hq : IsWritten q x)
    (h : dataHead d p m x = some b) : IsWritten (dataPat d p m ++ q) b := by
  simp only [dataHead, Option.bind_eq_bind, Option.bind_eq_some_iff, Option.pure_def, Option.some.injEq] at h
  obtain ⟨y, h1, rfl⟩ := h
  obtain ⟨_, rfl⟩ := byte_iff.1 h1
  exact (data_head_written d hd p hp m hm).append hq

/-- The header fields are in range. -/
def HeadFits : Obj → Prop
  | .controlPacket g m _ => g < 16 ∧ m < 8
  | .corePacket m o _ | .sessionConfigPacket m o _ | .sessionControlPacket m o _ | .androidPacket m o _ => m < 8 ∧ o < 64
  | .dataPacket d p m _ => d < 16 ∧ p < 2 ∧ m < 8
  | .dataMessageSnd p .. | .dataMessageRcv p .. => p < 2
  | _ => True

theorem headFits_of {o : Obj} (h : FitsOpen o) : HeadFits o := by
  rcases h with h | ⟨l, rfl, _⟩ | ⟨t, l, rfl, _⟩
  · cases o <;> first | exact h.elim | trivial | exact Nat.lt_succ_of_le h.1
  · trivial
  · trivial

theorem wr_serialize {o : Obj} (ho : FitsOpen o ∨ Bare o) (hh : HeadFits o)
    (hm : ∀ s, o ≠ .sessionUpdateControllerMulticastListRsp s) {b : Bytes} (h : o.serialize = some b) :
    IsWritten (layout o) b := by
  rw [layout_eq]
  simp only [Obj.serialize, Option.bind_eq_bind, Option.bind_eq_some_iff] at h
  obtain ⟨x, h1, h⟩ := h
  have hb := wr_body ho hm h1
  cases o with
  | command c => cases c <;> exact wr_group (by simp [Obj.code, Command.code]) (by simp [Obj.code, Command.code]) (by simp [Obj.code, Command.code]) hb h
  | controlPacket => exact wr_control hh.1 hh.2 hb h
  | corePacket => exact wr_group (by simp [Obj.code]) hh.1 hh.2 hb h
  | sessionConfigPacket => exact wr_group (by simp [Obj.code]) hh.1 hh.2 hb h
  | sessionControlPacket => exact wr_group (by simp [Obj.code]) hh.1 hh.2 hb h
  | androidPacket => exact wr_group (by simp [Obj.code]) hh.1 hh.2 hb h
  | dataPacket => exact wr_data hh.1 hh.2.1 hh.2.2 hb h
  | dataMessageSnd => exact wr_data (by decide) hh (by decide) hb h
  | dataMessageRcv => exact wr_data (by decide) hh (by decide) hb h
  | _ => exact wr_group (by simp [Obj.code]) (by simp [Obj.code]) (by simp [Obj.code]) hb h

end Pica.Py
