import Verif.Proofs.PyMessages
/-! What the classes of `uci.py` read is in range and is written with as many bytes. -/

namespace Pica.Py
open Spec

set_option linter.unusedSimpArgs false

/-- What the class reads is in range and is written with as many bytes. -/
def Back (g : Nat) (c : Nat → Nat → Bytes → Option (Obj × Bytes)) : Prop :=
  ∀ mt oid s o r, c mt oid s = some (o, r) →
    o.code = (g, mt, oid) ∧ ObjFits o ∧ ∃ b, o.body = some b ∧ b.length + r.length = s.length

theorem back_status {k : Nat → Obj} {s : Bytes} {o : Obj} {r : Bytes} (h : statusOnly k s = some (o, r)) :
    ∃ v, o = k v ∧ v < 2 ^ 8 ∧ 1 + r.length = s.length := by
  simp only [statusOnly, Option.bind_eq_bind, Option.bind_eq_some_iff, need_iff, Option.pure_def, Option.some.injEq,
    Prod.mk.injEq] at h
  obtain ⟨_, h1, rfl, rfl⟩ := h
  exact ⟨_, rfl, idx_lt s 0, by rw [List.length_drop]; omega⟩

theorem back_token {k : Nat → Command} {s : Bytes} {o : Obj} {r : Bytes} (h : tokenOnly k s = some (o, r)) :
    ∃ v, o = .command (k v) ∧ v < 2 ^ 32 ∧ 4 + r.length = s.length := by
  simp only [tokenOnly, Option.bind_eq_bind, Option.bind_eq_some_iff, need_iff, Option.pure_def, Option.some.injEq,
    Prod.mk.injEq] at h
  obtain ⟨_, h1, rfl, rfl⟩ := h
  exact ⟨_, rfl, le_lt s 0 4, by rw [List.length_drop]; omega⟩

theorem back_statusTlvs {f : Nat × Bytes → Option Bytes} (hc : PyCodec tlv f TlvFits) {k : Nat → List (Nat × Bytes) → Obj}
    {s : Bytes} {o : Obj} {r : Bytes} (h : statusTlvs k s = some (o, r)) :
    ∃ v l, o = k v l ∧ v < 2 ^ 8 ∧ Listed TlvFits l ∧ ∃ b, statusList f v l = some b ∧ b.length + r.length = s.length := by
  simp only [statusTlvs, Option.bind_eq_bind, Option.bind_eq_some_iff, need_iff, Option.pure_def, Option.some.injEq,
    Prod.mk.injEq, Prod.exists] at h
  obtain ⟨_, h1, l, r', h2, rfl, rfl⟩ := h
  obtain ⟨h3, h4, h5⟩ := hc.elems_back h2
  have h6 := idx_lt s 1
  have h7 : Listed TlvFits l := ⟨by omega, h4⟩
  refine ⟨_, l, rfl, idx_lt s 0, h7, _, by rw [statusList, byte_of (idx_lt s 0), hc.listed h7]; rfl, ?_⟩
  rw [List.length_drop] at h5
  simp only [List.length_append, List.length_cons, List.length_nil]
  omega

theorem back_statusStatuses {k : Nat → List (Nat × Nat) → Obj} {s : Bytes} {o : Obj} {r : Bytes}
    (h : statusStatuses k s = some (o, r)) :
    ∃ v l, o = k v l ∧ v < 2 ^ 8 ∧ Listed PairFits l ∧
      ∃ b, statusList idStatusBytes v l = some b ∧ b.length + r.length = s.length := by
  simp only [statusStatuses, Option.bind_eq_bind, Option.bind_eq_some_iff, need_iff, Option.pure_def, Option.some.injEq,
    Prod.mk.injEq] at h
  obtain ⟨_, h1, _, h8, l, h2, rfl, rfl⟩ := h
  obtain ⟨h3, h4⟩ := codec_idStatus.recs_back h2
  have h5 := PyCodec.recs_length sized_idStatus l h4
  have h6 := idx_lt s 1
  have h7 : Listed PairFits l := ⟨by omega, h4⟩
  refine ⟨_, l, rfl, idx_lt s 0, h7, _, by rw [statusList, byte_of (idx_lt s 0), codec_idStatus.listed h7]; rfl, ?_⟩
  rw [List.length_drop] at h8
  simp only [List.length_append, List.length_cons, List.length_nil, List.length_drop]
  rw [h5, h3]
  omega

theorem back_members {m : List Nat} {n : Nat} {s : Bytes} {l : List Nat} (h : members m n s = some l) :
    l.length = n ∧ ∀ i ∈ l, i ∈ m := by
  obtain ⟨h1, h2⟩ := mapM_back h
  refine ⟨by simpa using h1, fun i hi => ?_⟩
  obtain ⟨x, _, hx⟩ := h2 i hi
  rw [fromInt_iff] at hx
  exact hx.2 ▸ hx.1

theorem back_counted {α : Type} {p : Bytes → Option (α × Bytes)} {f : α → Option Bytes} {F : α → Prop} (hc : PyCodec p f F)
    {size : Nat} (hk : Sized size f F) {k : List α → Bytes → Obj} {s : Bytes} {o : Obj} {r : Bytes}
    (h : counted p size k s = some (o, r)) :
    ∃ l v, o = k l v ∧ Listed F l ∧ (UInt8.ofNat l.length :: (l.flatMap (out f) ++ v)).length = s.length := by
  simp only [counted, Option.bind_eq_bind, Option.bind_eq_some_iff, need_iff, Option.pure_def, Option.some.injEq,
    Prod.mk.injEq] at h
  obtain ⟨_, h1, _, h8, l, h2, rfl, rfl⟩ := h
  obtain ⟨h3, h4⟩ := hc.recs_back h2
  have h5 := PyCodec.recs_length hk l h4
  have h6 := idx_lt s 0
  refine ⟨l, _, rfl, ⟨by omega, h4⟩, ?_⟩
  rw [List.length_drop] at h8
  simp only [List.length_append, List.length_cons, List.length_drop]
  rw [h5, h3]
  omega

theorem back_dlTDoAs {w bits : Nat} (hb : 256 ^ w = 2 ^ bits) {k : List (Nat × DlTdoa) → Obj} {s : Bytes} {o : Obj}
    {r : Bytes} (h : dlTDoAs w k s = some (o, r)) :
    ∃ l, o = k l ∧ Listed (AddressedFits bits) l ∧
      (UInt8.ofNat l.length :: l.flatMap (out (addressedDlTdoaBytes w))).length + r.length = s.length := by
  simp only [dlTDoAs, Option.bind_eq_bind, Option.bind_eq_some_iff, need_iff, Option.pure_def, Option.some.injEq,
    Prod.mk.injEq, Prod.exists] at h
  obtain ⟨_, h1, l, r', h2, rfl, rfl⟩ := h
  obtain ⟨h3, h4, h5⟩ := (codec_addressed hb).elems_back h2
  have h6 := idx_lt s 0
  refine ⟨l, rfl, ⟨by omega, h4⟩, ?_⟩
  rw [List.length_drop] at h5
  simp only [List.length_cons]
  omega

/-! ### Classes -/

theorem back_coreDeviceResetRsp : Back 0 coreDeviceResetRsp := by
  intro mt oid s o r h
  simp only [coreDeviceResetRsp, Option.bind_eq_bind, Option.bind_eq_some_iff, forbid_iff, need_iff, fromInt_iff, Option.pure_def,
    Option.some.injEq, Prod.mk.injEq, Prod.exists] at h
  obtain ⟨_, hf, h⟩ := h
  obtain ⟨rfl, rfl⟩ : mt = 2 ∧ oid = 0 := by omega
  obtain ⟨v, rfl, hv, hl⟩ := back_status h
  exact ⟨rfl, hv, _, byte_of hv, hl⟩

theorem back_coreGenericErrorNtf : Back 0 coreGenericErrorNtf := by
  intro mt oid s o r h
  simp only [coreGenericErrorNtf, Option.bind_eq_bind, Option.bind_eq_some_iff, forbid_iff, need_iff, fromInt_iff, Option.pure_def,
    Option.some.injEq, Prod.mk.injEq, Prod.exists] at h
  obtain ⟨_, hf, h⟩ := h
  obtain ⟨rfl, rfl⟩ : mt = 3 ∧ oid = 7 := by omega
  obtain ⟨v, rfl, hv, hl⟩ := back_status h
  exact ⟨rfl, hv, _, byte_of hv, hl⟩

theorem back_sessionInitRsp : Back 1 sessionInitRsp := by
  intro mt oid s o r h
  simp only [sessionInitRsp, Option.bind_eq_bind, Option.bind_eq_some_iff, forbid_iff, need_iff, fromInt_iff, Option.pure_def,
    Option.some.injEq, Prod.mk.injEq, Prod.exists] at h
  obtain ⟨_, hf, h⟩ := h
  obtain ⟨rfl, rfl⟩ : mt = 2 ∧ oid = 0 := by omega
  obtain ⟨v, rfl, hv, hl⟩ := back_status h
  exact ⟨rfl, hv, _, byte_of hv, hl⟩

theorem back_sessionDeinitRsp : Back 1 sessionDeinitRsp := by
  intro mt oid s o r h
  simp only [sessionDeinitRsp, Option.bind_eq_bind, Option.bind_eq_some_iff, forbid_iff, need_iff, fromInt_iff, Option.pure_def,
    Option.some.injEq, Prod.mk.injEq, Prod.exists] at h
  obtain ⟨_, hf, h⟩ := h
  obtain ⟨rfl, rfl⟩ : mt = 2 ∧ oid = 1 := by omega
  obtain ⟨v, rfl, hv, hl⟩ := back_status h
  exact ⟨rfl, hv, _, byte_of hv, hl⟩

theorem back_sessionUpdateControllerMulticastListRsp : Back 1 sessionUpdateControllerMulticastListRsp := by
  intro mt oid s o r h
  simp only [sessionUpdateControllerMulticastListRsp, Option.bind_eq_bind, Option.bind_eq_some_iff, forbid_iff, need_iff, fromInt_iff, Option.pure_def,
    Option.some.injEq, Prod.mk.injEq, Prod.exists] at h
  obtain ⟨_, hf, h⟩ := h
  obtain ⟨rfl, rfl⟩ : mt = 2 ∧ oid = 7 := by omega
  obtain ⟨v, rfl, hv, hl⟩ := back_status h
  exact ⟨rfl, hv, _, byte_of hv, hl⟩

theorem back_sessionStartRsp : Back 2 sessionStartRsp := by
  intro mt oid s o r h
  simp only [sessionStartRsp, Option.bind_eq_bind, Option.bind_eq_some_iff, forbid_iff, need_iff, fromInt_iff, Option.pure_def,
    Option.some.injEq, Prod.mk.injEq, Prod.exists] at h
  obtain ⟨_, hf, h⟩ := h
  obtain ⟨rfl, rfl⟩ : mt = 2 ∧ oid = 0 := by omega
  obtain ⟨v, rfl, hv, hl⟩ := back_status h
  exact ⟨rfl, hv, _, byte_of hv, hl⟩

theorem back_sessionStopRsp : Back 2 sessionStopRsp := by
  intro mt oid s o r h
  simp only [sessionStopRsp, Option.bind_eq_bind, Option.bind_eq_some_iff, forbid_iff, need_iff, fromInt_iff, Option.pure_def,
    Option.some.injEq, Prod.mk.injEq, Prod.exists] at h
  obtain ⟨_, hf, h⟩ := h
  obtain ⟨rfl, rfl⟩ : mt = 2 ∧ oid = 1 := by omega
  obtain ⟨v, rfl, hv, hl⟩ := back_status h
  exact ⟨rfl, hv, _, byte_of hv, hl⟩

theorem back_androidSetCountryCodeRsp : Back 12 androidSetCountryCodeRsp := by
  intro mt oid s o r h
  simp only [androidSetCountryCodeRsp, Option.bind_eq_bind, Option.bind_eq_some_iff, forbid_iff, need_iff, fromInt_iff, Option.pure_def,
    Option.some.injEq, Prod.mk.injEq, Prod.exists] at h
  obtain ⟨_, hf, h⟩ := h
  obtain ⟨rfl, rfl⟩ : mt = 2 ∧ oid = 1 := by omega
  obtain ⟨v, rfl, hv, hl⟩ := back_status h
  exact ⟨rfl, hv, _, byte_of hv, hl⟩

theorem back_sessionDeinitCmd : Back 1 sessionDeinitCmd := by
  intro mt oid s o r h
  simp only [sessionDeinitCmd, Option.bind_eq_bind, Option.bind_eq_some_iff, forbid_iff, need_iff, fromInt_iff, Option.pure_def,
    Option.some.injEq, Prod.mk.injEq, Prod.exists] at h
  obtain ⟨_, hf, h⟩ := h
  obtain ⟨rfl, rfl⟩ : mt = 1 ∧ oid = 1 := by omega
  obtain ⟨v, rfl, hv, hl⟩ := back_token h
  exact ⟨rfl, hv, _, rfl, by rw [int_length]; exact hl⟩

theorem back_sessionGetStateCmd : Back 1 sessionGetStateCmd := by
  intro mt oid s o r h
  simp only [sessionGetStateCmd, Option.bind_eq_bind, Option.bind_eq_some_iff, forbid_iff, need_iff, fromInt_iff, Option.pure_def,
    Option.some.injEq, Prod.mk.injEq, Prod.exists] at h
  obtain ⟨_, hf, h⟩ := h
  obtain ⟨rfl, rfl⟩ : mt = 1 ∧ oid = 6 := by omega
  obtain ⟨v, rfl, hv, hl⟩ := back_token h
  exact ⟨rfl, hv, _, rfl, by rw [int_length]; exact hl⟩

theorem back_sessionQueryMaxDataSizeInRangingCmd : Back 1 sessionQueryMaxDataSizeInRangingCmd := by
  intro mt oid s o r h
  simp only [sessionQueryMaxDataSizeInRangingCmd, Option.bind_eq_bind, Option.bind_eq_some_iff, forbid_iff, need_iff, fromInt_iff, Option.pure_def,
    Option.some.injEq, Prod.mk.injEq, Prod.exists] at h
  obtain ⟨_, hf, h⟩ := h
  obtain ⟨rfl, rfl⟩ : mt = 1 ∧ oid = 0xb := by omega
  obtain ⟨v, rfl, hv, hl⟩ := back_token h
  exact ⟨rfl, hv, _, rfl, by rw [int_length]; exact hl⟩

theorem back_sessionStartCmd : Back 2 sessionStartCmd := by
  intro mt oid s o r h
  simp only [sessionStartCmd, Option.bind_eq_bind, Option.bind_eq_some_iff, forbid_iff, need_iff, fromInt_iff, Option.pure_def,
    Option.some.injEq, Prod.mk.injEq, Prod.exists] at h
  obtain ⟨_, hf, h⟩ := h
  obtain ⟨rfl, rfl⟩ : mt = 1 ∧ oid = 0 := by omega
  obtain ⟨v, rfl, hv, hl⟩ := back_token h
  exact ⟨rfl, hv, _, rfl, by rw [int_length]; exact hl⟩

theorem back_sessionStopCmd : Back 2 sessionStopCmd := by
  intro mt oid s o r h
  simp only [sessionStopCmd, Option.bind_eq_bind, Option.bind_eq_some_iff, forbid_iff, need_iff, fromInt_iff, Option.pure_def,
    Option.some.injEq, Prod.mk.injEq, Prod.exists] at h
  obtain ⟨_, hf, h⟩ := h
  obtain ⟨rfl, rfl⟩ : mt = 1 ∧ oid = 1 := by omega
  obtain ⟨v, rfl, hv, hl⟩ := back_token h
  exact ⟨rfl, hv, _, rfl, by rw [int_length]; exact hl⟩

theorem back_sessionGetRangingCountCmd : Back 2 sessionGetRangingCountCmd := by
  intro mt oid s o r h
  simp only [sessionGetRangingCountCmd, Option.bind_eq_bind, Option.bind_eq_some_iff, forbid_iff, need_iff, fromInt_iff, Option.pure_def,
    Option.some.injEq, Prod.mk.injEq, Prod.exists] at h
  obtain ⟨_, hf, h⟩ := h
  obtain ⟨rfl, rfl⟩ : mt = 1 ∧ oid = 3 := by omega
  obtain ⟨v, rfl, hv, hl⟩ := back_token h
  exact ⟨rfl, hv, _, rfl, by rw [int_length]; exact hl⟩

theorem back_coreGetDeviceInfoCmd : Back 0 coreGetDeviceInfoCmd := by
  intro mt oid s o r h
  simp only [coreGetDeviceInfoCmd, Option.bind_eq_bind, Option.bind_eq_some_iff, forbid_iff, need_iff, fromInt_iff, Option.pure_def,
    Option.some.injEq, Prod.mk.injEq, Prod.exists] at h
  obtain ⟨_, hf, rfl, rfl⟩ := h
  obtain ⟨rfl, rfl⟩ : mt = 1 ∧ oid = 2 := by omega
  exact ⟨rfl, trivial, _, rfl, Nat.zero_add _⟩

theorem back_coreGetCapsInfoCmd : Back 0 coreGetCapsInfoCmd := by
  intro mt oid s o r h
  simp only [coreGetCapsInfoCmd, Option.bind_eq_bind, Option.bind_eq_some_iff, forbid_iff, need_iff, fromInt_iff, Option.pure_def,
    Option.some.injEq, Prod.mk.injEq, Prod.exists] at h
  obtain ⟨_, hf, rfl, rfl⟩ := h
  obtain ⟨rfl, rfl⟩ : mt = 1 ∧ oid = 3 := by omega
  exact ⟨rfl, trivial, _, rfl, Nat.zero_add _⟩

theorem back_coreQueryTimeStampCmd : Back 0 coreQueryTimeStampCmd := by
  intro mt oid s o r h
  simp only [coreQueryTimeStampCmd, Option.bind_eq_bind, Option.bind_eq_some_iff, forbid_iff, need_iff, fromInt_iff, Option.pure_def,
    Option.some.injEq, Prod.mk.injEq, Prod.exists] at h
  obtain ⟨_, hf, rfl, rfl⟩ := h
  obtain ⟨rfl, rfl⟩ : mt = 1 ∧ oid = 8 := by omega
  exact ⟨rfl, trivial, _, rfl, Nat.zero_add _⟩

theorem back_sessionGetCountCmd : Back 1 sessionGetCountCmd := by
  intro mt oid s o r h
  simp only [sessionGetCountCmd, Option.bind_eq_bind, Option.bind_eq_some_iff, forbid_iff, need_iff, fromInt_iff, Option.pure_def,
    Option.some.injEq, Prod.mk.injEq, Prod.exists] at h
  obtain ⟨_, hf, rfl, rfl⟩ := h
  obtain ⟨rfl, rfl⟩ : mt = 1 ∧ oid = 5 := by omega
  exact ⟨rfl, trivial, _, rfl, Nat.zero_add _⟩

theorem back_sessionUpdateDtAnchorRangingRoundsCmd : Back 1 sessionUpdateDtAnchorRangingRoundsCmd := by
  intro mt oid s o r h
  simp only [sessionUpdateDtAnchorRangingRoundsCmd, Option.bind_eq_bind, Option.bind_eq_some_iff, forbid_iff, need_iff, fromInt_iff, Option.pure_def,
    Option.some.injEq, Prod.mk.injEq, Prod.exists] at h
  obtain ⟨_, hf, rfl, rfl⟩ := h
  obtain ⟨rfl, rfl⟩ : mt = 1 ∧ oid = 8 := by omega
  exact ⟨rfl, trivial, _, rfl, Nat.zero_add _⟩

theorem back_androidGetPowerStatsCmd : Back 12 androidGetPowerStatsCmd := by
  intro mt oid s o r h
  simp only [androidGetPowerStatsCmd, Option.bind_eq_bind, Option.bind_eq_some_iff, forbid_iff, need_iff, fromInt_iff, Option.pure_def,
    Option.some.injEq, Prod.mk.injEq, Prod.exists] at h
  obtain ⟨_, hf, rfl, rfl⟩ := h
  obtain ⟨rfl, rfl⟩ : mt = 1 ∧ oid = 0 := by omega
  exact ⟨rfl, trivial, _, rfl, Nat.zero_add _⟩

theorem back_sessionUpdateDtAnchorRangingRoundsRsp : Back 1 sessionUpdateDtAnchorRangingRoundsRsp := by
  intro mt oid s o r h
  simp only [sessionUpdateDtAnchorRangingRoundsRsp, Option.bind_eq_bind, Option.bind_eq_some_iff, forbid_iff, need_iff, fromInt_iff, Option.pure_def,
    Option.some.injEq, Prod.mk.injEq, Prod.exists] at h
  obtain ⟨_, hf, rfl, rfl⟩ := h
  obtain ⟨rfl, rfl⟩ : mt = 2 ∧ oid = 8 := by omega
  exact ⟨rfl, trivial, _, rfl, Nat.zero_add _⟩

theorem back_coreGetCapsInfoRsp : Back 0 coreGetCapsInfoRsp := by
  intro mt oid s o r h
  simp only [coreGetCapsInfoRsp, Option.bind_eq_bind, Option.bind_eq_some_iff, forbid_iff, need_iff, fromInt_iff, Option.pure_def,
    Option.some.injEq, Prod.mk.injEq, Prod.exists] at h
  obtain ⟨_, hf, h⟩ := h
  obtain ⟨rfl, rfl⟩ : mt = 2 ∧ oid = 3 := by omega
  obtain ⟨v, l, rfl, hv, hl, b, hb, he⟩ := back_statusTlvs codec_appConfigTlv h
  exact ⟨rfl, ⟨hv, hl⟩, b, hb, he⟩

theorem back_sessionGetAppConfigRsp : Back 1 sessionGetAppConfigRsp := by
  intro mt oid s o r h
  simp only [sessionGetAppConfigRsp, Option.bind_eq_bind, Option.bind_eq_some_iff, forbid_iff, need_iff, fromInt_iff, Option.pure_def,
    Option.some.injEq, Prod.mk.injEq, Prod.exists] at h
  obtain ⟨_, hf, h⟩ := h
  obtain ⟨rfl, rfl⟩ : mt = 2 ∧ oid = 4 := by omega
  obtain ⟨v, l, rfl, hv, hl, b, hb, he⟩ := back_statusTlvs codec_appConfigTlv h
  exact ⟨rfl, ⟨hv, hl⟩, b, hb, he⟩

theorem back_coreGetConfigRsp : Back 0 coreGetConfigRsp := by
  intro mt oid s o r h
  simp only [coreGetConfigRsp, Option.bind_eq_bind, Option.bind_eq_some_iff, forbid_iff, need_iff, fromInt_iff, Option.pure_def,
    Option.some.injEq, Prod.mk.injEq, Prod.exists] at h
  obtain ⟨_, hf, h⟩ := h
  obtain ⟨rfl, rfl⟩ : mt = 2 ∧ oid = 5 := by omega
  obtain ⟨v, l, rfl, hv, hl, b, hb, he⟩ := back_statusTlvs codec_configParameter h
  exact ⟨rfl, ⟨hv, hl⟩, b, hb, he⟩

theorem back_coreSetConfigRsp : Back 0 coreSetConfigRsp := by
  intro mt oid s o r h
  simp only [coreSetConfigRsp, Option.bind_eq_bind, Option.bind_eq_some_iff, forbid_iff, need_iff, fromInt_iff, Option.pure_def,
    Option.some.injEq, Prod.mk.injEq, Prod.exists] at h
  obtain ⟨_, hf, h⟩ := h
  obtain ⟨rfl, rfl⟩ : mt = 2 ∧ oid = 4 := by omega
  obtain ⟨v, l, rfl, hv, hl, b, hb, he⟩ := back_statusStatuses h
  exact ⟨rfl, ⟨hv, hl⟩, b, hb, he⟩

theorem back_sessionSetAppConfigRsp : Back 1 sessionSetAppConfigRsp := by
  intro mt oid s o r h
  simp only [sessionSetAppConfigRsp, Option.bind_eq_bind, Option.bind_eq_some_iff, forbid_iff, need_iff, fromInt_iff, Option.pure_def,
    Option.some.injEq, Prod.mk.injEq, Prod.exists] at h
  obtain ⟨_, hf, h⟩ := h
  obtain ⟨rfl, rfl⟩ : mt = 2 ∧ oid = 3 := by omega
  obtain ⟨v, l, rfl, hv, hl, b, hb, he⟩ := back_statusStatuses h
  exact ⟨rfl, ⟨hv, hl⟩, b, hb, he⟩

theorem back_coreQueryTimeStampRsp : Back 0 coreQueryTimeStampRsp := by
  intro mt oid s o r h
  simp only [coreQueryTimeStampRsp, Option.bind_eq_bind, Option.bind_eq_some_iff, forbid_iff, need_iff, fromInt_iff, Option.pure_def,
    Option.some.injEq, Prod.mk.injEq, Prod.exists] at h
  obtain ⟨_, hf, _, h1, rfl, rfl⟩ := h
  obtain ⟨rfl, rfl⟩ : mt = 2 ∧ oid = 8 := by omega
  refine ⟨rfl, ⟨idx_lt s _, le_lt s 1 9⟩, _, by rw [Obj.body, byte_of (idx_lt s _)]; rfl, ?_⟩
  simp only [List.length_append, int_length, List.length_cons, List.length_nil, List.length_drop]
  omega

theorem back_sessionInitRspV2 : Back 1 sessionInitRspV2 := by
  intro mt oid s o r h
  simp only [sessionInitRspV2, Option.bind_eq_bind, Option.bind_eq_some_iff, forbid_iff, need_iff, fromInt_iff, Option.pure_def,
    Option.some.injEq, Prod.mk.injEq, Prod.exists] at h
  obtain ⟨_, hf, _, h1, rfl, rfl⟩ := h
  obtain ⟨rfl, rfl⟩ : mt = 2 ∧ oid = 0 := by omega
  refine ⟨rfl, ⟨idx_lt s _, le_lt s 1 5⟩, _, by rw [Obj.body, byte_of (idx_lt s _)]; rfl, ?_⟩
  simp only [List.length_append, int_length, List.length_cons, List.length_nil, List.length_drop]
  omega

theorem back_sessionGetRangingCountRsp : Back 2 sessionGetRangingCountRsp := by
  intro mt oid s o r h
  simp only [sessionGetRangingCountRsp, Option.bind_eq_bind, Option.bind_eq_some_iff, forbid_iff, need_iff, fromInt_iff, Option.pure_def,
    Option.some.injEq, Prod.mk.injEq, Prod.exists] at h
  obtain ⟨_, hf, _, h1, rfl, rfl⟩ := h
  obtain ⟨rfl, rfl⟩ : mt = 2 ∧ oid = 3 := by omega
  refine ⟨rfl, ⟨idx_lt s _, le_lt s 1 5⟩, _, by rw [Obj.body, byte_of (idx_lt s _)]; rfl, ?_⟩
  simp only [List.length_append, int_length, List.length_cons, List.length_nil, List.length_drop]
  omega

theorem back_sessionStatusNtf : Back 1 sessionStatusNtf := by
  intro mt oid s o r h
  simp only [sessionStatusNtf, Option.bind_eq_bind, Option.bind_eq_some_iff, forbid_iff, need_iff, fromInt_iff, Option.pure_def,
    Option.some.injEq, Prod.mk.injEq, Prod.exists] at h
  obtain ⟨_, hf, _, h1, _, ⟨h2, rfl⟩, rfl, rfl⟩ := h
  obtain ⟨rfl, rfl⟩ : mt = 3 ∧ oid = 2 := by omega
  refine ⟨rfl, ⟨le_lt s 0 4, h2, idx_lt s _⟩, _, by rw [Obj.body, byte_of (idx_lt s _)]; rfl, ?_⟩
  simp only [List.length_append, int_length, List.length_cons, List.length_nil, List.length_drop]
  omega

theorem back_sessionGetCountRsp : Back 1 sessionGetCountRsp := by
  intro mt oid s o r h
  simp only [sessionGetCountRsp, Option.bind_eq_bind, Option.bind_eq_some_iff, forbid_iff, need_iff, fromInt_iff, Option.pure_def,
    Option.some.injEq, Prod.mk.injEq, Prod.exists] at h
  obtain ⟨_, hf, _, h1, rfl, rfl⟩ := h
  obtain ⟨rfl, rfl⟩ : mt = 2 ∧ oid = 5 := by omega
  refine ⟨rfl, ⟨idx_lt s _, idx_lt s _⟩, _, by rw [Obj.body, byte_of (idx_lt s _)]; rfl, ?_⟩
  simp only [List.length_append, int_length, List.length_cons, List.length_nil, List.length_drop]
  omega

theorem back_sessionGetStateRsp : Back 1 sessionGetStateRsp := by
  intro mt oid s o r h
  simp only [sessionGetStateRsp, Option.bind_eq_bind, Option.bind_eq_some_iff, forbid_iff, need_iff, fromInt_iff, Option.pure_def,
    Option.some.injEq, Prod.mk.injEq, Prod.exists] at h
  obtain ⟨_, hf, _, h1, _, ⟨h2, rfl⟩, rfl, rfl⟩ := h
  obtain ⟨rfl, rfl⟩ : mt = 2 ∧ oid = 6 := by omega
  refine ⟨rfl, ⟨idx_lt s _, h2⟩, _, by rw [Obj.body, byte_of (idx_lt s _), byte_of (idx_lt s _)]; rfl, ?_⟩
  simp only [List.length_append, int_length, List.length_cons, List.length_nil, List.length_drop]
  omega

theorem back_sessionQueryMaxDataSizeInRangingRsp : Back 1 sessionQueryMaxDataSizeInRangingRsp := by
  intro mt oid s o r h
  simp only [sessionQueryMaxDataSizeInRangingRsp, Option.bind_eq_bind, Option.bind_eq_some_iff, forbid_iff, need_iff, fromInt_iff, Option.pure_def,
    Option.some.injEq, Prod.mk.injEq, Prod.exists] at h
  obtain ⟨_, hf, _, h1, rfl, rfl⟩ := h
  obtain ⟨rfl, rfl⟩ : mt = 2 ∧ oid = 0xb := by omega
  refine ⟨rfl, ⟨le_lt s 0 4, le_lt s 4 6⟩, _, rfl, ?_⟩
  simp only [List.length_append, int_length, List.length_cons, List.length_nil, List.length_drop]
  omega

theorem back_sessionDataCreditNtf : Back 2 sessionDataCreditNtf := by
  intro mt oid s o r h
  simp only [sessionDataCreditNtf, Option.bind_eq_bind, Option.bind_eq_some_iff, forbid_iff, need_iff, fromInt_iff, Option.pure_def,
    Option.some.injEq, Prod.mk.injEq, Prod.exists] at h
  obtain ⟨_, hf, _, h1, _, ⟨h2, rfl⟩, rfl, rfl⟩ := h
  obtain ⟨rfl, rfl⟩ : mt = 3 ∧ oid = 4 := by omega
  refine ⟨rfl, ⟨le_lt s 0 4, h2⟩, _, by rw [Obj.body, byte_of (idx_lt s _)]; rfl, ?_⟩
  simp only [List.length_append, int_length, List.length_cons, List.length_nil, List.length_drop]
  omega

theorem back_sessionDataTransferStatusNtf : Back 2 sessionDataTransferStatusNtf := by
  intro mt oid s o r h
  simp only [sessionDataTransferStatusNtf, Option.bind_eq_bind, Option.bind_eq_some_iff, forbid_iff, need_iff, fromInt_iff, Option.pure_def,
    Option.some.injEq, Prod.mk.injEq, Prod.exists] at h
  obtain ⟨_, hf, _, h1, _, ⟨h2, rfl⟩, rfl, rfl⟩ := h
  obtain ⟨rfl, rfl⟩ : mt = 3 ∧ oid = 5 := by omega
  refine ⟨rfl, ⟨le_lt s 0 4, idx_lt s _, h2, idx_lt s _⟩, _, by rw [Obj.body, byte_of (idx_lt s _)]; rfl, ?_⟩
  simp only [List.length_append, int_length, List.length_cons, List.length_nil, List.length_drop]
  omega

theorem back_androidGetPowerStatsRsp : Back 12 androidGetPowerStatsRsp := by
  intro mt oid s o r h
  simp only [androidGetPowerStatsRsp, Option.bind_eq_bind, Option.bind_eq_some_iff, forbid_iff, need_iff, fromInt_iff, Option.pure_def,
    Option.some.injEq, Prod.mk.injEq, Prod.exists] at h
  obtain ⟨_, hf, _, h1, rfl, rfl⟩ := h
  obtain ⟨rfl, rfl⟩ : mt = 2 ∧ oid = 0 := by omega
  refine ⟨rfl, ⟨idx_lt s _, le_lt s 1 5, le_lt s 5 9, le_lt s 9 13, le_lt s 13 17⟩, _, by rw [Obj.body, byte_of (idx_lt s _)]; rfl, ?_⟩
  simp only [List.length_append, int_length, List.length_cons, List.length_nil, List.length_drop]
  omega

theorem back_sessionInitCmd : Back 1 sessionInitCmd := by
  intro mt oid s o r h
  simp only [sessionInitCmd, Option.bind_eq_bind, Option.bind_eq_some_iff, forbid_iff, need_iff, fromInt_iff, Option.pure_def,
    Option.some.injEq, Prod.mk.injEq, Prod.exists] at h
  obtain ⟨_, hf, _, h1, _, ⟨h2, rfl⟩, rfl, rfl⟩ := h
  obtain ⟨rfl, rfl⟩ : mt = 1 ∧ oid = 0 := by omega
  refine ⟨rfl, ⟨le_lt s 0 4, h2⟩, _, by rw [Obj.body, Command.body, byte_of (idx_lt s _)]; rfl, ?_⟩
  simp only [List.length_append, int_length, List.length_cons, List.length_nil, List.length_drop]
  omega

theorem back_sessionUpdateControllerMulticastListCmd : Back 1 sessionUpdateControllerMulticastListCmd := by
  intro mt oid s o r h
  simp only [sessionUpdateControllerMulticastListCmd, Option.bind_eq_bind, Option.bind_eq_some_iff, forbid_iff, need_iff, fromInt_iff, Option.pure_def,
    Option.some.injEq, Prod.mk.injEq, Prod.exists] at h
  obtain ⟨_, hf, _, h1, _, ⟨h2, rfl⟩, rfl, rfl⟩ := h
  obtain ⟨rfl, rfl⟩ : mt = 1 ∧ oid = 7 := by omega
  refine ⟨rfl, ⟨le_lt s 0 4, h2⟩, _, by rw [Obj.body, Command.body, byte_of (idx_lt s _)]; rfl, ?_⟩
  simp only [List.length_append, int_length, List.length_cons, List.length_nil, List.length_drop]
  omega

theorem back_coreDeviceResetCmd : Back 0 coreDeviceResetCmd := by
  intro mt oid s o r h
  simp only [coreDeviceResetCmd, Option.bind_eq_bind, Option.bind_eq_some_iff, forbid_iff, need_iff, fromInt_iff, Option.pure_def,
    Option.some.injEq, Prod.mk.injEq, Prod.exists] at h
  obtain ⟨_, hf, _, h1, _, ⟨h2, rfl⟩, rfl, rfl⟩ := h
  obtain ⟨rfl, rfl⟩ : mt = 1 ∧ oid = 0 := by omega
  refine ⟨rfl, h2, _, byte_of (idx_lt s _), ?_⟩
  simp only [List.length_append, int_length, List.length_cons, List.length_nil, List.length_drop]
  omega

theorem back_coreDeviceStatusNtf : Back 0 coreDeviceStatusNtf := by
  intro mt oid s o r h
  simp only [coreDeviceStatusNtf, Option.bind_eq_bind, Option.bind_eq_some_iff, forbid_iff, need_iff, fromInt_iff, Option.pure_def,
    Option.some.injEq, Prod.mk.injEq, Prod.exists] at h
  obtain ⟨_, hf, _, h1, _, ⟨h2, rfl⟩, rfl, rfl⟩ := h
  obtain ⟨rfl, rfl⟩ : mt = 3 ∧ oid = 1 := by omega
  refine ⟨rfl, h2, _, byte_of (idx_lt s _), ?_⟩
  simp only [List.length_append, int_length, List.length_cons, List.length_nil, List.length_drop]
  omega

theorem back_androidSetCountryCodeCmd : Back 12 androidSetCountryCodeCmd := by
  intro mt oid s o r h
  simp only [androidSetCountryCodeCmd, Option.bind_eq_bind, Option.bind_eq_some_iff, forbid_iff, need_iff, fromInt_iff, Option.pure_def,
    Option.some.injEq, Prod.mk.injEq, Prod.exists] at h
  obtain ⟨_, hf, _, h1, rfl, rfl⟩ := h
  obtain ⟨rfl, rfl⟩ : mt = 1 ∧ oid = 1 := by omega
  refine ⟨rfl, ?_, _, rfl, ?_⟩
  · show (s.take 2).length = 2
    rw [List.length_take]; omega
  · rw [List.length_take, List.length_drop]; omega

theorem back_coreSetConfigCmd : Back 0 coreSetConfigCmd := by
  intro mt oid s o r h
  simp only [coreSetConfigCmd, Option.bind_eq_bind, Option.bind_eq_some_iff, forbid_iff, need_iff, fromInt_iff, Option.pure_def,
    Option.some.injEq, Prod.mk.injEq, Prod.exists] at h
  obtain ⟨_, hf, _, h1, l, r', h2, rfl, rfl⟩ := h
  obtain ⟨rfl, rfl⟩ : mt = 1 ∧ oid = 4 := by omega
  obtain ⟨h3, h4, h5⟩ := codec_configParameter.elems_back h2
  have h6 := idx_lt s 0
  have h7 : Listed TlvFits l := ⟨by omega, h4⟩
  refine ⟨rfl, h7, _, codec_configParameter.listed h7, ?_⟩
  rw [List.length_drop] at h5
  rw [List.length_cons]
  omega

theorem back_sessionSetAppConfigCmd : Back 1 sessionSetAppConfigCmd := by
  intro mt oid s o r h
  simp only [sessionSetAppConfigCmd, Option.bind_eq_bind, Option.bind_eq_some_iff, forbid_iff, need_iff, fromInt_iff, Option.pure_def,
    Option.some.injEq, Prod.mk.injEq, Prod.exists] at h
  obtain ⟨_, hf, _, h1, l, r', h2, rfl, rfl⟩ := h
  obtain ⟨rfl, rfl⟩ : mt = 1 ∧ oid = 3 := by omega
  obtain ⟨h3, h4, h5⟩ := codec_appConfigTlv.elems_back h2
  have h6 := idx_lt s 4
  have h7 : Listed TlvFits l := ⟨by omega, h4⟩
  refine ⟨rfl, ⟨le_lt s 0 4, h7⟩, _, by rw [Obj.body, Command.body, codec_appConfigTlv.listed h7]; rfl, ?_⟩
  rw [List.length_drop] at h5
  rw [List.length_append, List.length_cons, int_length]
  omega

theorem back_coreGetConfigCmd : Back 0 coreGetConfigCmd := by
  intro mt oid s o r h
  simp only [coreGetConfigCmd, Option.bind_eq_bind, Option.bind_eq_some_iff, forbid_iff, need_iff, fromInt_iff, Option.pure_def,
    Option.some.injEq, Prod.mk.injEq, Prod.exists] at h
  obtain ⟨_, hf, _, h1, _, h8, l, h2, rfl, rfl⟩ := h
  obtain ⟨rfl, rfl⟩ : mt = 1 ∧ oid = 5 := by omega
  obtain ⟨h3, h4⟩ := back_members h2
  have h6 := idx_lt s 0
  have h7 : Listed (· ∈ configParameterIds) l := ⟨by omega, h4⟩
  have hb : ∀ i ∈ l, i < 2 ^ 8 := fun i hi => configParameterId_lt i (h4 i hi)
  refine ⟨rfl, h7, _, list_of h7.1 fun i hi => byte_out (hb i hi), ?_⟩
  rw [List.length_drop] at h8
  rw [flatMap_byte hb, List.length_cons, List.length_map, List.length_drop, List.length_drop, h3]
  omega

theorem back_sessionGetAppConfigCmd : Back 1 sessionGetAppConfigCmd := by
  intro mt oid s o r h
  simp only [sessionGetAppConfigCmd, Option.bind_eq_bind, Option.bind_eq_some_iff, forbid_iff, need_iff, fromInt_iff, Option.pure_def,
    Option.some.injEq, Prod.mk.injEq, Prod.exists] at h
  obtain ⟨_, hf, _, h1, _, h8, l, h2, rfl, rfl⟩ := h
  obtain ⟨rfl, rfl⟩ : mt = 1 ∧ oid = 4 := by omega
  obtain ⟨h3, h4⟩ := back_members h2
  have h6 := idx_lt s 4
  have h7 : Listed (· ∈ appConfigTlvTypes) l := ⟨by omega, h4⟩
  have hb : ∀ i ∈ l, i < 2 ^ 8 := fun i hi => appConfigTlvType_lt i (h4 i hi)
  refine ⟨rfl, ⟨le_lt s 0 4, h7⟩, _, by
    rw [Obj.body, Command.body, list_of h7.1 fun i hi => byte_out (hb i hi)]; rfl, ?_⟩
  rw [List.length_drop] at h8
  rw [flatMap_byte hb, List.length_append, int_length, List.length_cons, List.length_map, List.length_drop, List.length_drop, h3]
  omega

theorem back_sessionUpdateDtTagRangingRoundsCmd : Back 1 sessionUpdateDtTagRangingRoundsCmd := by
  intro mt oid s o r h
  simp only [sessionUpdateDtTagRangingRoundsCmd, Option.bind_eq_bind, Option.bind_eq_some_iff, forbid_iff, need_iff, fromInt_iff, Option.pure_def,
    Option.some.injEq, Prod.mk.injEq, Prod.exists] at h
  obtain ⟨_, hf, _, h1, _, h8, rfl, rfl⟩ := h
  obtain ⟨rfl, rfl⟩ : mt = 1 ∧ oid = 9 := by omega
  have h6 := idx_lt s 4
  rw [List.length_drop] at h8
  have h3 : ((s.drop 5).take (idx s 4)).length = idx s 4 := by rw [List.length_take, List.length_drop]; omega
  refine ⟨rfl, ⟨le_lt s 0 4, by rw [h3]; omega⟩, _, by
    rw [Obj.body, Command.body, List.take_of_length_le (by rw [h3]; omega), h3, byte_of h6]; rfl, ?_⟩
  rw [List.length_append, List.length_append, int_length, h3, List.length_drop, List.length_drop]
  simp only [List.length_cons, List.length_nil]
  omega

theorem back_sessionUpdateDtTagRangingRoundsRsp : Back 1 sessionUpdateDtTagRangingRoundsRsp := by
  intro mt oid s o r h
  simp only [sessionUpdateDtTagRangingRoundsRsp, Option.bind_eq_bind, Option.bind_eq_some_iff, forbid_iff, need_iff, fromInt_iff, Option.pure_def,
    Option.some.injEq, Prod.mk.injEq, Prod.exists] at h
  obtain ⟨_, hf, _, h1, _, h8, rfl, rfl⟩ := h
  obtain ⟨rfl, rfl⟩ : mt = 2 ∧ oid = 9 := by omega
  have h6 := idx_lt s 1
  rw [List.length_drop] at h8
  have h3 : ((s.drop 2).take (idx s 1)).length = idx s 1 := by rw [List.length_take, List.length_drop]; omega
  refine ⟨rfl, ⟨idx_lt s 0, by rw [h3]; omega⟩, _, by
    rw [Obj.body, byte_of (idx_lt s 0), fwd_countedBytes (by rw [h3]; omega)]; rfl, ?_⟩
  rw [List.length_append, List.length_cons, h3, List.length_drop, List.length_drop]
  simp only [List.length_cons, List.length_nil]
  omega

theorem back_coreGetDeviceInfoRsp : Back 0 coreGetDeviceInfoRsp := by
  intro mt oid s o r h
  simp only [coreGetDeviceInfoRsp, Option.bind_eq_bind, Option.bind_eq_some_iff, forbid_iff, need_iff, fromInt_iff, Option.pure_def,
    Option.some.injEq, Prod.mk.injEq, Prod.exists] at h
  obtain ⟨_, hf, _, h1, _, h8, rfl, rfl⟩ := h
  obtain ⟨rfl, rfl⟩ : mt = 2 ∧ oid = 2 := by omega
  have h6 := idx_lt s 9
  rw [List.length_drop] at h8
  have h3 : ((s.drop 10).take (idx s 9)).length = idx s 9 := by rw [List.length_take, List.length_drop]; omega
  refine ⟨rfl, ⟨idx_lt s 0, le_lt s 1 3, le_lt s 3 5, le_lt s 5 7, le_lt s 7 9, by rw [h3]; omega⟩, _, by
    rw [Obj.body, byte_of (idx_lt s 0), fwd_countedBytes (by rw [h3]; omega)]; rfl, ?_⟩
  simp only [List.length_append, List.length_cons, List.length_nil, int_length, h3, List.length_drop]
  omega

theorem back_sessionUpdateControllerMulticastListNtf : Back 1 sessionUpdateControllerMulticastListNtf := by
  intro mt oid s o r h
  simp only [sessionUpdateControllerMulticastListNtf, Option.bind_eq_bind, Option.bind_eq_some_iff, forbid_iff, need_iff, fromInt_iff, Option.pure_def,
    Option.some.injEq, Prod.mk.injEq, Prod.exists] at h
  obtain ⟨_, hf, _, h1, _, h8, l, h2, rfl, rfl⟩ := h
  obtain ⟨rfl, rfl⟩ : mt = 3 ∧ oid = 7 := by omega
  obtain ⟨h3, h4⟩ := codec_controleeStatus.recs_back h2
  have h5 := PyCodec.recs_length sized_controleeStatus l h4
  have h6 := idx_lt s 4
  have h7 : Listed ControleeStatusFits l := ⟨by omega, h4⟩
  refine ⟨rfl, ⟨le_lt s 0 4, h7⟩, _, by rw [Obj.body, codec_controleeStatus.listed h7]; rfl, ?_⟩
  rw [List.length_drop] at h8
  simp only [List.length_append, List.length_cons, int_length, List.length_drop]
  rw [h5, h3]
  omega

theorem back_androidRangeDiagnosticsNtf : Back 12 androidRangeDiagnosticsNtf := by
  intro mt oid s o r h
  simp only [androidRangeDiagnosticsNtf, Option.bind_eq_bind, Option.bind_eq_some_iff, forbid_iff, need_iff, fromInt_iff, Option.pure_def,
    Option.some.injEq, Prod.mk.injEq, Prod.exists] at h
  obtain ⟨_, hf, _, h1, l, r', h2, rfl, rfl⟩ := h
  obtain ⟨rfl, rfl⟩ : mt = 3 ∧ oid = 2 := by omega
  obtain ⟨h3, h4, h5⟩ := codec_frameReport.elems_back h2
  have h6 := idx_lt s 8
  have h7 : Listed FrameReportFits l := ⟨by omega, h4⟩
  refine ⟨rfl, ⟨le_lt s 0 4, le_lt s 4 8, h7⟩, _, by rw [Obj.body, codec_frameReport.listed h7]; rfl, ?_⟩
  rw [List.length_drop] at h5
  simp only [List.length_append, List.length_cons, int_length]
  omega

/-! ### Session notifications -/

theorem mem_of_firstChild {α : Type} {l : List (Option (α × Bytes))} {x : α} (h : firstChild l = some x) :
    some (x, []) ∈ l := by
  induction l with
  | nil => cases h
  | cons y l ih =>
    match y, h with
    | none, h => exact List.mem_cons_of_mem _ (ih h)
    | some (z, []), h =>
      simp only [firstChild, Option.some.injEq] at h
      subst h
      exact List.mem_cons_self
    | some (z, a :: b), h => exact List.mem_cons_of_mem _ (ih h)

theorem length_info {n t r i type ind : Nat} (p : Bytes) :
    (int 4 n ++ int 4 t ++ int 1 r ++ int 4 i ++ [UInt8.ofNat type] ++ [0] ++ [UInt8.ofNat ind] ++
      List.replicate 8 0 ++ p).length = 24 + p.length := by
  simp only [List.length_append, int_length, List.length_cons, List.length_nil, List.length_replicate]

theorem back_infoChild {n t r i type ind : Nat} (hi : InfoFits n t r i) {p : Bytes} {o : Obj}
    (h : infoChild n t r i type ind p = some o) :
    o.code = (2, 3, 0) ∧ ObjFits o ∧ ∃ b, o.body = some b ∧ b.length = 24 + p.length := by
  have h := mem_of_firstChild h
  simp only [List.mem_cons, List.not_mem_nil, or_false] at h
  rcases h with h | h | h | h | h | h <;> replace h := h.symm
  · simp only [shortMacTwoWaySessionInfoNtf, Option.bind_eq_bind, Option.bind_eq_some_iff] at h
    obtain ⟨_, _, h⟩ := h
    obtain ⟨l, v, rfl, hl, he⟩ := back_counted codec_measurement sized_measurement h
    refine ⟨rfl, ⟨hi, hl⟩, _, by
      rw [Obj.body, codec_measurement.listed hl]; simp only [Option.bind_eq_bind, Option.bind_some]
      exact infoBody_of (by simp) (by simp) _, ?_⟩
    rw [length_info, ← he]
    rfl
  · simp only [extendedMacTwoWaySessionInfoNtf, Option.bind_eq_bind, Option.bind_eq_some_iff] at h
    obtain ⟨_, _, h⟩ := h
    obtain ⟨l, v, rfl, hl, he⟩ := back_counted codec_extMeasurement sized_extMeasurement h
    refine ⟨rfl, ⟨hi, hl⟩, _, by
      rw [Obj.body, codec_extMeasurement.listed hl]; simp only [Option.bind_eq_bind, Option.bind_some]
      exact infoBody_of (by simp) (by simp) _, ?_⟩
    rw [length_info, ← he]
    rfl
  · simp only [shortMacDlTDoASessionInfoNtf, Option.bind_eq_bind, Option.bind_eq_some_iff] at h
    obtain ⟨_, _, h⟩ := h
    have hc : PyCodec (addressedDlTdoa 2) (addressedDlTdoaBytes 2) (AddressedFits 16) := codec_addressed (by decide)
    obtain ⟨l, rfl, hl, he⟩ := back_dlTDoAs (bits := 16) (by decide) h
    refine ⟨rfl, ⟨hi, hl⟩, _, by
      rw [Obj.body, hc.listed hl]; simp only [Option.bind_eq_bind, Option.bind_some]
      exact infoBody_of (by simp) (by simp) _, ?_⟩
    rw [length_info, ← he]
    rfl
  · simp only [extendedMacDlTDoASessionInfoNtf, Option.bind_eq_bind, Option.bind_eq_some_iff] at h
    obtain ⟨_, _, h⟩ := h
    have hc : PyCodec (addressedDlTdoa 8) (addressedDlTdoaBytes 8) (AddressedFits 64) := codec_addressed (by decide)
    obtain ⟨l, rfl, hl, he⟩ := back_dlTDoAs (bits := 64) (by decide) h
    refine ⟨rfl, ⟨hi, hl⟩, _, by
      rw [Obj.body, hc.listed hl]; simp only [Option.bind_eq_bind, Option.bind_some]
      exact infoBody_of (by simp) (by simp) _, ?_⟩
    rw [length_info, ← he]
    rfl
  · simp only [shortMacOwrAoaSessionInfoNtf, Option.bind_eq_bind, Option.bind_eq_some_iff] at h
    obtain ⟨_, _, h⟩ := h
    obtain ⟨l, v, rfl, hl, he⟩ := back_counted codec_owrAoa sized_owrAoa h
    refine ⟨rfl, ⟨hi, hl⟩, _, by
      rw [Obj.body, codec_owrAoa.listed hl]; simp only [Option.bind_eq_bind, Option.bind_some]
      exact infoBody_of (by simp) (by simp) _, ?_⟩
    rw [length_info, ← he]
    rfl
  · simp only [extendedMacOwrAoaSessionInfoNtf, Option.bind_eq_bind, Option.bind_eq_some_iff] at h
    obtain ⟨_, _, h⟩ := h
    obtain ⟨l, v, rfl, hl, he⟩ := back_counted codec_extOwrAoa sized_extOwrAoa h
    refine ⟨rfl, ⟨hi, hl⟩, _, by
      rw [Obj.body, codec_extOwrAoa.listed hl]; simp only [Option.bind_eq_bind, Option.bind_some]
      exact infoBody_of (by simp) (by simp) _, ?_⟩
    rw [length_info, ← he]
    rfl

/-- A session notification that no derived class takes is written and read back as well. -/
theorem back_sessionInfoNtf {mt oid : Nat} {s : Bytes} {o : Obj} {r : Bytes} (h : sessionInfoNtf mt oid s = some (o, r)) :
    o.code = (2, mt, oid) ∧ (ObjFits o ∨ Bare o ∧ Reads sessionInfoNtf o ∧ ∃ n t r i y d p, o = .sessionInfoNtf n t r i y d p) ∧
      ∃ b, o.body = some b ∧ b.length + r.length = s.length := by
  simp only [sessionInfoNtf, Option.bind_eq_bind, Option.bind_eq_some_iff, forbid_iff, need_iff, fromInt_iff, Option.pure_def,
    Option.some.injEq, Prod.mk.injEq] at h
  obtain ⟨_, hf, _, h1, _, ⟨h2, rfl⟩, _, ⟨h3, rfl⟩, h4, rfl⟩ := h
  obtain ⟨rfl, rfl⟩ : mt = 3 ∧ oid = 0 := by omega
  have hi : InfoFits (le s 0 4) (le s 4 8) (idx s 8) (le s 9 13) := ⟨le_lt s 0 4, le_lt s 4 8, idx_lt s 8, le_lt s 9 13⟩
  have hl : 24 + (s.drop 24).length = s.length := by rw [List.length_drop]; omega
  cases hc : infoChild (le s 0 4) (le s 4 8) (idx s 8) (le s 9 13) (idx s 13) (idx s 15) (s.drop 24) with
  | some o' =>
    rw [hc] at h4
    subst h4
    obtain ⟨k1, k2, b, k3, k4⟩ := back_infoChild hi hc
    exact ⟨k1, Or.inl k2, b, k3, by rw [k4, ← hl]; rfl⟩
  | none =>
    rw [hc] at h4
    subst h4
    have e1 := infoBody_of (n := le s 0 4) (t := le s 4 8) (r := idx s 8) (i := le s 9 13) (idx_lt s 13) (idx_lt s 15) (s.drop 24)
    have e2 := fwd_info hi h2 h3 (s.drop 24)
    rw [hc] at e2
    refine ⟨rfl, Or.inr ⟨trivial, ⟨_, e1, e2⟩, _, _, _, _, _, _, _, rfl⟩, _, e1, ?_⟩
    rw [length_info, ← hl]
    rfl

end Pica.Py
