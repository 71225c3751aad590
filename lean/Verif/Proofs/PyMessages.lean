import Verif.Proofs.PyDlTdoa
/-! The messages of `uci.py` written and read back. -/

namespace Pica.Py
open Spec

set_option linter.unusedSimpArgs false

/-! ### Parts -/

theorem fwd_status (k : Nat → Obj) {s : Nat} (h : s < 2 ^ 8) : statusOnly k [UInt8.ofNat s] = some (k s, []) := by
  unfold statusOnly
  rw [need_of_le (by simp)]
  simp only [idx, List.getD_cons_zero, nat1 h]
  rfl

theorem fwd_token (k : Nat → Command) {t : Nat} (h : t < 2 ^ 32) : tokenOnly k (int 4 t) = some (.command (k t), []) := by
  rw [int4 h]
  unfold tokenOnly
  rw [need_of_le (by simp)]
  simp only [le, slice, List.take_succ_cons, List.take_zero, List.drop_zero, nat4 h]
  rfl

theorem fwd_statusTlvs {f : Nat × Bytes → Option Bytes} (hc : PyCodec tlv f TlvFits) (k : Nat → List (Nat × Bytes) → Obj)
    {s : Nat} {l : List (Nat × Bytes)} (hs : s < 2 ^ 8) (hl : Listed TlvFits l) :
    ∃ b, statusList f s l = some b ∧ statusTlvs k b = some (k s l, []) := by
  refine ⟨_, by rw [statusList, byte_of hs, hc.listed hl]; rfl, ?_⟩
  simp only [List.cons_append, List.nil_append]
  unfold statusTlvs
  rw [need_of_le (by simp)]
  have h5 : l.length < 2 ^ 8 := by have := hl.1; omega
  have e := hc.elems l hl.2 []
  rw [List.append_nil] at e
  simp only [idx, List.drop_succ_cons, List.drop_zero, List.getD_cons_succ, List.getD_cons_zero, nat1 hs, nat1 h5, e]
  rfl

theorem fwd_statusStatuses (k : Nat → List (Nat × Nat) → Obj) {s : Nat} {l : List (Nat × Nat)} (hs : s < 2 ^ 8)
    (hl : Listed PairFits l) :
    ∃ b, statusList idStatusBytes s l = some b ∧ statusStatuses k b = some (k s l, []) := by
  refine ⟨_, by rw [statusList, byte_of hs, codec_idStatus.listed hl]; rfl, ?_⟩
  simp only [List.cons_append, List.nil_append]
  unfold statusStatuses
  rw [need_of_le (by simp)]
  have h5 : l.length < 2 ^ 8 := by have := hl.1; omega
  have e := codec_idStatus.recs sized_idStatus l hl.2 []
  have e2 := PyCodec.recs_length sized_idStatus l hl.2
  rw [List.append_nil] at e
  simp only [idx, List.drop_succ_cons, List.drop_zero, List.getD_cons_succ, List.getD_cons_zero, nat1 hs, nat1 h5, e]
  rw [need_of_le (Nat.le_of_eq e2.symm)]
  simp [← e2]

theorem fwd_counted {α : Type} {p : Bytes → Option (α × Bytes)} {f : α → Option Bytes} {F : α → Prop} (hc : PyCodec p f F)
    {size : Nat} (hk : Sized size f F) (k : List α → Bytes → Obj) {l : List α} (hl : Listed F l) (v : Bytes) :
    counted p size k (UInt8.ofNat l.length :: (l.flatMap (out f) ++ v)) = some (k l v, []) := by
  have h5 : l.length < 2 ^ 8 := by have := hl.1; omega
  have e := hc.recs hk l hl.2 v
  have e2 := PyCodec.recs_length hk l hl.2
  unfold counted
  rw [need_of_le (by simp)]
  simp only [idx, List.drop_succ_cons, List.drop_zero, List.getD_cons_zero, nat1 h5, e]
  rw [need_of_le (by rw [List.length_append]; omega), ← e2, List.drop_left]
  rfl

theorem fwd_dlTDoAs {w bits : Nat} (hb : 256 ^ w = 2 ^ bits) (k : List (Nat × DlTdoa) → Obj) {l : List (Nat × DlTdoa)}
    (hl : Listed (AddressedFits bits) l) :
    dlTDoAs w k (UInt8.ofNat l.length :: l.flatMap (out (addressedDlTdoaBytes w))) = some (k l, []) := by
  have h5 : l.length < 2 ^ 8 := by have := hl.1; omega
  have e := (codec_addressed hb).elems l hl.2 []
  rw [List.append_nil] at e
  unfold dlTDoAs
  rw [need_of_le (by simp)]
  simp only [idx, List.drop_succ_cons, List.drop_zero, List.getD_cons_zero, nat1 h5, e]
  rfl

theorem byte_out {i : Nat} (h : i < 2 ^ 8) : byte i = some (out byte i) := by rw [out, byte_of h]; rfl

theorem flatMap_byte {l : List Nat} (h : ∀ i ∈ l, i < 2 ^ 8) : l.flatMap (out byte) = l.map UInt8.ofNat := by
  induction l with
  | nil => rfl
  | cons i l ih =>
    rw [List.flatMap_cons, ih fun j hj => h j (List.mem_cons_of_mem _ hj), out, byte_of (h i List.mem_cons_self)]
    rfl

theorem fwd_members {m l : List Nat} (hm : ∀ v ∈ m, v < 2 ^ 8) (h : ∀ i ∈ l, i ∈ m) (r : Bytes) :
    members m l.length (l.map UInt8.ofNat ++ r) = some l := by
  unfold members
  refine mapM_range _ l fun n hn => ?_
  have hm' := h _ (List.getElem_mem hn)
  have e : le (l.map UInt8.ofNat ++ r) n (n + 1) = l[n] := by
    have e1 := slice_record (fun i => [UInt8.ofNat i]) 1 l r (by simp) n hn
    have e2 : l.flatMap (fun i => [UInt8.ofNat i]) = l.map UInt8.ofNat := List.map_eq_flatMap.symm
    rw [e2, Nat.mul_one, Nat.mul_one] at e1
    unfold le
    rw [e1]
    have := nat1 (hm _ hm')
    simp only [ofLe, this]
    omega
  show fromInt m _ = _
  rw [e, fromInt_of hm']

theorem fwd_countedBytes {v : Bytes} (h : v.length ≤ 255) : countedBytes v = some (UInt8.ofNat v.length :: v) := by
  unfold countedBytes
  rw [List.take_of_length_le h]
  dsimp only
  rw [byte_of (by omega)]
  rfl

theorem resetConfig_lt {v : Nat} (h : v ∈ resetConfigs) : v < 2 ^ 8 := mem_lt h (by decide)
theorem deviceState_lt {v : Nat} (h : v ∈ deviceStates) : v < 2 ^ 8 := mem_lt h (by decide)
theorem sessionState_lt {v : Nat} (h : v ∈ sessionStates) : v < 2 ^ 8 := mem_lt h (by decide)
theorem sessionType_lt {v : Nat} (h : v ∈ sessionTypes) : v < 2 ^ 8 := mem_lt h (by decide)
theorem action_lt {v : Nat} (h : v ∈ multicastActions) : v < 2 ^ 8 := mem_lt h (by decide)
theorem credit_lt {v : Nat} (h : v ∈ creditAvailabilities) : v < 2 ^ 8 := mem_lt h (by decide)
theorem transfer_lt {v : Nat} (h : v ∈ dataTransferStatuses) : v < 2 ^ 8 := mem_lt h (by decide)
theorem measurementType_lt {v : Nat} (h : v ∈ rangingMeasurementTypes) : v < 2 ^ 8 := mem_lt h (by decide)
theorem indicator_lt {v : Nat} (h : v ∈ macAddressIndicators) : v < 2 ^ 8 := mem_lt h (by decide)
theorem configParameterId_lt : ∀ v ∈ configParameterIds, v < 2 ^ 8 := by decide
theorem appConfigTlvType_lt : ∀ v ∈ appConfigTlvTypes, v < 2 ^ 8 := by decide

/-! ### Classes -/

/-- The message is written and the class reads it back. -/
def Reads (c : Nat → Nat → Bytes → Option (Obj × Bytes)) (o : Obj) : Prop :=
  ∃ b, o.body = some b ∧ c o.code.2.1 o.code.2.2 b = some (o, [])

theorem reads_coreDeviceResetRsp {s : Nat} (h : ObjFits (.coreDeviceResetRsp s)) : Reads coreDeviceResetRsp (.coreDeviceResetRsp s) := by
  refine ⟨_, byte_of h, ?_⟩
  unfold coreDeviceResetRsp
  rw [forbid_false (by simp [Obj.code, Command.code])]
  exact fwd_status _ h

theorem reads_coreGenericErrorNtf {s : Nat} (h : ObjFits (.coreGenericErrorNtf s)) : Reads coreGenericErrorNtf (.coreGenericErrorNtf s) := by
  refine ⟨_, byte_of h, ?_⟩
  unfold coreGenericErrorNtf
  rw [forbid_false (by simp [Obj.code, Command.code])]
  exact fwd_status _ h

theorem reads_sessionInitRsp {s : Nat} (h : ObjFits (.sessionInitRsp s)) : Reads sessionInitRsp (.sessionInitRsp s) := by
  refine ⟨_, byte_of h, ?_⟩
  unfold sessionInitRsp
  rw [forbid_false (by simp [Obj.code, Command.code])]
  exact fwd_status _ h

theorem reads_sessionDeinitRsp {s : Nat} (h : ObjFits (.sessionDeinitRsp s)) : Reads sessionDeinitRsp (.sessionDeinitRsp s) := by
  refine ⟨_, byte_of h, ?_⟩
  unfold sessionDeinitRsp
  rw [forbid_false (by simp [Obj.code, Command.code])]
  exact fwd_status _ h

theorem reads_sessionUpdateControllerMulticastListRsp {s : Nat} (h : ObjFits (.sessionUpdateControllerMulticastListRsp s)) : Reads sessionUpdateControllerMulticastListRsp (.sessionUpdateControllerMulticastListRsp s) := by
  refine ⟨_, byte_of h, ?_⟩
  unfold sessionUpdateControllerMulticastListRsp
  rw [forbid_false (by simp [Obj.code, Command.code])]
  exact fwd_status _ h

theorem reads_sessionStartRsp {s : Nat} (h : ObjFits (.sessionStartRsp s)) : Reads sessionStartRsp (.sessionStartRsp s) := by
  refine ⟨_, byte_of h, ?_⟩
  unfold sessionStartRsp
  rw [forbid_false (by simp [Obj.code, Command.code])]
  exact fwd_status _ h

theorem reads_sessionStopRsp {s : Nat} (h : ObjFits (.sessionStopRsp s)) : Reads sessionStopRsp (.sessionStopRsp s) := by
  refine ⟨_, byte_of h, ?_⟩
  unfold sessionStopRsp
  rw [forbid_false (by simp [Obj.code, Command.code])]
  exact fwd_status _ h

theorem reads_androidSetCountryCodeRsp {s : Nat} (h : ObjFits (.androidSetCountryCodeRsp s)) : Reads androidSetCountryCodeRsp (.androidSetCountryCodeRsp s) := by
  refine ⟨_, byte_of h, ?_⟩
  unfold androidSetCountryCodeRsp
  rw [forbid_false (by simp [Obj.code, Command.code])]
  exact fwd_status _ h

theorem reads_sessionDeinitCmd {t : Nat} (h : ObjFits (.command (.sessionDeinit t))) : Reads sessionDeinitCmd (.command (.sessionDeinit t)) := by
  refine ⟨_, rfl, ?_⟩
  unfold sessionDeinitCmd
  rw [forbid_false (by simp [Obj.code, Command.code])]
  exact fwd_token _ h

theorem reads_sessionGetStateCmd {t : Nat} (h : ObjFits (.command (.sessionGetState t))) : Reads sessionGetStateCmd (.command (.sessionGetState t)) := by
  refine ⟨_, rfl, ?_⟩
  unfold sessionGetStateCmd
  rw [forbid_false (by simp [Obj.code, Command.code])]
  exact fwd_token _ h

theorem reads_sessionQueryMaxDataSizeInRangingCmd {t : Nat} (h : ObjFits (.command (.sessionQueryMaxDataSizeInRanging t))) : Reads sessionQueryMaxDataSizeInRangingCmd (.command (.sessionQueryMaxDataSizeInRanging t)) := by
  refine ⟨_, rfl, ?_⟩
  unfold sessionQueryMaxDataSizeInRangingCmd
  rw [forbid_false (by simp [Obj.code, Command.code])]
  exact fwd_token _ h

theorem reads_sessionStartCmd {t : Nat} (h : ObjFits (.command (.sessionStart t))) : Reads sessionStartCmd (.command (.sessionStart t)) := by
  refine ⟨_, rfl, ?_⟩
  unfold sessionStartCmd
  rw [forbid_false (by simp [Obj.code, Command.code])]
  exact fwd_token _ h

theorem reads_sessionStopCmd {t : Nat} (h : ObjFits (.command (.sessionStop t))) : Reads sessionStopCmd (.command (.sessionStop t)) := by
  refine ⟨_, rfl, ?_⟩
  unfold sessionStopCmd
  rw [forbid_false (by simp [Obj.code, Command.code])]
  exact fwd_token _ h

theorem reads_sessionGetRangingCountCmd {t : Nat} (h : ObjFits (.command (.sessionGetRangingCount t))) : Reads sessionGetRangingCountCmd (.command (.sessionGetRangingCount t)) := by
  refine ⟨_, rfl, ?_⟩
  unfold sessionGetRangingCountCmd
  rw [forbid_false (by simp [Obj.code, Command.code])]
  exact fwd_token _ h

theorem reads_coreGetDeviceInfoCmd : Reads coreGetDeviceInfoCmd (.command .coreGetDeviceInfo) := ⟨_, rfl, rfl⟩

theorem reads_coreGetCapsInfoCmd : Reads coreGetCapsInfoCmd (.command .coreGetCapsInfo) := ⟨_, rfl, rfl⟩

theorem reads_coreQueryTimeStampCmd : Reads coreQueryTimeStampCmd (.command .coreQueryTimeStamp) := ⟨_, rfl, rfl⟩

theorem reads_sessionGetCountCmd : Reads sessionGetCountCmd (.command .sessionGetCount) := ⟨_, rfl, rfl⟩

theorem reads_sessionUpdateDtAnchorRangingRoundsCmd : Reads sessionUpdateDtAnchorRangingRoundsCmd (.command .sessionUpdateDtAnchorRangingRounds) := ⟨_, rfl, rfl⟩

theorem reads_androidGetPowerStatsCmd : Reads androidGetPowerStatsCmd (.command .androidGetPowerStats) := ⟨_, rfl, rfl⟩

theorem reads_sessionUpdateDtAnchorRangingRoundsRsp :
    Reads sessionUpdateDtAnchorRangingRoundsRsp .sessionUpdateDtAnchorRangingRoundsRsp := ⟨_, rfl, rfl⟩

theorem reads_coreGetCapsInfoRsp {s : Nat} {l : List (Nat × Bytes)} (h : ObjFits (.coreGetCapsInfoRsp s l)) : Reads coreGetCapsInfoRsp (.coreGetCapsInfoRsp s l) := by
  obtain ⟨b, h1, h2⟩ := fwd_statusTlvs codec_appConfigTlv .coreGetCapsInfoRsp h.1 h.2
  refine ⟨b, h1, ?_⟩
  unfold coreGetCapsInfoRsp
  rw [forbid_false (by simp [Obj.code, Command.code])]
  exact h2

theorem reads_sessionGetAppConfigRsp {s : Nat} {l : List (Nat × Bytes)} (h : ObjFits (.sessionGetAppConfigRsp s l)) : Reads sessionGetAppConfigRsp (.sessionGetAppConfigRsp s l) := by
  obtain ⟨b, h1, h2⟩ := fwd_statusTlvs codec_appConfigTlv .sessionGetAppConfigRsp h.1 h.2
  refine ⟨b, h1, ?_⟩
  unfold sessionGetAppConfigRsp
  rw [forbid_false (by simp [Obj.code, Command.code])]
  exact h2

theorem reads_coreGetConfigRsp {s : Nat} {l : List (Nat × Bytes)} (h : ObjFits (.coreGetConfigRsp s l)) : Reads coreGetConfigRsp (.coreGetConfigRsp s l) := by
  obtain ⟨b, h1, h2⟩ := fwd_statusTlvs codec_configParameter .coreGetConfigRsp h.1 h.2
  refine ⟨b, h1, ?_⟩
  unfold coreGetConfigRsp
  rw [forbid_false (by simp [Obj.code, Command.code])]
  exact h2

theorem reads_coreSetConfigRsp {s : Nat} {l : List (Nat × Nat)} (h : ObjFits (.coreSetConfigRsp s l)) : Reads coreSetConfigRsp (.coreSetConfigRsp s l) := by
  obtain ⟨b, h1, h2⟩ := fwd_statusStatuses .coreSetConfigRsp h.1 h.2
  refine ⟨b, h1, ?_⟩
  unfold coreSetConfigRsp
  rw [forbid_false (by simp [Obj.code, Command.code])]
  exact h2

theorem reads_sessionSetAppConfigRsp {s : Nat} {l : List (Nat × Nat)} (h : ObjFits (.sessionSetAppConfigRsp s l)) : Reads sessionSetAppConfigRsp (.sessionSetAppConfigRsp s l) := by
  obtain ⟨b, h1, h2⟩ := fwd_statusStatuses .sessionSetAppConfigRsp h.1 h.2
  refine ⟨b, h1, ?_⟩
  unfold sessionSetAppConfigRsp
  rw [forbid_false (by simp [Obj.code, Command.code])]
  exact h2

theorem reads_coreQueryTimeStampRsp {s t : Nat} (h : ObjFits (.coreQueryTimeStampRsp s t)) : Reads coreQueryTimeStampRsp (.coreQueryTimeStampRsp s t) := by
  obtain ⟨h1, h2⟩ := h
  refine ⟨_, by rw [Obj.body, byte_of h1]; rfl, ?_⟩
  simp only [int8 h2, List.cons_append, List.nil_append]
  unfold coreQueryTimeStampRsp
  rw [forbid_false (by simp [Obj.code, Command.code]), need_of_le (by simp)]
  simp only [le, slice, idx, List.take_succ_cons, List.take_zero, List.drop_succ_cons, List.drop_zero, List.getD_cons_succ, List.getD_cons_zero, nat1 h1, nat8 h2]
  rfl

theorem reads_sessionInitRspV2 {s n : Nat} (h : ObjFits (.sessionInitRspV2 s n)) : Reads sessionInitRspV2 (.sessionInitRspV2 s n) := by
  obtain ⟨h1, h2⟩ := h
  refine ⟨_, by rw [Obj.body, byte_of h1]; rfl, ?_⟩
  simp only [int4 h2, List.cons_append, List.nil_append]
  unfold sessionInitRspV2
  rw [forbid_false (by simp [Obj.code, Command.code]), need_of_le (by simp)]
  simp only [le, slice, idx, List.take_succ_cons, List.take_zero, List.drop_succ_cons, List.drop_zero, List.getD_cons_succ, List.getD_cons_zero, nat1 h1, nat4 h2]
  rfl

theorem reads_sessionGetRangingCountRsp {s n : Nat} (h : ObjFits (.sessionGetRangingCountRsp s n)) : Reads sessionGetRangingCountRsp (.sessionGetRangingCountRsp s n) := by
  obtain ⟨h1, h2⟩ := h
  refine ⟨_, by rw [Obj.body, byte_of h1]; rfl, ?_⟩
  simp only [int4 h2, List.cons_append, List.nil_append]
  unfold sessionGetRangingCountRsp
  rw [forbid_false (by simp [Obj.code, Command.code]), need_of_le (by simp)]
  simp only [le, slice, idx, List.take_succ_cons, List.take_zero, List.drop_succ_cons, List.drop_zero, List.getD_cons_succ, List.getD_cons_zero, nat1 h1, nat4 h2]
  rfl

theorem reads_sessionStatusNtf {t s r : Nat} (h : ObjFits (.sessionStatusNtf t s r)) : Reads sessionStatusNtf (.sessionStatusNtf t s r) := by
  obtain ⟨h1, h2, h3⟩ := h
  refine ⟨_, by rw [Obj.body, byte_of (sessionState_lt h2)]; rfl, ?_⟩
  simp only [int4 h1, int1 h3, List.cons_append, List.nil_append]
  unfold sessionStatusNtf
  rw [forbid_false (by simp [Obj.code, Command.code]), need_of_le (by simp)]
  simp only [le, slice, idx, List.take_succ_cons, List.take_zero, List.drop_succ_cons, List.drop_zero, List.getD_cons_succ, List.getD_cons_zero, nat4 h1, nat1 (sessionState_lt h2), nat1 h3, fromInt_of h2]
  rfl

theorem reads_sessionGetCountRsp {s n : Nat} (h : ObjFits (.sessionGetCountRsp s n)) : Reads sessionGetCountRsp (.sessionGetCountRsp s n) := by
  obtain ⟨h1, h2⟩ := h
  refine ⟨_, by rw [Obj.body, byte_of h1]; rfl, ?_⟩
  simp only [int1 h2, List.cons_append, List.nil_append]
  unfold sessionGetCountRsp
  rw [forbid_false (by simp [Obj.code, Command.code]), need_of_le (by simp)]
  simp only [le, slice, idx, List.take_succ_cons, List.take_zero, List.drop_succ_cons, List.drop_zero, List.getD_cons_succ, List.getD_cons_zero, nat1 h1, nat1 h2]
  rfl

theorem reads_sessionGetStateRsp {s t : Nat} (h : ObjFits (.sessionGetStateRsp s t)) : Reads sessionGetStateRsp (.sessionGetStateRsp s t) := by
  obtain ⟨h1, h2⟩ := h
  refine ⟨_, by rw [Obj.body, byte_of h1, byte_of (sessionState_lt h2)]; rfl, ?_⟩
  unfold sessionGetStateRsp
  rw [forbid_false (by simp [Obj.code, Command.code]), need_of_le (by simp)]
  simp only [le, slice, idx, List.take_succ_cons, List.take_zero, List.drop_succ_cons, List.drop_zero, List.getD_cons_succ, List.getD_cons_zero, nat1 h1, nat1 (sessionState_lt h2), fromInt_of h2, List.cons_append, List.nil_append]
  rfl

theorem reads_sessionQueryMaxDataSizeInRangingRsp {t n : Nat} (h : ObjFits (.sessionQueryMaxDataSizeInRangingRsp t n)) : Reads sessionQueryMaxDataSizeInRangingRsp (.sessionQueryMaxDataSizeInRangingRsp t n) := by
  obtain ⟨h1, h2⟩ := h
  refine ⟨_, rfl, ?_⟩
  simp only [int4 h1, int2 h2, List.cons_append, List.nil_append]
  unfold sessionQueryMaxDataSizeInRangingRsp
  rw [forbid_false (by simp [Obj.code, Command.code]), need_of_le (by simp)]
  simp only [le, slice, idx, List.take_succ_cons, List.take_zero, List.drop_succ_cons, List.drop_zero, List.getD_cons_succ, List.getD_cons_zero, nat4 h1, nat2 h2]
  rfl

theorem reads_sessionDataCreditNtf {t c : Nat} (h : ObjFits (.sessionDataCreditNtf t c)) : Reads sessionDataCreditNtf (.sessionDataCreditNtf t c) := by
  obtain ⟨h1, h2⟩ := h
  refine ⟨_, by rw [Obj.body, byte_of (credit_lt h2)]; rfl, ?_⟩
  simp only [int4 h1, List.cons_append, List.nil_append]
  unfold sessionDataCreditNtf
  rw [forbid_false (by simp [Obj.code, Command.code]), need_of_le (by simp)]
  simp only [le, slice, idx, List.take_succ_cons, List.take_zero, List.drop_succ_cons, List.drop_zero, List.getD_cons_succ, List.getD_cons_zero, nat4 h1, nat1 (credit_lt h2), fromInt_of h2]
  rfl

theorem reads_sessionDataTransferStatusNtf {t n s c : Nat} (h : ObjFits (.sessionDataTransferStatusNtf t n s c)) : Reads sessionDataTransferStatusNtf (.sessionDataTransferStatusNtf t n s c) := by
  obtain ⟨h1, h2, h3, h4⟩ := h
  refine ⟨_, by rw [Obj.body, byte_of (transfer_lt h3)]; rfl, ?_⟩
  simp only [int4 h1, int1 h2, int1 h4, List.cons_append, List.nil_append]
  unfold sessionDataTransferStatusNtf
  rw [forbid_false (by simp [Obj.code, Command.code]), need_of_le (by simp)]
  simp only [le, slice, idx, List.take_succ_cons, List.take_zero, List.drop_succ_cons, List.drop_zero, List.getD_cons_succ, List.getD_cons_zero, nat4 h1, nat1 h2, nat1 (transfer_lt h3), nat1 h4, fromInt_of h3]
  rfl

theorem reads_androidGetPowerStatsRsp {s a b c d : Nat} (h : ObjFits (.androidGetPowerStatsRsp s a b c d)) : Reads androidGetPowerStatsRsp (.androidGetPowerStatsRsp s a b c d) := by
  obtain ⟨h1, h2, h3, h4, h5⟩ := h
  refine ⟨_, by rw [Obj.body, byte_of h1]; rfl, ?_⟩
  simp only [int4 h2, int4 h3, int4 h4, int4 h5, List.cons_append, List.nil_append]
  unfold androidGetPowerStatsRsp
  rw [forbid_false (by simp [Obj.code, Command.code]), need_of_le (by simp)]
  simp only [le, slice, idx, List.take_succ_cons, List.take_zero, List.drop_succ_cons, List.drop_zero, List.getD_cons_succ, List.getD_cons_zero, nat1 h1, nat4 h2, nat4 h3, nat4 h4, nat4 h5]
  rfl

theorem reads_sessionInitCmd {t s : Nat} (h : ObjFits (.command (.sessionInit t s))) : Reads sessionInitCmd (.command (.sessionInit t s)) := by
  obtain ⟨h1, h2⟩ := h
  refine ⟨_, by rw [Obj.body, Command.body, byte_of (sessionType_lt h2)]; rfl, ?_⟩
  simp only [int4 h1, List.cons_append, List.nil_append]
  unfold sessionInitCmd
  rw [forbid_false (by simp [Obj.code, Command.code]), need_of_le (by simp)]
  simp only [le, slice, idx, List.take_succ_cons, List.take_zero, List.drop_succ_cons, List.drop_zero, List.getD_cons_succ, List.getD_cons_zero, nat4 h1, nat1 (sessionType_lt h2), fromInt_of h2]
  rfl

theorem reads_sessionUpdateControllerMulticastListCmd {t a : Nat} {p : Bytes} (h : ObjFits (.command (.sessionUpdateControllerMulticastList t a p))) : Reads sessionUpdateControllerMulticastListCmd (.command (.sessionUpdateControllerMulticastList t a p)) := by
  obtain ⟨h1, h2⟩ := h
  refine ⟨_, by rw [Obj.body, Command.body, byte_of (action_lt h2)]; rfl, ?_⟩
  simp only [int4 h1, List.cons_append, List.nil_append]
  unfold sessionUpdateControllerMulticastListCmd
  rw [forbid_false (by simp [Obj.code, Command.code]), need_of_le (by simp)]
  simp only [le, slice, idx, List.take_succ_cons, List.take_zero, List.drop_succ_cons, List.drop_zero, List.getD_cons_succ, List.getD_cons_zero, nat4 h1, nat1 (action_lt h2), fromInt_of h2]
  rfl

theorem reads_coreDeviceResetCmd {c : Nat} (h : ObjFits (.command (.coreDeviceReset c))) :
    Reads coreDeviceResetCmd (.command (.coreDeviceReset c)) := by
  have h : c ∈ resetConfigs := h
  refine ⟨_, byte_of (resetConfig_lt h), ?_⟩
  unfold coreDeviceResetCmd
  rw [forbid_false (by simp [Obj.code, Command.code]), need_of_le (by simp)]
  simp only [idx, List.getD_cons_zero, nat1 (resetConfig_lt h), fromInt_of h]
  rfl

theorem reads_coreDeviceStatusNtf {s : Nat} (h : ObjFits (.coreDeviceStatusNtf s)) :
    Reads coreDeviceStatusNtf (.coreDeviceStatusNtf s) := by
  have h : s ∈ deviceStates := h
  refine ⟨_, byte_of (deviceState_lt h), ?_⟩
  unfold coreDeviceStatusNtf
  rw [forbid_false (by simp [Obj.code, Command.code]), need_of_le (by simp)]
  simp only [idx, List.getD_cons_zero, nat1 (deviceState_lt h), fromInt_of h]
  rfl

theorem reads_androidSetCountryCodeCmd {c : Bytes} (h : ObjFits (.command (.androidSetCountryCode c))) :
    Reads androidSetCountryCodeCmd (.command (.androidSetCountryCode c)) := by
  have h : c.length = 2 := h
  match c, h with
  | [a, b], _ => exact ⟨_, rfl, rfl⟩

theorem reads_coreSetConfigCmd {l : List (Nat × Bytes)} (h : ObjFits (.command (.coreSetConfig l))) :
    Reads coreSetConfigCmd (.command (.coreSetConfig l)) := by
  have h : Listed TlvFits l := h
  refine ⟨_, codec_configParameter.listed h, ?_⟩
  have h5 : l.length < 2 ^ 8 := by have := h.1; omega
  have e := codec_configParameter.elems l h.2 []
  rw [List.append_nil] at e
  unfold coreSetConfigCmd
  rw [forbid_false (by simp [Obj.code, Command.code]), need_of_le (by simp)]
  simp only [idx, List.drop_succ_cons, List.drop_zero, List.getD_cons_zero, nat1 h5, e]
  rfl

theorem reads_sessionSetAppConfigCmd {t : Nat} {l : List (Nat × Bytes)} (h : ObjFits (.command (.sessionSetAppConfig t l))) :
    Reads sessionSetAppConfigCmd (.command (.sessionSetAppConfig t l)) := by
  obtain ⟨h1, h⟩ := h
  refine ⟨_, by rw [Obj.body, Command.body, codec_appConfigTlv.listed h]; rfl, ?_⟩
  have h5 : l.length < 2 ^ 8 := by have := h.1; omega
  have e := codec_appConfigTlv.elems l h.2 []
  rw [List.append_nil] at e
  simp only [int4 h1, List.cons_append, List.nil_append]
  unfold sessionSetAppConfigCmd
  rw [forbid_false (by simp [Obj.code, Command.code]), need_of_le (by simp)]
  simp only [le, slice, idx, List.take_succ_cons, List.take_zero, List.drop_succ_cons, List.drop_zero, List.getD_cons_succ, List.getD_cons_zero, nat4 h1, nat1 h5, e]
  rfl

theorem reads_coreGetConfigCmd {l : List Nat} (h : ObjFits (.command (.coreGetConfig l))) :
    Reads coreGetConfigCmd (.command (.coreGetConfig l)) := by
  have h : Listed (· ∈ configParameterIds) l := h
  have hb : ∀ i ∈ l, i < 2 ^ 8 := fun i hi => configParameterId_lt i (h.2 i hi)
  refine ⟨_, list_of h.1 fun i hi => byte_out (hb i hi), ?_⟩
  have h5 : l.length < 2 ^ 8 := by have := h.1; omega
  have e := fwd_members configParameterId_lt h.2 []
  rw [List.append_nil] at e
  rw [flatMap_byte hb]
  unfold coreGetConfigCmd
  rw [forbid_false (by simp [Obj.code, Command.code]), need_of_le (by simp)]
  simp only [idx, List.drop_succ_cons, List.drop_zero, List.getD_cons_zero, nat1 h5, e]
  rw [need_of_le (by simp)]
  simp

theorem reads_sessionGetAppConfigCmd {t : Nat} {l : List Nat} (h : ObjFits (.command (.sessionGetAppConfig t l))) :
    Reads sessionGetAppConfigCmd (.command (.sessionGetAppConfig t l)) := by
  obtain ⟨h1, h⟩ := h
  have hb : ∀ i ∈ l, i < 2 ^ 8 := fun i hi => appConfigTlvType_lt i (h.2 i hi)
  refine ⟨_, by rw [Obj.body, Command.body, list_of h.1 fun i hi => byte_out (hb i hi)]; rfl, ?_⟩
  have h5 : l.length < 2 ^ 8 := by have := h.1; omega
  have e := fwd_members appConfigTlvType_lt h.2 []
  rw [List.append_nil] at e
  rw [flatMap_byte hb]
  simp only [int4 h1, List.cons_append, List.nil_append]
  unfold sessionGetAppConfigCmd
  rw [forbid_false (by simp [Obj.code, Command.code]), need_of_le (by simp)]
  simp only [le, slice, idx, List.take_succ_cons, List.take_zero, List.drop_succ_cons, List.drop_zero, List.getD_cons_succ, List.getD_cons_zero, nat4 h1, nat1 h5, e]
  rw [need_of_le (by simp)]
  simp

theorem reads_sessionUpdateDtTagRangingRoundsCmd {t : Nat} {v : Bytes}
    (h : ObjFits (.command (.sessionUpdateDtTagRangingRounds t v))) :
    Reads sessionUpdateDtTagRangingRoundsCmd (.command (.sessionUpdateDtTagRangingRounds t v)) := by
  obtain ⟨h1, h2⟩ := h
  have h5 : v.length < 2 ^ 8 := by omega
  refine ⟨int 4 t ++ [UInt8.ofNat v.length] ++ v, by
    rw [Obj.body, Command.body, List.take_of_length_le h2, byte_of h5]; rfl, ?_⟩
  simp only [int4 h1, List.cons_append, List.nil_append]
  unfold sessionUpdateDtTagRangingRoundsCmd
  rw [forbid_false (by simp [Obj.code, Command.code]), need_of_le (by simp)]
  simp only [le, slice, idx, List.take_succ_cons, List.take_zero, List.drop_succ_cons, List.drop_zero, List.getD_cons_succ, List.getD_cons_zero, nat4 h1, nat1 h5]
  rw [need_of_le (by simp)]
  simp

theorem reads_sessionUpdateDtTagRangingRoundsRsp {s : Nat} {v : Bytes}
    (h : ObjFits (.sessionUpdateDtTagRangingRoundsRsp s v)) :
    Reads sessionUpdateDtTagRangingRoundsRsp (.sessionUpdateDtTagRangingRoundsRsp s v) := by
  obtain ⟨h1, h2⟩ := h
  have h5 : v.length < 2 ^ 8 := by omega
  refine ⟨_, by rw [Obj.body, byte_of h1, fwd_countedBytes h2]; rfl, ?_⟩
  simp only [List.cons_append, List.nil_append]
  unfold sessionUpdateDtTagRangingRoundsRsp
  rw [forbid_false (by simp [Obj.code, Command.code]), need_of_le (by simp)]
  simp only [le, slice, idx, List.take_succ_cons, List.take_zero, List.drop_succ_cons, List.drop_zero, List.getD_cons_succ, List.getD_cons_zero, nat1 h1, nat1 h5]
  rw [need_of_le (by simp)]
  simp

theorem reads_coreGetDeviceInfoRsp {s a b c d : Nat} {v : Bytes} (h : ObjFits (.coreGetDeviceInfoRsp s a b c d v)) :
    Reads coreGetDeviceInfoRsp (.coreGetDeviceInfoRsp s a b c d v) := by
  obtain ⟨h1, h2, h3, h4, h6, h7⟩ := h
  have h5 : v.length < 2 ^ 8 := by omega
  refine ⟨_, by rw [Obj.body, byte_of h1, fwd_countedBytes h7]; rfl, ?_⟩
  simp only [int2 h2, int2 h3, int2 h4, int2 h6, List.cons_append, List.nil_append]
  unfold coreGetDeviceInfoRsp
  rw [forbid_false (by simp [Obj.code, Command.code]), need_of_le (by simp)]
  simp only [le, slice, idx, List.take_succ_cons, List.take_zero, List.drop_succ_cons, List.drop_zero, List.getD_cons_succ, List.getD_cons_zero, nat1 h1, nat2 h2, nat2 h3, nat2 h4, nat2 h6, nat1 h5]
  rw [need_of_le (by simp)]
  simp

theorem reads_sessionUpdateControllerMulticastListNtf {t : Nat} {l : List (Bytes × Nat)}
    (h : ObjFits (.sessionUpdateControllerMulticastListNtf t l)) :
    Reads sessionUpdateControllerMulticastListNtf (.sessionUpdateControllerMulticastListNtf t l) := by
  obtain ⟨h1, h⟩ := h
  refine ⟨_, by rw [Obj.body, codec_controleeStatus.listed h]; rfl, ?_⟩
  have h5 : l.length < 2 ^ 8 := by have := h.1; omega
  have e := codec_controleeStatus.recs sized_controleeStatus l h.2 []
  have e2 := PyCodec.recs_length sized_controleeStatus l h.2
  rw [List.append_nil] at e
  simp only [int4 h1, List.cons_append, List.nil_append]
  unfold sessionUpdateControllerMulticastListNtf
  rw [forbid_false (by simp [Obj.code, Command.code]), need_of_le (by simp)]
  simp only [le, slice, idx, List.take_succ_cons, List.take_zero, List.drop_succ_cons, List.drop_zero, List.getD_cons_succ, List.getD_cons_zero, nat4 h1, nat1 h5, e]
  rw [need_of_le (Nat.le_of_eq e2.symm)]
  simp [← e2]

theorem reads_androidRangeDiagnosticsNtf {t n : Nat} {l : List FrameReport} (h : ObjFits (.androidRangeDiagnosticsNtf t n l)) :
    Reads androidRangeDiagnosticsNtf (.androidRangeDiagnosticsNtf t n l) := by
  obtain ⟨h1, h2, h⟩ := h
  refine ⟨_, by rw [Obj.body, codec_frameReport.listed h]; rfl, ?_⟩
  have h5 : l.length < 2 ^ 8 := by have := h.1; omega
  have e := codec_frameReport.elems l h.2 []
  rw [List.append_nil] at e
  simp only [int4 h1, int4 h2, List.cons_append, List.nil_append]
  unfold androidRangeDiagnosticsNtf
  rw [forbid_false (by simp [Obj.code, Command.code]), need_of_le (by simp)]
  simp only [le, slice, idx, List.take_succ_cons, List.take_zero, List.drop_succ_cons, List.drop_zero, List.getD_cons_succ, List.getD_cons_zero, nat4 h1, nat4 h2, nat1 h5, e]
  rfl

/-! ### Session notifications -/

theorem infoBody_of {n t r i type ind : Nat} (h4 : type < 2 ^ 8) (h5 : ind < 2 ^ 8) (p : Bytes) :
    infoBody n t r i type ind p = some (int 4 n ++ int 4 t ++ int 1 r ++ int 4 i ++ [UInt8.ofNat type] ++ [0] ++ [UInt8.ofNat ind] ++
      List.replicate 8 0 ++ p) := by
  rw [infoBody, byte_of h4, byte_of h5]; rfl

theorem fwd_info {n t r i type ind : Nat} (h : InfoFits n t r i) (h4 : type ∈ rangingMeasurementTypes)
    (h5 : ind ∈ macAddressIndicators) (p : Bytes) :
    sessionInfoNtf 3 0 (int 4 n ++ int 4 t ++ int 1 r ++ int 4 i ++ [UInt8.ofNat type] ++ [0] ++ [UInt8.ofNat ind] ++
      List.replicate 8 0 ++ p) = some ((infoChild n t r i type ind p).getD (.sessionInfoNtf n t r i type ind p), []) := by
  obtain ⟨h0, h1, h2, h3⟩ := h
  simp only [int4 h0, int4 h1, int1 h2, int4 h3, List.replicate, List.cons_append, List.nil_append]
  unfold sessionInfoNtf
  rw [forbid_false (by simp [Obj.code, Command.code]), need_of_le (by simp)]
  simp only [le, slice, idx, List.take_succ_cons, List.take_zero, List.drop_succ_cons, List.drop_zero, List.getD_cons_succ, List.getD_cons_zero, nat4 h0, nat4 h1, nat1 h2, nat4 h3, nat1 (measurementType_lt h4), nat1 (indicator_lt h5), fromInt_of h4,
    fromInt_of h5]
  rfl

theorem reads_shortMacTwoWay {n t r i : Nat} {l : List Measurement} {v : Bytes} (h : ObjFits (.shortMacTwoWaySessionInfoNtf n t r i l v)) :
    Reads sessionInfoNtf (.shortMacTwoWaySessionInfoNtf n t r i l v) := by
  obtain ⟨h1, h2⟩ := h
  refine ⟨_, by rw [Obj.body, codec_measurement.listed h2]; simp only [Option.bind_eq_bind, Option.bind_some]; exact infoBody_of (type := 1) (ind := 0) (by decide) (by decide) _, ?_⟩
  have key : shortMacTwoWaySessionInfoNtf 1 0 (.shortMacTwoWaySessionInfoNtf n t r i)
      (UInt8.ofNat l.length :: (l.flatMap (out (measurementBytes 2 11)) ++ v)) = some (.shortMacTwoWaySessionInfoNtf n t r i l v, []) := by
    unfold shortMacTwoWaySessionInfoNtf
    rw [forbid_false (by simp [Obj.code, Command.code])]
    exact fwd_counted codec_measurement sized_measurement _ h2 v
  refine (fwd_info (type := 1) (ind := 0) h1 (by decide) (by decide) _).trans ?_
  simp only [infoChild, List.cons_append, key]
  rfl

theorem reads_extendedMacTwoWay {n t r i : Nat} {l : List Measurement} {v : Bytes} (h : ObjFits (.extendedMacTwoWaySessionInfoNtf n t r i l v)) :
    Reads sessionInfoNtf (.extendedMacTwoWaySessionInfoNtf n t r i l v) := by
  obtain ⟨h1, h2⟩ := h
  refine ⟨_, by rw [Obj.body, codec_extMeasurement.listed h2]; simp only [Option.bind_eq_bind, Option.bind_some]; exact infoBody_of (type := 1) (ind := 1) (by decide) (by decide) _, ?_⟩
  have key : extendedMacTwoWaySessionInfoNtf 1 1 (.extendedMacTwoWaySessionInfoNtf n t r i)
      (UInt8.ofNat l.length :: (l.flatMap (out (measurementBytes 8 5)) ++ v)) = some (.extendedMacTwoWaySessionInfoNtf n t r i l v, []) := by
    unfold extendedMacTwoWaySessionInfoNtf
    rw [forbid_false (by simp [Obj.code, Command.code])]
    exact fwd_counted codec_extMeasurement sized_extMeasurement _ h2 v
  refine (fwd_info (type := 1) (ind := 1) h1 (by decide) (by decide) _).trans ?_
  simp only [infoChild, List.cons_append, key]
  rfl

theorem reads_shortMacOwrAoa {n t r i : Nat} {l : List OwrAoa} {v : Bytes} (h : ObjFits (.shortMacOwrAoaSessionInfoNtf n t r i l v)) :
    Reads sessionInfoNtf (.shortMacOwrAoaSessionInfoNtf n t r i l v) := by
  obtain ⟨h1, h2⟩ := h
  refine ⟨_, by rw [Obj.body, codec_owrAoa.listed h2]; simp only [Option.bind_eq_bind, Option.bind_some]; exact infoBody_of (type := 3) (ind := 0) (by decide) (by decide) _, ?_⟩
  have key : shortMacOwrAoaSessionInfoNtf 3 0 (.shortMacOwrAoaSessionInfoNtf n t r i)
      (UInt8.ofNat l.length :: (l.flatMap (out (owrAoaBytes 2)) ++ v)) = some (.shortMacOwrAoaSessionInfoNtf n t r i l v, []) := by
    unfold shortMacOwrAoaSessionInfoNtf
    rw [forbid_false (by simp [Obj.code, Command.code])]
    exact fwd_counted codec_owrAoa sized_owrAoa _ h2 v
  refine (fwd_info (type := 3) (ind := 0) h1 (by decide) (by decide) _).trans ?_
  simp only [infoChild, List.cons_append, key]
  rfl

theorem reads_extendedMacOwrAoa {n t r i : Nat} {l : List OwrAoa} {v : Bytes} (h : ObjFits (.extendedMacOwrAoaSessionInfoNtf n t r i l v)) :
    Reads sessionInfoNtf (.extendedMacOwrAoaSessionInfoNtf n t r i l v) := by
  obtain ⟨h1, h2⟩ := h
  refine ⟨_, by rw [Obj.body, codec_extOwrAoa.listed h2]; simp only [Option.bind_eq_bind, Option.bind_some]; exact infoBody_of (type := 3) (ind := 1) (by decide) (by decide) _, ?_⟩
  have key : extendedMacOwrAoaSessionInfoNtf 3 1 (.extendedMacOwrAoaSessionInfoNtf n t r i)
      (UInt8.ofNat l.length :: (l.flatMap (out (owrAoaBytes 8)) ++ v)) = some (.extendedMacOwrAoaSessionInfoNtf n t r i l v, []) := by
    unfold extendedMacOwrAoaSessionInfoNtf
    rw [forbid_false (by simp [Obj.code, Command.code])]
    exact fwd_counted codec_extOwrAoa sized_extOwrAoa _ h2 v
  refine (fwd_info (type := 3) (ind := 1) h1 (by decide) (by decide) _).trans ?_
  simp only [infoChild, List.cons_append, key]
  rfl

theorem reads_shortMacDlTDoA {n t r i : Nat} {l : List (Nat × DlTdoa)} (h : ObjFits (.shortMacDlTDoASessionInfoNtf n t r i l)) :
    Reads sessionInfoNtf (.shortMacDlTDoASessionInfoNtf n t r i l) := by
  obtain ⟨h1, h2⟩ := h
  have hc : PyCodec (addressedDlTdoa 2) (addressedDlTdoaBytes 2) (AddressedFits 16) := codec_addressed (by decide)
  refine ⟨_, by rw [Obj.body, hc.listed h2]; simp only [Option.bind_eq_bind, Option.bind_some]; exact infoBody_of (type := 2) (ind := 0) (by decide) (by decide) _, ?_⟩
  have key : shortMacDlTDoASessionInfoNtf 2 0 (.shortMacDlTDoASessionInfoNtf n t r i)
      (UInt8.ofNat l.length :: l.flatMap (out (addressedDlTdoaBytes 2))) =
        some (.shortMacDlTDoASessionInfoNtf n t r i l, []) := by
    unfold shortMacDlTDoASessionInfoNtf
    rw [forbid_false (by simp [Obj.code, Command.code])]
    exact fwd_dlTDoAs (bits := 16) (by decide) _ h2
  refine (fwd_info (type := 2) (ind := 0) h1 (by decide) (by decide) _).trans ?_
  simp only [infoChild, key]
  rfl

theorem reads_extendedMacDlTDoA {n t r i : Nat} {l : List (Nat × DlTdoa)} (h : ObjFits (.extendedMacDlTDoASessionInfoNtf n t r i l)) :
    Reads sessionInfoNtf (.extendedMacDlTDoASessionInfoNtf n t r i l) := by
  obtain ⟨h1, h2⟩ := h
  have hc : PyCodec (addressedDlTdoa 8) (addressedDlTdoaBytes 8) (AddressedFits 64) := codec_addressed (by decide)
  refine ⟨_, by rw [Obj.body, hc.listed h2]; simp only [Option.bind_eq_bind, Option.bind_some]; exact infoBody_of (type := 2) (ind := 1) (by decide) (by decide) _, ?_⟩
  have key : extendedMacDlTDoASessionInfoNtf 2 1 (.extendedMacDlTDoASessionInfoNtf n t r i)
      (UInt8.ofNat l.length :: l.flatMap (out (addressedDlTdoaBytes 8))) =
        some (.extendedMacDlTDoASessionInfoNtf n t r i l, []) := by
    unfold extendedMacDlTDoASessionInfoNtf
    rw [forbid_false (by simp [Obj.code, Command.code])]
    exact fwd_dlTDoAs (bits := 64) (by decide) _ h2
  refine (fwd_info (type := 2) (ind := 1) h1 (by decide) (by decide) _).trans ?_
  simp only [infoChild, key]
  rfl

end Pica.Py
