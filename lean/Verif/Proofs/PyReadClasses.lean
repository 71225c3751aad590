import Verif.Proofs.PyRead
/-! Every class of `uci.py` reads the layout of the packet description. -/

namespace Pica.Py
open Spec
open Spec.Pdl (Pattern nat gap octets Agrees Matches Takes takes_nil takes_octets takes_all takes_gap takes_ofLe nat_add nat_and)

set_option linter.unusedSimpArgs false

/-- What the class reads has its layout. -/
def ReadsLayout (c : Nat → Nat → Bytes → Option (Obj × Bytes)) : Prop :=
  ∀ mt oid s o r, c mt oid s = some (o, r) → Takes (bodyPat o) s r

theorem rd_status {k : Nat → Obj} {s : Bytes} {o : Obj} {r : Bytes} (hk : ∀ v, bodyPat (k v) = nat 8 v)
    (h : statusOnly k s = some (o, r)) : Takes (bodyPat o) s r := by
  simp only [statusOnly, Option.bind_eq_bind, Option.bind_eq_some_iff, need_iff, Option.pure_def, Option.some.injEq,
    Prod.mk.injEq] at h
  obtain ⟨_, h1, rfl, rfl⟩ := h
  rw [hk]
  exact rd_idx (i := 0) (by omega)

theorem rd_token {k : Nat → Command} {s : Bytes} {o : Obj} {r : Bytes} (hk : ∀ v, commandPat (k v) = nat 32 v)
    (h : tokenOnly k s = some (o, r)) : Takes (bodyPat o) s r := by
  simp only [tokenOnly, Option.bind_eq_bind, Option.bind_eq_some_iff, need_iff, Option.pure_def, Option.some.injEq,
    Prod.mk.injEq] at h
  obtain ⟨_, h1, rfl, rfl⟩ := h
  show Takes (commandPat _) _ _
  rw [hk]
  exact rd_le (i := 0) (by omega) (by omega) (by decide)

theorem rd_statusTlvs {k : Nat → List (Nat × Bytes) → Obj} {s : Bytes} {o : Obj} {r : Bytes}
    (hk : ∀ v l, bodyPat (k v l) = nat 8 v ++ listPat tlvPat l) (h : statusTlvs k s = some (o, r)) :
    Takes (bodyPat o) s r := by
  simp only [statusTlvs, Option.bind_eq_bind, Option.bind_eq_some_iff, need_iff, Option.pure_def, Option.some.injEq,
    Prod.mk.injEq, Prod.exists] at h
  obtain ⟨_, h1, l, r', h2, rfl, rfl⟩ := h
  obtain ⟨h3, h4⟩ := rd_elements rd_tlv h2
  rw [hk, listPat, h3]
  show Takes _ (s.drop 0) _
  rdf; rdf
  exact h4

theorem rd_statusStatuses {k : Nat → List (Nat × Nat) → Obj} {s : Bytes} {o : Obj} {r : Bytes}
    (hk : ∀ v l, bodyPat (k v l) = nat 8 v ++ listPat idStatusPat l) (h : statusStatuses k s = some (o, r)) :
    Takes (bodyPat o) s r := by
  simp only [statusStatuses, Option.bind_eq_bind, Option.bind_eq_some_iff, need_iff, Option.pure_def, Option.some.injEq,
    Prod.mk.injEq] at h
  obtain ⟨_, h1, _, h8, l, h2, rfl, rfl⟩ := h
  obtain ⟨h3, h4⟩ := rd_records rd_idStatus h2
  rw [hk, listPat, h3]
  show Takes _ (s.drop 0) _
  rdf; rdf
  exact h4

theorem rd_counted {α : Type} {p : Bytes → Option (α × Bytes)} {pat : α → Pattern}
    (hp : ∀ s x r, p s = some (x, r) → Takes (pat x) s r) {size : Nat} {k : List α → Bytes → Obj} {s : Bytes} {o : Obj}
    {r : Bytes} (h : counted p size k s = some (o, r)) :
    ∃ l v, o = k l v ∧ Takes (listPat pat l ++ octets v) s r := by
  simp only [counted, Option.bind_eq_bind, Option.bind_eq_some_iff, need_iff, Option.pure_def, Option.some.injEq,
    Prod.mk.injEq] at h
  obtain ⟨_, h1, _, h8, l, h2, rfl, rfl⟩ := h
  obtain ⟨h3, h4⟩ := rd_records hp h2
  refine ⟨l, _, rfl, ?_⟩
  rw [listPat, h3, List.append_assoc]
  show Takes _ (s.drop 0) _
  rdf
  exact h4.append (takes_all _)

theorem rd_dlTDoAs {w n : Nat} (hn : n = 8 * w) {k : List (Nat × DlTdoa) → Obj} {s : Bytes} {o : Obj} {r : Bytes}
    (h : dlTDoAs w k s = some (o, r)) : ∃ l, o = k l ∧ Takes (listPat (addressedPat n) l) s r := by
  simp only [dlTDoAs, Option.bind_eq_bind, Option.bind_eq_some_iff, need_iff, Option.pure_def, Option.some.injEq,
    Prod.mk.injEq, Prod.exists] at h
  obtain ⟨_, h1, l, r', h2, rfl, rfl⟩ := h
  obtain ⟨h3, h4⟩ := rd_elements (rd_addressed hn) h2
  refine ⟨l, rfl, ?_⟩
  rw [listPat, h3]
  show Takes _ (s.drop 0) _
  rdf
  exact h4

/-! ### Classes -/

theorem rd_coreDeviceResetRsp : ReadsLayout coreDeviceResetRsp := by
  intro mt oid s o r h
  simp only [coreDeviceResetRsp, Option.bind_eq_bind, Option.bind_eq_some_iff, forbid_iff, need_iff, fromInt_iff, Option.pure_def,
    Option.some.injEq, Prod.mk.injEq, Prod.exists] at h
  obtain ⟨_, hf, h⟩ := h
  exact rd_status (fun _ => rfl) h

theorem rd_coreGenericErrorNtf : ReadsLayout coreGenericErrorNtf := by
  intro mt oid s o r h
  simp only [coreGenericErrorNtf, Option.bind_eq_bind, Option.bind_eq_some_iff, forbid_iff, need_iff, fromInt_iff, Option.pure_def,
    Option.some.injEq, Prod.mk.injEq, Prod.exists] at h
  obtain ⟨_, hf, h⟩ := h
  exact rd_status (fun _ => rfl) h

theorem rd_sessionInitRsp : ReadsLayout sessionInitRsp := by
  intro mt oid s o r h
  simp only [sessionInitRsp, Option.bind_eq_bind, Option.bind_eq_some_iff, forbid_iff, need_iff, fromInt_iff, Option.pure_def,
    Option.some.injEq, Prod.mk.injEq, Prod.exists] at h
  obtain ⟨_, hf, h⟩ := h
  exact rd_status (fun _ => rfl) h

theorem rd_sessionDeinitRsp : ReadsLayout sessionDeinitRsp := by
  intro mt oid s o r h
  simp only [sessionDeinitRsp, Option.bind_eq_bind, Option.bind_eq_some_iff, forbid_iff, need_iff, fromInt_iff, Option.pure_def,
    Option.some.injEq, Prod.mk.injEq, Prod.exists] at h
  obtain ⟨_, hf, h⟩ := h
  exact rd_status (fun _ => rfl) h

theorem rd_sessionStartRsp : ReadsLayout sessionStartRsp := by
  intro mt oid s o r h
  simp only [sessionStartRsp, Option.bind_eq_bind, Option.bind_eq_some_iff, forbid_iff, need_iff, fromInt_iff, Option.pure_def,
    Option.some.injEq, Prod.mk.injEq, Prod.exists] at h
  obtain ⟨_, hf, h⟩ := h
  exact rd_status (fun _ => rfl) h

theorem rd_sessionStopRsp : ReadsLayout sessionStopRsp := by
  intro mt oid s o r h
  simp only [sessionStopRsp, Option.bind_eq_bind, Option.bind_eq_some_iff, forbid_iff, need_iff, fromInt_iff, Option.pure_def,
    Option.some.injEq, Prod.mk.injEq, Prod.exists] at h
  obtain ⟨_, hf, h⟩ := h
  exact rd_status (fun _ => rfl) h

theorem rd_androidSetCountryCodeRsp : ReadsLayout androidSetCountryCodeRsp := by
  intro mt oid s o r h
  simp only [androidSetCountryCodeRsp, Option.bind_eq_bind, Option.bind_eq_some_iff, forbid_iff, need_iff, fromInt_iff, Option.pure_def,
    Option.some.injEq, Prod.mk.injEq, Prod.exists] at h
  obtain ⟨_, hf, h⟩ := h
  exact rd_status (fun _ => rfl) h

theorem rd_sessionDeinitCmd : ReadsLayout sessionDeinitCmd := by
  intro mt oid s o r h
  simp only [sessionDeinitCmd, Option.bind_eq_bind, Option.bind_eq_some_iff, forbid_iff, need_iff, fromInt_iff, Option.pure_def,
    Option.some.injEq, Prod.mk.injEq, Prod.exists] at h
  obtain ⟨_, hf, h⟩ := h
  exact rd_token (fun _ => rfl) h

theorem rd_sessionGetStateCmd : ReadsLayout sessionGetStateCmd := by
  intro mt oid s o r h
  simp only [sessionGetStateCmd, Option.bind_eq_bind, Option.bind_eq_some_iff, forbid_iff, need_iff, fromInt_iff, Option.pure_def,
    Option.some.injEq, Prod.mk.injEq, Prod.exists] at h
  obtain ⟨_, hf, h⟩ := h
  exact rd_token (fun _ => rfl) h

theorem rd_sessionQueryMaxDataSizeInRangingCmd : ReadsLayout sessionQueryMaxDataSizeInRangingCmd := by
  intro mt oid s o r h
  simp only [sessionQueryMaxDataSizeInRangingCmd, Option.bind_eq_bind, Option.bind_eq_some_iff, forbid_iff, need_iff, fromInt_iff, Option.pure_def,
    Option.some.injEq, Prod.mk.injEq, Prod.exists] at h
  obtain ⟨_, hf, h⟩ := h
  exact rd_token (fun _ => rfl) h

theorem rd_sessionStartCmd : ReadsLayout sessionStartCmd := by
  intro mt oid s o r h
  simp only [sessionStartCmd, Option.bind_eq_bind, Option.bind_eq_some_iff, forbid_iff, need_iff, fromInt_iff, Option.pure_def,
    Option.some.injEq, Prod.mk.injEq, Prod.exists] at h
  obtain ⟨_, hf, h⟩ := h
  exact rd_token (fun _ => rfl) h

theorem rd_sessionStopCmd : ReadsLayout sessionStopCmd := by
  intro mt oid s o r h
  simp only [sessionStopCmd, Option.bind_eq_bind, Option.bind_eq_some_iff, forbid_iff, need_iff, fromInt_iff, Option.pure_def,
    Option.some.injEq, Prod.mk.injEq, Prod.exists] at h
  obtain ⟨_, hf, h⟩ := h
  exact rd_token (fun _ => rfl) h

theorem rd_sessionGetRangingCountCmd : ReadsLayout sessionGetRangingCountCmd := by
  intro mt oid s o r h
  simp only [sessionGetRangingCountCmd, Option.bind_eq_bind, Option.bind_eq_some_iff, forbid_iff, need_iff, fromInt_iff, Option.pure_def,
    Option.some.injEq, Prod.mk.injEq, Prod.exists] at h
  obtain ⟨_, hf, h⟩ := h
  exact rd_token (fun _ => rfl) h

theorem rd_coreGetCapsInfoRsp : ReadsLayout coreGetCapsInfoRsp := by
  intro mt oid s o r h
  simp only [coreGetCapsInfoRsp, Option.bind_eq_bind, Option.bind_eq_some_iff, forbid_iff, need_iff, fromInt_iff, Option.pure_def,
    Option.some.injEq, Prod.mk.injEq, Prod.exists] at h
  obtain ⟨_, hf, h⟩ := h
  exact rd_statusTlvs (fun _ _ => rfl) h

theorem rd_coreGetConfigRsp : ReadsLayout coreGetConfigRsp := by
  intro mt oid s o r h
  simp only [coreGetConfigRsp, Option.bind_eq_bind, Option.bind_eq_some_iff, forbid_iff, need_iff, fromInt_iff, Option.pure_def,
    Option.some.injEq, Prod.mk.injEq, Prod.exists] at h
  obtain ⟨_, hf, h⟩ := h
  exact rd_statusTlvs (fun _ _ => rfl) h

theorem rd_sessionGetAppConfigRsp : ReadsLayout sessionGetAppConfigRsp := by
  intro mt oid s o r h
  simp only [sessionGetAppConfigRsp, Option.bind_eq_bind, Option.bind_eq_some_iff, forbid_iff, need_iff, fromInt_iff, Option.pure_def,
    Option.some.injEq, Prod.mk.injEq, Prod.exists] at h
  obtain ⟨_, hf, h⟩ := h
  exact rd_statusTlvs (fun _ _ => rfl) h

theorem rd_coreSetConfigRsp : ReadsLayout coreSetConfigRsp := by
  intro mt oid s o r h
  simp only [coreSetConfigRsp, Option.bind_eq_bind, Option.bind_eq_some_iff, forbid_iff, need_iff, fromInt_iff, Option.pure_def,
    Option.some.injEq, Prod.mk.injEq, Prod.exists] at h
  obtain ⟨_, hf, h⟩ := h
  exact rd_statusStatuses (fun _ _ => rfl) h

theorem rd_sessionSetAppConfigRsp : ReadsLayout sessionSetAppConfigRsp := by
  intro mt oid s o r h
  simp only [sessionSetAppConfigRsp, Option.bind_eq_bind, Option.bind_eq_some_iff, forbid_iff, need_iff, fromInt_iff, Option.pure_def,
    Option.some.injEq, Prod.mk.injEq, Prod.exists] at h
  obtain ⟨_, hf, h⟩ := h
  exact rd_statusStatuses (fun _ _ => rfl) h

theorem rd_coreGetDeviceInfoCmd : ReadsLayout coreGetDeviceInfoCmd := by
  intro mt oid s o r h
  simp only [coreGetDeviceInfoCmd, Option.bind_eq_bind, Option.bind_eq_some_iff, forbid_iff, need_iff, fromInt_iff, Option.pure_def,
    Option.some.injEq, Prod.mk.injEq, Prod.exists] at h
  obtain ⟨_, hf, rfl, rfl⟩ := h
  exact takes_nil _

theorem rd_coreGetCapsInfoCmd : ReadsLayout coreGetCapsInfoCmd := by
  intro mt oid s o r h
  simp only [coreGetCapsInfoCmd, Option.bind_eq_bind, Option.bind_eq_some_iff, forbid_iff, need_iff, fromInt_iff, Option.pure_def,
    Option.some.injEq, Prod.mk.injEq, Prod.exists] at h
  obtain ⟨_, hf, rfl, rfl⟩ := h
  exact takes_nil _

theorem rd_coreQueryTimeStampCmd : ReadsLayout coreQueryTimeStampCmd := by
  intro mt oid s o r h
  simp only [coreQueryTimeStampCmd, Option.bind_eq_bind, Option.bind_eq_some_iff, forbid_iff, need_iff, fromInt_iff, Option.pure_def,
    Option.some.injEq, Prod.mk.injEq, Prod.exists] at h
  obtain ⟨_, hf, rfl, rfl⟩ := h
  exact takes_nil _

theorem rd_sessionGetCountCmd : ReadsLayout sessionGetCountCmd := by
  intro mt oid s o r h
  simp only [sessionGetCountCmd, Option.bind_eq_bind, Option.bind_eq_some_iff, forbid_iff, need_iff, fromInt_iff, Option.pure_def,
    Option.some.injEq, Prod.mk.injEq, Prod.exists] at h
  obtain ⟨_, hf, rfl, rfl⟩ := h
  exact takes_nil _

theorem rd_sessionUpdateDtAnchorRangingRoundsCmd : ReadsLayout sessionUpdateDtAnchorRangingRoundsCmd := by
  intro mt oid s o r h
  simp only [sessionUpdateDtAnchorRangingRoundsCmd, Option.bind_eq_bind, Option.bind_eq_some_iff, forbid_iff, need_iff, fromInt_iff, Option.pure_def,
    Option.some.injEq, Prod.mk.injEq, Prod.exists] at h
  obtain ⟨_, hf, rfl, rfl⟩ := h
  exact takes_nil _

theorem rd_androidGetPowerStatsCmd : ReadsLayout androidGetPowerStatsCmd := by
  intro mt oid s o r h
  simp only [androidGetPowerStatsCmd, Option.bind_eq_bind, Option.bind_eq_some_iff, forbid_iff, need_iff, fromInt_iff, Option.pure_def,
    Option.some.injEq, Prod.mk.injEq, Prod.exists] at h
  obtain ⟨_, hf, rfl, rfl⟩ := h
  exact takes_nil _

theorem rd_sessionUpdateDtAnchorRangingRoundsRsp : ReadsLayout sessionUpdateDtAnchorRangingRoundsRsp := by
  intro mt oid s o r h
  simp only [sessionUpdateDtAnchorRangingRoundsRsp, Option.bind_eq_bind, Option.bind_eq_some_iff, forbid_iff, need_iff, fromInt_iff, Option.pure_def,
    Option.some.injEq, Prod.mk.injEq, Prod.exists] at h
  obtain ⟨_, hf, rfl, rfl⟩ := h
  exact takes_nil _

theorem rd_coreDeviceResetCmd : ReadsLayout coreDeviceResetCmd := by
  intro mt oid s o r h
  simp only [coreDeviceResetCmd, Option.bind_eq_bind, Option.bind_eq_some_iff, forbid_iff, need_iff, fromInt_iff, Option.pure_def,
    Option.some.injEq, Prod.mk.injEq, Prod.exists] at h
  obtain ⟨_, hf, _, h1, v, ⟨h2, rfl⟩, rfl, rfl⟩ := h
  show Takes (bodyPat _) (s.drop 0) _
  simp only [bodyPat, commandPat, listPat]
  iterate 1 rdf

theorem rd_coreDeviceStatusNtf : ReadsLayout coreDeviceStatusNtf := by
  intro mt oid s o r h
  simp only [coreDeviceStatusNtf, Option.bind_eq_bind, Option.bind_eq_some_iff, forbid_iff, need_iff, fromInt_iff, Option.pure_def,
    Option.some.injEq, Prod.mk.injEq, Prod.exists] at h
  obtain ⟨_, hf, _, h1, v, ⟨h2, rfl⟩, rfl, rfl⟩ := h
  show Takes (bodyPat _) (s.drop 0) _
  simp only [bodyPat, commandPat, listPat]
  iterate 1 rdf

theorem rd_sessionInitCmd : ReadsLayout sessionInitCmd := by
  intro mt oid s o r h
  simp only [sessionInitCmd, Option.bind_eq_bind, Option.bind_eq_some_iff, forbid_iff, need_iff, fromInt_iff, Option.pure_def,
    Option.some.injEq, Prod.mk.injEq, Prod.exists] at h
  obtain ⟨_, hf, _, h1, v, ⟨h2, rfl⟩, rfl, rfl⟩ := h
  show Takes (bodyPat _) (s.drop 0) _
  simp only [bodyPat, commandPat, listPat]
  iterate 2 rdf

theorem rd_coreQueryTimeStampRsp : ReadsLayout coreQueryTimeStampRsp := by
  intro mt oid s o r h
  simp only [coreQueryTimeStampRsp, Option.bind_eq_bind, Option.bind_eq_some_iff, forbid_iff, need_iff, fromInt_iff, Option.pure_def,
    Option.some.injEq, Prod.mk.injEq, Prod.exists] at h
  obtain ⟨_, hf, _, h1, rfl, rfl⟩ := h
  show Takes (bodyPat _) (s.drop 0) _
  simp only [bodyPat, commandPat, listPat]
  iterate 2 rdf

theorem rd_sessionInitRspV2 : ReadsLayout sessionInitRspV2 := by
  intro mt oid s o r h
  simp only [sessionInitRspV2, Option.bind_eq_bind, Option.bind_eq_some_iff, forbid_iff, need_iff, fromInt_iff, Option.pure_def,
    Option.some.injEq, Prod.mk.injEq, Prod.exists] at h
  obtain ⟨_, hf, _, h1, rfl, rfl⟩ := h
  show Takes (bodyPat _) (s.drop 0) _
  simp only [bodyPat, commandPat, listPat]
  iterate 2 rdf

theorem rd_sessionStatusNtf : ReadsLayout sessionStatusNtf := by
  intro mt oid s o r h
  simp only [sessionStatusNtf, Option.bind_eq_bind, Option.bind_eq_some_iff, forbid_iff, need_iff, fromInt_iff, Option.pure_def,
    Option.some.injEq, Prod.mk.injEq, Prod.exists] at h
  obtain ⟨_, hf, _, h1, v, ⟨h2, rfl⟩, rfl, rfl⟩ := h
  show Takes (bodyPat _) (s.drop 0) _
  simp only [bodyPat, commandPat, listPat]
  iterate 3 rdf

theorem rd_sessionGetCountRsp : ReadsLayout sessionGetCountRsp := by
  intro mt oid s o r h
  simp only [sessionGetCountRsp, Option.bind_eq_bind, Option.bind_eq_some_iff, forbid_iff, need_iff, fromInt_iff, Option.pure_def,
    Option.some.injEq, Prod.mk.injEq, Prod.exists] at h
  obtain ⟨_, hf, _, h1, rfl, rfl⟩ := h
  show Takes (bodyPat _) (s.drop 0) _
  simp only [bodyPat, commandPat, listPat]
  iterate 2 rdf

theorem rd_sessionGetStateRsp : ReadsLayout sessionGetStateRsp := by
  intro mt oid s o r h
  simp only [sessionGetStateRsp, Option.bind_eq_bind, Option.bind_eq_some_iff, forbid_iff, need_iff, fromInt_iff, Option.pure_def,
    Option.some.injEq, Prod.mk.injEq, Prod.exists] at h
  obtain ⟨_, hf, _, h1, v, ⟨h2, rfl⟩, rfl, rfl⟩ := h
  show Takes (bodyPat _) (s.drop 0) _
  simp only [bodyPat, commandPat, listPat]
  iterate 2 rdf

theorem rd_sessionQueryMaxDataSizeInRangingRsp : ReadsLayout sessionQueryMaxDataSizeInRangingRsp := by
  intro mt oid s o r h
  simp only [sessionQueryMaxDataSizeInRangingRsp, Option.bind_eq_bind, Option.bind_eq_some_iff, forbid_iff, need_iff, fromInt_iff, Option.pure_def,
    Option.some.injEq, Prod.mk.injEq, Prod.exists] at h
  obtain ⟨_, hf, _, h1, rfl, rfl⟩ := h
  show Takes (bodyPat _) (s.drop 0) _
  simp only [bodyPat, commandPat, listPat]
  iterate 2 rdf

theorem rd_sessionDataCreditNtf : ReadsLayout sessionDataCreditNtf := by
  intro mt oid s o r h
  simp only [sessionDataCreditNtf, Option.bind_eq_bind, Option.bind_eq_some_iff, forbid_iff, need_iff, fromInt_iff, Option.pure_def,
    Option.some.injEq, Prod.mk.injEq, Prod.exists] at h
  obtain ⟨_, hf, _, h1, v, ⟨h2, rfl⟩, rfl, rfl⟩ := h
  show Takes (bodyPat _) (s.drop 0) _
  simp only [bodyPat, commandPat, listPat]
  iterate 2 rdf

theorem rd_sessionDataTransferStatusNtf : ReadsLayout sessionDataTransferStatusNtf := by
  intro mt oid s o r h
  simp only [sessionDataTransferStatusNtf, Option.bind_eq_bind, Option.bind_eq_some_iff, forbid_iff, need_iff, fromInt_iff, Option.pure_def,
    Option.some.injEq, Prod.mk.injEq, Prod.exists] at h
  obtain ⟨_, hf, _, h1, v, ⟨h2, rfl⟩, rfl, rfl⟩ := h
  show Takes (bodyPat _) (s.drop 0) _
  simp only [bodyPat, commandPat, listPat]
  iterate 4 rdf

theorem rd_sessionGetRangingCountRsp : ReadsLayout sessionGetRangingCountRsp := by
  intro mt oid s o r h
  simp only [sessionGetRangingCountRsp, Option.bind_eq_bind, Option.bind_eq_some_iff, forbid_iff, need_iff, fromInt_iff, Option.pure_def,
    Option.some.injEq, Prod.mk.injEq, Prod.exists] at h
  obtain ⟨_, hf, _, h1, rfl, rfl⟩ := h
  show Takes (bodyPat _) (s.drop 0) _
  simp only [bodyPat, commandPat, listPat]
  iterate 2 rdf

theorem rd_androidGetPowerStatsRsp : ReadsLayout androidGetPowerStatsRsp := by
  intro mt oid s o r h
  simp only [androidGetPowerStatsRsp, Option.bind_eq_bind, Option.bind_eq_some_iff, forbid_iff, need_iff, fromInt_iff, Option.pure_def,
    Option.some.injEq, Prod.mk.injEq, Prod.exists] at h
  obtain ⟨_, hf, _, h1, rfl, rfl⟩ := h
  show Takes (bodyPat _) (s.drop 0) _
  simp only [bodyPat, commandPat, listPat]
  iterate 5 rdf

theorem rd_coreSetConfigCmd : ReadsLayout coreSetConfigCmd := by
  intro mt oid s o r h
  simp only [coreSetConfigCmd, Option.bind_eq_bind, Option.bind_eq_some_iff, forbid_iff, need_iff, fromInt_iff, Option.pure_def,
    Option.some.injEq, Prod.mk.injEq, Prod.exists] at h
  obtain ⟨_, hf, _, h1, l, r', h2, rfl, rfl⟩ := h
  obtain ⟨h3, h4⟩ := rd_elements rd_tlv h2
  show Takes (bodyPat _) (s.drop 0) _
  simp only [bodyPat, commandPat, listPat]
  rw [h3]
  iterate 1 rdf
  exact h4

theorem rd_sessionSetAppConfigCmd : ReadsLayout sessionSetAppConfigCmd := by
  intro mt oid s o r h
  simp only [sessionSetAppConfigCmd, Option.bind_eq_bind, Option.bind_eq_some_iff, forbid_iff, need_iff, fromInt_iff, Option.pure_def,
    Option.some.injEq, Prod.mk.injEq, Prod.exists] at h
  obtain ⟨_, hf, _, h1, l, r', h2, rfl, rfl⟩ := h
  obtain ⟨h3, h4⟩ := rd_elements rd_tlv h2
  show Takes (bodyPat _) (s.drop 0) _
  simp only [bodyPat, commandPat, listPat]
  rw [h3]
  iterate 2 rdf
  exact h4

theorem rd_androidRangeDiagnosticsNtf : ReadsLayout androidRangeDiagnosticsNtf := by
  intro mt oid s o r h
  simp only [androidRangeDiagnosticsNtf, Option.bind_eq_bind, Option.bind_eq_some_iff, forbid_iff, need_iff, fromInt_iff, Option.pure_def,
    Option.some.injEq, Prod.mk.injEq, Prod.exists] at h
  obtain ⟨_, hf, _, h1, l, r', h2, rfl, rfl⟩ := h
  obtain ⟨h3, h4⟩ := rd_elements rd_frameReport h2
  show Takes (bodyPat _) (s.drop 0) _
  simp only [bodyPat, commandPat, listPat]
  rw [h3]
  iterate 3 rdf
  exact h4

theorem rd_coreGetConfigCmd : ReadsLayout coreGetConfigCmd := by
  intro mt oid s o r h
  simp only [coreGetConfigCmd, Option.bind_eq_bind, Option.bind_eq_some_iff, forbid_iff, need_iff, fromInt_iff, Option.pure_def,
    Option.some.injEq, Prod.mk.injEq, Prod.exists] at h
  obtain ⟨_, hf, _, h1, _, h5, l, h2, rfl, rfl⟩ := h
  obtain ⟨h3, h4⟩ := rd_members h5 h2
  show Takes (bodyPat _) (s.drop 0) _
  simp only [bodyPat, commandPat, listPat]
  rw [h3]
  iterate 1 rdf
  exact h4

theorem rd_sessionGetAppConfigCmd : ReadsLayout sessionGetAppConfigCmd := by
  intro mt oid s o r h
  simp only [sessionGetAppConfigCmd, Option.bind_eq_bind, Option.bind_eq_some_iff, forbid_iff, need_iff, fromInt_iff, Option.pure_def,
    Option.some.injEq, Prod.mk.injEq, Prod.exists] at h
  obtain ⟨_, hf, _, h1, _, h5, l, h2, rfl, rfl⟩ := h
  obtain ⟨h3, h4⟩ := rd_members h5 h2
  show Takes (bodyPat _) (s.drop 0) _
  simp only [bodyPat, commandPat, listPat]
  rw [h3]
  iterate 2 rdf
  exact h4

theorem rd_sessionUpdateControllerMulticastListNtf : ReadsLayout sessionUpdateControllerMulticastListNtf := by
  intro mt oid s o r h
  simp only [sessionUpdateControllerMulticastListNtf, Option.bind_eq_bind, Option.bind_eq_some_iff, forbid_iff, need_iff, fromInt_iff, Option.pure_def,
    Option.some.injEq, Prod.mk.injEq, Prod.exists] at h
  obtain ⟨_, hf, _, h1, _, h5, l, h2, rfl, rfl⟩ := h
  obtain ⟨h3, h4⟩ := rd_records rd_controleeStatus h2
  show Takes (bodyPat _) (s.drop 0) _
  simp only [bodyPat, commandPat, listPat]
  rw [h3]
  iterate 2 rdf
  exact h4

theorem rd_sessionUpdateDtTagRangingRoundsCmd : ReadsLayout sessionUpdateDtTagRangingRoundsCmd := by
  intro mt oid s o r h
  simp only [sessionUpdateDtTagRangingRoundsCmd, Option.bind_eq_bind, Option.bind_eq_some_iff, forbid_iff, need_iff, fromInt_iff, Option.pure_def,
    Option.some.injEq, Prod.mk.injEq, Prod.exists] at h
  obtain ⟨_, hf, _, h1, _, h5, rfl, rfl⟩ := h
  have e : ((s.drop 5).take (idx s 4)).length = idx s 4 := by rw [List.length_take]; omega
  show Takes (bodyPat _) (s.drop 0) _
  simp only [bodyPat, commandPat, listPat]
  rw [e]
  iterate 2 rdf
  exact takes_octets

theorem rd_sessionUpdateDtTagRangingRoundsRsp : ReadsLayout sessionUpdateDtTagRangingRoundsRsp := by
  intro mt oid s o r h
  simp only [sessionUpdateDtTagRangingRoundsRsp, Option.bind_eq_bind, Option.bind_eq_some_iff, forbid_iff, need_iff, fromInt_iff, Option.pure_def,
    Option.some.injEq, Prod.mk.injEq, Prod.exists] at h
  obtain ⟨_, hf, _, h1, _, h5, rfl, rfl⟩ := h
  have e : ((s.drop 2).take (idx s 1)).length = idx s 1 := by rw [List.length_take]; omega
  show Takes (bodyPat _) (s.drop 0) _
  simp only [bodyPat, commandPat, listPat]
  rw [e]
  iterate 2 rdf
  exact takes_octets

theorem rd_coreGetDeviceInfoRsp : ReadsLayout coreGetDeviceInfoRsp := by
  intro mt oid s o r h
  simp only [coreGetDeviceInfoRsp, Option.bind_eq_bind, Option.bind_eq_some_iff, forbid_iff, need_iff, fromInt_iff, Option.pure_def,
    Option.some.injEq, Prod.mk.injEq, Prod.exists] at h
  obtain ⟨_, hf, _, h1, _, h5, rfl, rfl⟩ := h
  have e : ((s.drop 10).take (idx s 9)).length = idx s 9 := by rw [List.length_take]; omega
  show Takes (bodyPat _) (s.drop 0) _
  simp only [bodyPat, commandPat, listPat]
  rw [e]
  iterate 6 rdf
  exact takes_octets

theorem rd_sessionUpdateControllerMulticastListCmd : ReadsLayout sessionUpdateControllerMulticastListCmd := by
  intro mt oid s o r h
  simp only [sessionUpdateControllerMulticastListCmd, Option.bind_eq_bind, Option.bind_eq_some_iff, forbid_iff, need_iff, fromInt_iff, Option.pure_def,
    Option.some.injEq, Prod.mk.injEq, Prod.exists] at h
  obtain ⟨_, hf, _, h1, v, ⟨h2, rfl⟩, rfl, rfl⟩ := h
  show Takes (bodyPat _) (s.drop 0) _
  simp only [bodyPat, commandPat, listPat]
  rdf; rdf
  exact takes_all _

theorem rd_androidSetCountryCodeCmd : ReadsLayout androidSetCountryCodeCmd := by
  intro mt oid s o r h
  simp only [androidSetCountryCodeCmd, Option.bind_eq_bind, Option.bind_eq_some_iff, forbid_iff, need_iff, fromInt_iff, Option.pure_def,
    Option.some.injEq, Prod.mk.injEq, Prod.exists] at h
  obtain ⟨_, hf, _, h1, rfl, rfl⟩ := h
  exact takes_octets


/-- The payload of a session notification. -/
theorem rd_infoChild {n t r i type indicator : Nat} {p : Bytes} {o : Obj} (h0 : infoChild n t r i type indicator p = some o) :
    ∃ q, bodyPat o = infoPat n t r i type indicator q ∧ Takes q p [] := by
  have h := mem_of_firstChild h0
  clear h0
  simp only [List.mem_cons, List.not_mem_nil, or_false, shortMacTwoWaySessionInfoNtf, extendedMacTwoWaySessionInfoNtf,
    shortMacDlTDoASessionInfoNtf, extendedMacDlTDoASessionInfoNtf, shortMacOwrAoaSessionInfoNtf,
    extendedMacOwrAoaSessionInfoNtf, eq_comm (a := some (o, ([] : Bytes))), Option.bind_eq_bind, Option.bind_eq_some_iff, forbid_iff] at h
  rcases h with ⟨_, hf, h⟩ | ⟨_, hf, h⟩ | ⟨_, hf, h⟩ | ⟨_, hf, h⟩ | ⟨_, hf, h⟩ | ⟨_, hf, h⟩
  · obtain ⟨rfl, rfl⟩ : type = 1 ∧ indicator = 0 := by omega
    obtain ⟨l, v, rfl, h'⟩ := rd_counted rd_measurement h
    exact ⟨_, rfl, h'⟩
  · obtain ⟨rfl, rfl⟩ : type = 1 ∧ indicator = 1 := by omega
    obtain ⟨l, v, rfl, h'⟩ := rd_counted rd_extMeasurement h
    exact ⟨_, rfl, h'⟩
  · obtain ⟨rfl, rfl⟩ : type = 2 ∧ indicator = 0 := by omega
    obtain ⟨l, rfl, h'⟩ := rd_dlTDoAs (w := 2) (n := 16) rfl h
    exact ⟨_, rfl, h'⟩
  · obtain ⟨rfl, rfl⟩ : type = 2 ∧ indicator = 1 := by omega
    obtain ⟨l, rfl, h'⟩ := rd_dlTDoAs (w := 8) (n := 64) rfl h
    exact ⟨_, rfl, h'⟩
  · obtain ⟨rfl, rfl⟩ : type = 3 ∧ indicator = 0 := by omega
    obtain ⟨l, v, rfl, h'⟩ := rd_counted rd_owrAoa h
    exact ⟨_, rfl, h'⟩
  · obtain ⟨rfl, rfl⟩ : type = 3 ∧ indicator = 1 := by omega
    obtain ⟨l, v, rfl, h'⟩ := rd_counted rd_extOwrAoa h
    exact ⟨_, rfl, h'⟩

theorem rd_sessionInfoNtf : ReadsLayout sessionInfoNtf := by
  intro mt oid s o r h
  simp only [sessionInfoNtf, Option.bind_eq_bind, Option.bind_eq_some_iff, forbid_iff, need_iff, fromInt_iff, Option.pure_def,
    Option.some.injEq, Prod.mk.injEq, Prod.exists] at h
  obtain ⟨_, hf, _, h1, ty, ⟨h2, rfl⟩, ind, ⟨h3, rfl⟩, rfl, rfl⟩ := h
  have key : ∃ q, bodyPat ((infoChild (le s 0 4) (le s 4 8) (idx s 8) (le s 9 13) (idx s 13) (idx s 15) (s.drop 24)).getD
      (.sessionInfoNtf (le s 0 4) (le s 4 8) (idx s 8) (le s 9 13) (idx s 13) (idx s 15) (s.drop 24))) =
      infoPat (le s 0 4) (le s 4 8) (idx s 8) (le s 9 13) (idx s 13) (idx s 15) q ∧ Takes q (s.drop 24) [] := by
    cases hc : infoChild (le s 0 4) (le s 4 8) (idx s 8) (le s 9 13) (idx s 13) (idx s 15) (s.drop 24) with
    | some o => exact rd_infoChild hc
    | none => exact ⟨_, rfl, takes_all _⟩
  obtain ⟨q, h4, h5⟩ := key
  rw [h4]
  unfold infoPat
  show Takes _ (s.drop 0) _
  rdf; rdf; rdf; rdf; rdf
  refine Spec.Pdl.Takes.append (rd_gap (j := 15) (by omega) (by omega) (by decide)) ?_
  rdf
  exact Spec.Pdl.Takes.append (rd_gap (j := 24) (by omega) (by omega) (by decide)) h5

end Pica.Py
