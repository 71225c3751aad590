import Verif.Proofs.PyBack
/-! Messages of `uci.py` written and read again. -/

namespace Pica.Py
open Spec

/-- The classes tried for a group. -/
def groupChild (g mt oid : Nat) (p : Bytes) : Option Obj :=
  if g = 0 then coreChild mt oid p else if g = 1 then sessionConfigChild mt oid p
  else if g = 2 then sessionControlChild mt oid p else androidChild mt oid p

/-- The message is written and the classes of its group read it back. -/
def Chosen (o : Obj) : Prop := ∃ b, o.body = some b ∧ groupChild o.code.1 o.code.2.1 o.code.2.2 b = some o

theorem chosen_coreDeviceResetCmd {o : Obj} (h : Reads coreDeviceResetCmd o) (hc : o.code = (0, 1, 0)) : Chosen o := by
  obtain ⟨b, h1, h2⟩ := h
  rw [hc] at h2
  refine ⟨b, h1, ?_⟩
  rw [hc]
  have h3 : coreDeviceResetCmd 1 0 b = some (o, []) := h2
  show coreChild 1 0 b = some o
  simp only [coreChild, h3]
  rfl

theorem chosen_coreDeviceResetRsp {o : Obj} (h : Reads coreDeviceResetRsp o) (hc : o.code = (0, 2, 0)) : Chosen o := by
  obtain ⟨b, h1, h2⟩ := h
  rw [hc] at h2
  refine ⟨b, h1, ?_⟩
  rw [hc]
  have h3 : coreDeviceResetRsp 2 0 b = some (o, []) := h2
  show coreChild 2 0 b = some o
  simp only [coreChild, h3]
  rfl

theorem chosen_coreDeviceStatusNtf {o : Obj} (h : Reads coreDeviceStatusNtf o) (hc : o.code = (0, 3, 1)) : Chosen o := by
  obtain ⟨b, h1, h2⟩ := h
  rw [hc] at h2
  refine ⟨b, h1, ?_⟩
  rw [hc]
  have h3 : coreDeviceStatusNtf 3 1 b = some (o, []) := h2
  show coreChild 3 1 b = some o
  simp only [coreChild, h3]
  rfl

theorem chosen_coreGetDeviceInfoCmd {o : Obj} (h : Reads coreGetDeviceInfoCmd o) (hc : o.code = (0, 1, 2)) : Chosen o := by
  obtain ⟨b, h1, h2⟩ := h
  rw [hc] at h2
  refine ⟨b, h1, ?_⟩
  rw [hc]
  have h3 : coreGetDeviceInfoCmd 1 2 b = some (o, []) := h2
  show coreChild 1 2 b = some o
  simp only [coreChild, h3]
  rfl

theorem chosen_coreGetDeviceInfoRsp {o : Obj} (h : Reads coreGetDeviceInfoRsp o) (hc : o.code = (0, 2, 2)) : Chosen o := by
  obtain ⟨b, h1, h2⟩ := h
  rw [hc] at h2
  refine ⟨b, h1, ?_⟩
  rw [hc]
  have h3 : coreGetDeviceInfoRsp 2 2 b = some (o, []) := h2
  show coreChild 2 2 b = some o
  simp only [coreChild, h3]
  rfl

theorem chosen_coreGetCapsInfoCmd {o : Obj} (h : Reads coreGetCapsInfoCmd o) (hc : o.code = (0, 1, 3)) : Chosen o := by
  obtain ⟨b, h1, h2⟩ := h
  rw [hc] at h2
  refine ⟨b, h1, ?_⟩
  rw [hc]
  have h3 : coreGetCapsInfoCmd 1 3 b = some (o, []) := h2
  show coreChild 1 3 b = some o
  simp only [coreChild, h3]
  rfl

theorem chosen_coreGetCapsInfoRsp {o : Obj} (h : Reads coreGetCapsInfoRsp o) (hc : o.code = (0, 2, 3)) : Chosen o := by
  obtain ⟨b, h1, h2⟩ := h
  rw [hc] at h2
  refine ⟨b, h1, ?_⟩
  rw [hc]
  have h3 : coreGetCapsInfoRsp 2 3 b = some (o, []) := h2
  show coreChild 2 3 b = some o
  simp only [coreChild, h3]
  rfl

theorem chosen_coreSetConfigCmd {o : Obj} (h : Reads coreSetConfigCmd o) (hc : o.code = (0, 1, 4)) : Chosen o := by
  obtain ⟨b, h1, h2⟩ := h
  rw [hc] at h2
  refine ⟨b, h1, ?_⟩
  rw [hc]
  have h3 : coreSetConfigCmd 1 4 b = some (o, []) := h2
  show coreChild 1 4 b = some o
  simp only [coreChild, h3]
  rfl

theorem chosen_coreSetConfigRsp {o : Obj} (h : Reads coreSetConfigRsp o) (hc : o.code = (0, 2, 4)) : Chosen o := by
  obtain ⟨b, h1, h2⟩ := h
  rw [hc] at h2
  refine ⟨b, h1, ?_⟩
  rw [hc]
  have h3 : coreSetConfigRsp 2 4 b = some (o, []) := h2
  show coreChild 2 4 b = some o
  simp only [coreChild, h3]
  rfl

theorem chosen_coreGetConfigCmd {o : Obj} (h : Reads coreGetConfigCmd o) (hc : o.code = (0, 1, 5)) : Chosen o := by
  obtain ⟨b, h1, h2⟩ := h
  rw [hc] at h2
  refine ⟨b, h1, ?_⟩
  rw [hc]
  have h3 : coreGetConfigCmd 1 5 b = some (o, []) := h2
  show coreChild 1 5 b = some o
  simp only [coreChild, h3]
  rfl

theorem chosen_coreGetConfigRsp {o : Obj} (h : Reads coreGetConfigRsp o) (hc : o.code = (0, 2, 5)) : Chosen o := by
  obtain ⟨b, h1, h2⟩ := h
  rw [hc] at h2
  refine ⟨b, h1, ?_⟩
  rw [hc]
  have h3 : coreGetConfigRsp 2 5 b = some (o, []) := h2
  show coreChild 2 5 b = some o
  simp only [coreChild, h3]
  rfl

theorem chosen_coreGenericErrorNtf {o : Obj} (h : Reads coreGenericErrorNtf o) (hc : o.code = (0, 3, 7)) : Chosen o := by
  obtain ⟨b, h1, h2⟩ := h
  rw [hc] at h2
  refine ⟨b, h1, ?_⟩
  rw [hc]
  have h3 : coreGenericErrorNtf 3 7 b = some (o, []) := h2
  show coreChild 3 7 b = some o
  simp only [coreChild, h3]
  rfl

theorem chosen_coreQueryTimeStampCmd {o : Obj} (h : Reads coreQueryTimeStampCmd o) (hc : o.code = (0, 1, 8)) : Chosen o := by
  obtain ⟨b, h1, h2⟩ := h
  rw [hc] at h2
  refine ⟨b, h1, ?_⟩
  rw [hc]
  have h3 : coreQueryTimeStampCmd 1 8 b = some (o, []) := h2
  show coreChild 1 8 b = some o
  simp only [coreChild, h3]
  rfl

theorem chosen_coreQueryTimeStampRsp {o : Obj} (h : Reads coreQueryTimeStampRsp o) (hc : o.code = (0, 2, 8)) : Chosen o := by
  obtain ⟨b, h1, h2⟩ := h
  rw [hc] at h2
  refine ⟨b, h1, ?_⟩
  rw [hc]
  have h3 : coreQueryTimeStampRsp 2 8 b = some (o, []) := h2
  show coreChild 2 8 b = some o
  simp only [coreChild, h3]
  rfl

theorem chosen_sessionInitCmd {o : Obj} (h : Reads sessionInitCmd o) (hc : o.code = (1, 1, 0)) : Chosen o := by
  obtain ⟨b, h1, h2⟩ := h
  rw [hc] at h2
  refine ⟨b, h1, ?_⟩
  rw [hc]
  have h3 : sessionInitCmd 1 0 b = some (o, []) := h2
  show sessionConfigChild 1 0 b = some o
  simp only [sessionConfigChild, h3]
  rfl

theorem chosen_sessionInitRspV2 {o : Obj} (h : Reads sessionInitRspV2 o) (hc : o.code = (1, 2, 0)) : Chosen o := by
  obtain ⟨b, h1, h2⟩ := h
  rw [hc] at h2
  refine ⟨b, h1, ?_⟩
  rw [hc]
  have h3 : sessionInitRspV2 2 0 b = some (o, []) := h2
  show sessionConfigChild 2 0 b = some o
  simp only [sessionConfigChild, h3]
  rfl

theorem chosen_sessionDeinitCmd {o : Obj} (h : Reads sessionDeinitCmd o) (hc : o.code = (1, 1, 1)) : Chosen o := by
  obtain ⟨b, h1, h2⟩ := h
  rw [hc] at h2
  refine ⟨b, h1, ?_⟩
  rw [hc]
  have h3 : sessionDeinitCmd 1 1 b = some (o, []) := h2
  show sessionConfigChild 1 1 b = some o
  simp only [sessionConfigChild, h3]
  rfl

theorem chosen_sessionDeinitRsp {o : Obj} (h : Reads sessionDeinitRsp o) (hc : o.code = (1, 2, 1)) : Chosen o := by
  obtain ⟨b, h1, h2⟩ := h
  rw [hc] at h2
  refine ⟨b, h1, ?_⟩
  rw [hc]
  have h3 : sessionDeinitRsp 2 1 b = some (o, []) := h2
  show sessionConfigChild 2 1 b = some o
  simp only [sessionConfigChild, h3]
  rfl

theorem chosen_sessionStatusNtf {o : Obj} (h : Reads sessionStatusNtf o) (hc : o.code = (1, 3, 2)) : Chosen o := by
  obtain ⟨b, h1, h2⟩ := h
  rw [hc] at h2
  refine ⟨b, h1, ?_⟩
  rw [hc]
  have h3 : sessionStatusNtf 3 2 b = some (o, []) := h2
  show sessionConfigChild 3 2 b = some o
  simp only [sessionConfigChild, h3]
  rfl

theorem chosen_sessionSetAppConfigCmd {o : Obj} (h : Reads sessionSetAppConfigCmd o) (hc : o.code = (1, 1, 3)) : Chosen o := by
  obtain ⟨b, h1, h2⟩ := h
  rw [hc] at h2
  refine ⟨b, h1, ?_⟩
  rw [hc]
  have h3 : sessionSetAppConfigCmd 1 3 b = some (o, []) := h2
  show sessionConfigChild 1 3 b = some o
  simp only [sessionConfigChild, h3]
  rfl

theorem chosen_sessionSetAppConfigRsp {o : Obj} (h : Reads sessionSetAppConfigRsp o) (hc : o.code = (1, 2, 3)) : Chosen o := by
  obtain ⟨b, h1, h2⟩ := h
  rw [hc] at h2
  refine ⟨b, h1, ?_⟩
  rw [hc]
  have h3 : sessionSetAppConfigRsp 2 3 b = some (o, []) := h2
  show sessionConfigChild 2 3 b = some o
  simp only [sessionConfigChild, h3]
  rfl

theorem chosen_sessionGetAppConfigCmd {o : Obj} (h : Reads sessionGetAppConfigCmd o) (hc : o.code = (1, 1, 4)) : Chosen o := by
  obtain ⟨b, h1, h2⟩ := h
  rw [hc] at h2
  refine ⟨b, h1, ?_⟩
  rw [hc]
  have h3 : sessionGetAppConfigCmd 1 4 b = some (o, []) := h2
  show sessionConfigChild 1 4 b = some o
  simp only [sessionConfigChild, h3]
  rfl

theorem chosen_sessionGetAppConfigRsp {o : Obj} (h : Reads sessionGetAppConfigRsp o) (hc : o.code = (1, 2, 4)) : Chosen o := by
  obtain ⟨b, h1, h2⟩ := h
  rw [hc] at h2
  refine ⟨b, h1, ?_⟩
  rw [hc]
  have h3 : sessionGetAppConfigRsp 2 4 b = some (o, []) := h2
  show sessionConfigChild 2 4 b = some o
  simp only [sessionConfigChild, h3]
  rfl

theorem chosen_sessionGetCountCmd {o : Obj} (h : Reads sessionGetCountCmd o) (hc : o.code = (1, 1, 5)) : Chosen o := by
  obtain ⟨b, h1, h2⟩ := h
  rw [hc] at h2
  refine ⟨b, h1, ?_⟩
  rw [hc]
  have h3 : sessionGetCountCmd 1 5 b = some (o, []) := h2
  show sessionConfigChild 1 5 b = some o
  simp only [sessionConfigChild, h3]
  rfl

theorem chosen_sessionGetCountRsp {o : Obj} (h : Reads sessionGetCountRsp o) (hc : o.code = (1, 2, 5)) : Chosen o := by
  obtain ⟨b, h1, h2⟩ := h
  rw [hc] at h2
  refine ⟨b, h1, ?_⟩
  rw [hc]
  have h3 : sessionGetCountRsp 2 5 b = some (o, []) := h2
  show sessionConfigChild 2 5 b = some o
  simp only [sessionConfigChild, h3]
  rfl

theorem chosen_sessionGetStateCmd {o : Obj} (h : Reads sessionGetStateCmd o) (hc : o.code = (1, 1, 6)) : Chosen o := by
  obtain ⟨b, h1, h2⟩ := h
  rw [hc] at h2
  refine ⟨b, h1, ?_⟩
  rw [hc]
  have h3 : sessionGetStateCmd 1 6 b = some (o, []) := h2
  show sessionConfigChild 1 6 b = some o
  simp only [sessionConfigChild, h3]
  rfl

theorem chosen_sessionGetStateRsp {o : Obj} (h : Reads sessionGetStateRsp o) (hc : o.code = (1, 2, 6)) : Chosen o := by
  obtain ⟨b, h1, h2⟩ := h
  rw [hc] at h2
  refine ⟨b, h1, ?_⟩
  rw [hc]
  have h3 : sessionGetStateRsp 2 6 b = some (o, []) := h2
  show sessionConfigChild 2 6 b = some o
  simp only [sessionConfigChild, h3]
  rfl

theorem chosen_sessionUpdateDtAnchorRangingRoundsCmd {o : Obj} (h : Reads sessionUpdateDtAnchorRangingRoundsCmd o) (hc : o.code = (1, 1, 8)) : Chosen o := by
  obtain ⟨b, h1, h2⟩ := h
  rw [hc] at h2
  refine ⟨b, h1, ?_⟩
  rw [hc]
  have h3 : sessionUpdateDtAnchorRangingRoundsCmd 1 8 b = some (o, []) := h2
  show sessionConfigChild 1 8 b = some o
  simp only [sessionConfigChild, h3]
  rfl

theorem chosen_sessionUpdateDtAnchorRangingRoundsRsp {o : Obj} (h : Reads sessionUpdateDtAnchorRangingRoundsRsp o) (hc : o.code = (1, 2, 8)) : Chosen o := by
  obtain ⟨b, h1, h2⟩ := h
  rw [hc] at h2
  refine ⟨b, h1, ?_⟩
  rw [hc]
  have h3 : sessionUpdateDtAnchorRangingRoundsRsp 2 8 b = some (o, []) := h2
  show sessionConfigChild 2 8 b = some o
  simp only [sessionConfigChild, h3]
  rfl

theorem chosen_sessionUpdateDtTagRangingRoundsCmd {o : Obj} (h : Reads sessionUpdateDtTagRangingRoundsCmd o) (hc : o.code = (1, 1, 9)) : Chosen o := by
  obtain ⟨b, h1, h2⟩ := h
  rw [hc] at h2
  refine ⟨b, h1, ?_⟩
  rw [hc]
  have h3 : sessionUpdateDtTagRangingRoundsCmd 1 9 b = some (o, []) := h2
  show sessionConfigChild 1 9 b = some o
  simp only [sessionConfigChild, h3]
  rfl

theorem chosen_sessionUpdateDtTagRangingRoundsRsp {o : Obj} (h : Reads sessionUpdateDtTagRangingRoundsRsp o) (hc : o.code = (1, 2, 9)) : Chosen o := by
  obtain ⟨b, h1, h2⟩ := h
  rw [hc] at h2
  refine ⟨b, h1, ?_⟩
  rw [hc]
  have h3 : sessionUpdateDtTagRangingRoundsRsp 2 9 b = some (o, []) := h2
  show sessionConfigChild 2 9 b = some o
  simp only [sessionConfigChild, h3]
  rfl

theorem chosen_sessionUpdateControllerMulticastListCmd {o : Obj} (h : Reads sessionUpdateControllerMulticastListCmd o) (hc : o.code = (1, 1, 7)) : Chosen o := by
  obtain ⟨b, h1, h2⟩ := h
  rw [hc] at h2
  refine ⟨b, h1, ?_⟩
  rw [hc]
  have h3 : sessionUpdateControllerMulticastListCmd 1 7 b = some (o, []) := h2
  show sessionConfigChild 1 7 b = some o
  simp only [sessionConfigChild, h3]
  rfl

theorem chosen_sessionUpdateControllerMulticastListRsp {o : Obj} (h : Reads sessionUpdateControllerMulticastListRsp o) (hc : o.code = (1, 2, 7)) : Chosen o := by
  obtain ⟨b, h1, h2⟩ := h
  rw [hc] at h2
  refine ⟨b, h1, ?_⟩
  rw [hc]
  have h3 : sessionUpdateControllerMulticastListRsp 2 7 b = some (o, []) := h2
  show sessionConfigChild 2 7 b = some o
  simp only [sessionConfigChild, h3]
  rfl

theorem chosen_sessionUpdateControllerMulticastListNtf {o : Obj} (h : Reads sessionUpdateControllerMulticastListNtf o) (hc : o.code = (1, 3, 7)) : Chosen o := by
  obtain ⟨b, h1, h2⟩ := h
  rw [hc] at h2
  refine ⟨b, h1, ?_⟩
  rw [hc]
  have h3 : sessionUpdateControllerMulticastListNtf 3 7 b = some (o, []) := h2
  show sessionConfigChild 3 7 b = some o
  simp only [sessionConfigChild, h3]
  rfl

theorem chosen_sessionQueryMaxDataSizeInRangingCmd {o : Obj} (h : Reads sessionQueryMaxDataSizeInRangingCmd o) (hc : o.code = (1, 1, 0xb)) : Chosen o := by
  obtain ⟨b, h1, h2⟩ := h
  rw [hc] at h2
  refine ⟨b, h1, ?_⟩
  rw [hc]
  have h3 : sessionQueryMaxDataSizeInRangingCmd 1 0xb b = some (o, []) := h2
  show sessionConfigChild 1 0xb b = some o
  simp only [sessionConfigChild, h3]
  rfl

theorem chosen_sessionQueryMaxDataSizeInRangingRsp {o : Obj} (h : Reads sessionQueryMaxDataSizeInRangingRsp o) (hc : o.code = (1, 2, 0xb)) : Chosen o := by
  obtain ⟨b, h1, h2⟩ := h
  rw [hc] at h2
  refine ⟨b, h1, ?_⟩
  rw [hc]
  have h3 : sessionQueryMaxDataSizeInRangingRsp 2 0xb b = some (o, []) := h2
  show sessionConfigChild 2 0xb b = some o
  simp only [sessionConfigChild, h3]
  rfl

theorem chosen_sessionDataCreditNtf {o : Obj} (h : Reads sessionDataCreditNtf o) (hc : o.code = (2, 3, 4)) : Chosen o := by
  obtain ⟨b, h1, h2⟩ := h
  rw [hc] at h2
  refine ⟨b, h1, ?_⟩
  rw [hc]
  have h3 : sessionDataCreditNtf 3 4 b = some (o, []) := h2
  show sessionControlChild 3 4 b = some o
  simp only [sessionControlChild, h3]
  rfl

theorem chosen_sessionDataTransferStatusNtf {o : Obj} (h : Reads sessionDataTransferStatusNtf o) (hc : o.code = (2, 3, 5)) : Chosen o := by
  obtain ⟨b, h1, h2⟩ := h
  rw [hc] at h2
  refine ⟨b, h1, ?_⟩
  rw [hc]
  have h3 : sessionDataTransferStatusNtf 3 5 b = some (o, []) := h2
  show sessionControlChild 3 5 b = some o
  simp only [sessionControlChild, h3]
  rfl

theorem chosen_sessionStartCmd {o : Obj} (h : Reads sessionStartCmd o) (hc : o.code = (2, 1, 0)) : Chosen o := by
  obtain ⟨b, h1, h2⟩ := h
  rw [hc] at h2
  refine ⟨b, h1, ?_⟩
  rw [hc]
  have h3 : sessionStartCmd 1 0 b = some (o, []) := h2
  show sessionControlChild 1 0 b = some o
  simp only [sessionControlChild, h3]
  rfl

theorem chosen_sessionStartRsp {o : Obj} (h : Reads sessionStartRsp o) (hc : o.code = (2, 2, 0)) : Chosen o := by
  obtain ⟨b, h1, h2⟩ := h
  rw [hc] at h2
  refine ⟨b, h1, ?_⟩
  rw [hc]
  have h3 : sessionStartRsp 2 0 b = some (o, []) := h2
  show sessionControlChild 2 0 b = some o
  simp only [sessionControlChild, h3]
  rfl

theorem chosen_sessionInfoNtf {o : Obj} (h : Reads sessionInfoNtf o) (hc : o.code = (2, 3, 0)) : Chosen o := by
  obtain ⟨b, h1, h2⟩ := h
  rw [hc] at h2
  refine ⟨b, h1, ?_⟩
  rw [hc]
  have h3 : sessionInfoNtf 3 0 b = some (o, []) := h2
  show sessionControlChild 3 0 b = some o
  simp only [sessionControlChild, h3]
  rfl

theorem chosen_sessionStopCmd {o : Obj} (h : Reads sessionStopCmd o) (hc : o.code = (2, 1, 1)) : Chosen o := by
  obtain ⟨b, h1, h2⟩ := h
  rw [hc] at h2
  refine ⟨b, h1, ?_⟩
  rw [hc]
  have h3 : sessionStopCmd 1 1 b = some (o, []) := h2
  show sessionControlChild 1 1 b = some o
  simp only [sessionControlChild, h3]
  rfl

theorem chosen_sessionStopRsp {o : Obj} (h : Reads sessionStopRsp o) (hc : o.code = (2, 2, 1)) : Chosen o := by
  obtain ⟨b, h1, h2⟩ := h
  rw [hc] at h2
  refine ⟨b, h1, ?_⟩
  rw [hc]
  have h3 : sessionStopRsp 2 1 b = some (o, []) := h2
  show sessionControlChild 2 1 b = some o
  simp only [sessionControlChild, h3]
  rfl

theorem chosen_sessionGetRangingCountCmd {o : Obj} (h : Reads sessionGetRangingCountCmd o) (hc : o.code = (2, 1, 3)) : Chosen o := by
  obtain ⟨b, h1, h2⟩ := h
  rw [hc] at h2
  refine ⟨b, h1, ?_⟩
  rw [hc]
  have h3 : sessionGetRangingCountCmd 1 3 b = some (o, []) := h2
  show sessionControlChild 1 3 b = some o
  simp only [sessionControlChild, h3]
  rfl

theorem chosen_sessionGetRangingCountRsp {o : Obj} (h : Reads sessionGetRangingCountRsp o) (hc : o.code = (2, 2, 3)) : Chosen o := by
  obtain ⟨b, h1, h2⟩ := h
  rw [hc] at h2
  refine ⟨b, h1, ?_⟩
  rw [hc]
  have h3 : sessionGetRangingCountRsp 2 3 b = some (o, []) := h2
  show sessionControlChild 2 3 b = some o
  simp only [sessionControlChild, h3]
  rfl

theorem chosen_androidGetPowerStatsCmd {o : Obj} (h : Reads androidGetPowerStatsCmd o) (hc : o.code = (12, 1, 0)) : Chosen o := by
  obtain ⟨b, h1, h2⟩ := h
  rw [hc] at h2
  refine ⟨b, h1, ?_⟩
  rw [hc]
  have h3 : androidGetPowerStatsCmd 1 0 b = some (o, []) := h2
  show androidChild 1 0 b = some o
  simp only [androidChild, h3]
  rfl

theorem chosen_androidGetPowerStatsRsp {o : Obj} (h : Reads androidGetPowerStatsRsp o) (hc : o.code = (12, 2, 0)) : Chosen o := by
  obtain ⟨b, h1, h2⟩ := h
  rw [hc] at h2
  refine ⟨b, h1, ?_⟩
  rw [hc]
  have h3 : androidGetPowerStatsRsp 2 0 b = some (o, []) := h2
  show androidChild 2 0 b = some o
  simp only [androidChild, h3]
  rfl

theorem chosen_androidSetCountryCodeCmd {o : Obj} (h : Reads androidSetCountryCodeCmd o) (hc : o.code = (12, 1, 1)) : Chosen o := by
  obtain ⟨b, h1, h2⟩ := h
  rw [hc] at h2
  refine ⟨b, h1, ?_⟩
  rw [hc]
  have h3 : androidSetCountryCodeCmd 1 1 b = some (o, []) := h2
  show androidChild 1 1 b = some o
  simp only [androidChild, h3]
  rfl

theorem chosen_androidSetCountryCodeRsp {o : Obj} (h : Reads androidSetCountryCodeRsp o) (hc : o.code = (12, 2, 1)) : Chosen o := by
  obtain ⟨b, h1, h2⟩ := h
  rw [hc] at h2
  refine ⟨b, h1, ?_⟩
  rw [hc]
  have h3 : androidSetCountryCodeRsp 2 1 b = some (o, []) := h2
  show androidChild 2 1 b = some o
  simp only [androidChild, h3]
  rfl

theorem chosen_androidRangeDiagnosticsNtf {o : Obj} (h : Reads androidRangeDiagnosticsNtf o) (hc : o.code = (12, 3, 2)) : Chosen o := by
  obtain ⟨b, h1, h2⟩ := h
  rw [hc] at h2
  refine ⟨b, h1, ?_⟩
  rw [hc]
  have h3 : androidRangeDiagnosticsNtf 3 2 b = some (o, []) := h2
  show androidChild 3 2 b = some o
  simp only [androidChild, h3]
  rfl

theorem chosen_sessionInitRsp {s : Nat} (h : s < 2 ^ 8) : Chosen (.sessionInitRsp s) := by
  refine ⟨[UInt8.ofNat s], byte_of h, ?_⟩
  have h3 : sessionInitRsp 2 0 [UInt8.ofNat s] = some (.sessionInitRsp s, []) := by
    obtain ⟨b, h1, h2⟩ := reads_sessionInitRsp (s := s) h
    have h1 : byte s = some b := h1
    rw [byte_of h] at h1
    obtain rfl := Option.some.inj h1
    exact h2
  show sessionConfigChild 2 0 [UInt8.ofNat s] = some _
  simp only [sessionConfigChild, h3]
  rfl

theorem chosen_command {c : Command} (h : CommandFits c) : Chosen (.command c) := by
  have h : ObjFits (.command c) := h
  cases c with
  | coreDeviceReset => exact chosen_coreDeviceResetCmd (reads_coreDeviceResetCmd h) rfl
  | coreGetDeviceInfo => exact chosen_coreGetDeviceInfoCmd reads_coreGetDeviceInfoCmd rfl
  | coreGetCapsInfo => exact chosen_coreGetCapsInfoCmd reads_coreGetCapsInfoCmd rfl
  | coreSetConfig => exact chosen_coreSetConfigCmd (reads_coreSetConfigCmd h) rfl
  | coreGetConfig => exact chosen_coreGetConfigCmd (reads_coreGetConfigCmd h) rfl
  | coreQueryTimeStamp => exact chosen_coreQueryTimeStampCmd reads_coreQueryTimeStampCmd rfl
  | sessionInit => exact chosen_sessionInitCmd (reads_sessionInitCmd h) rfl
  | sessionDeinit => exact chosen_sessionDeinitCmd (reads_sessionDeinitCmd h) rfl
  | sessionSetAppConfig => exact chosen_sessionSetAppConfigCmd (reads_sessionSetAppConfigCmd h) rfl
  | sessionGetAppConfig => exact chosen_sessionGetAppConfigCmd (reads_sessionGetAppConfigCmd h) rfl
  | sessionGetCount => exact chosen_sessionGetCountCmd reads_sessionGetCountCmd rfl
  | sessionGetState => exact chosen_sessionGetStateCmd (reads_sessionGetStateCmd h) rfl
  | sessionUpdateDtAnchorRangingRounds => exact chosen_sessionUpdateDtAnchorRangingRoundsCmd reads_sessionUpdateDtAnchorRangingRoundsCmd rfl
  | sessionUpdateDtTagRangingRounds => exact chosen_sessionUpdateDtTagRangingRoundsCmd (reads_sessionUpdateDtTagRangingRoundsCmd h) rfl
  | sessionUpdateControllerMulticastList => exact chosen_sessionUpdateControllerMulticastListCmd (reads_sessionUpdateControllerMulticastListCmd h) rfl
  | sessionQueryMaxDataSizeInRanging => exact chosen_sessionQueryMaxDataSizeInRangingCmd (reads_sessionQueryMaxDataSizeInRangingCmd h) rfl
  | sessionStart => exact chosen_sessionStartCmd (reads_sessionStartCmd h) rfl
  | sessionStop => exact chosen_sessionStopCmd (reads_sessionStopCmd h) rfl
  | sessionGetRangingCount => exact chosen_sessionGetRangingCountCmd (reads_sessionGetRangingCountCmd h) rfl
  | androidGetPowerStats => exact chosen_androidGetPowerStatsCmd reads_androidGetPowerStatsCmd rfl
  | androidSetCountryCode => exact chosen_androidSetCountryCodeCmd (reads_androidSetCountryCodeCmd h) rfl

theorem chosen_of {o : Obj} (h : ObjFits o) (hd : ¬ IsData o) : Chosen o := by
  cases o with
  | command c => exact chosen_command h
  | controlPacket => exact h.elim
  | corePacket => exact h.elim
  | sessionConfigPacket => exact h.elim
  | sessionControlPacket => exact h.elim
  | androidPacket => exact h.elim
  | sessionInfoNtf => exact h.elim
  | dataPacket => exact h.elim
  | dataMessageSnd => exact (hd trivial).elim
  | dataMessageRcv => exact (hd trivial).elim
  | sessionInitRsp => exact chosen_sessionInitRsp h
  | sessionUpdateDtAnchorRangingRoundsRsp =>
    exact chosen_sessionUpdateDtAnchorRangingRoundsRsp reads_sessionUpdateDtAnchorRangingRoundsRsp rfl
  | shortMacTwoWaySessionInfoNtf => exact chosen_sessionInfoNtf (reads_shortMacTwoWay h) rfl
  | extendedMacTwoWaySessionInfoNtf => exact chosen_sessionInfoNtf (reads_extendedMacTwoWay h) rfl
  | shortMacDlTDoASessionInfoNtf => exact chosen_sessionInfoNtf (reads_shortMacDlTDoA h) rfl
  | extendedMacDlTDoASessionInfoNtf => exact chosen_sessionInfoNtf (reads_extendedMacDlTDoA h) rfl
  | shortMacOwrAoaSessionInfoNtf => exact chosen_sessionInfoNtf (reads_shortMacOwrAoa h) rfl
  | extendedMacOwrAoaSessionInfoNtf => exact chosen_sessionInfoNtf (reads_extendedMacOwrAoa h) rfl
  | coreDeviceResetRsp => exact chosen_coreDeviceResetRsp (reads_coreDeviceResetRsp h) rfl
  | coreDeviceStatusNtf => exact chosen_coreDeviceStatusNtf (reads_coreDeviceStatusNtf h) rfl
  | coreGetDeviceInfoRsp => exact chosen_coreGetDeviceInfoRsp (reads_coreGetDeviceInfoRsp h) rfl
  | coreGetCapsInfoRsp => exact chosen_coreGetCapsInfoRsp (reads_coreGetCapsInfoRsp h) rfl
  | coreSetConfigRsp => exact chosen_coreSetConfigRsp (reads_coreSetConfigRsp h) rfl
  | coreGetConfigRsp => exact chosen_coreGetConfigRsp (reads_coreGetConfigRsp h) rfl
  | coreGenericErrorNtf => exact chosen_coreGenericErrorNtf (reads_coreGenericErrorNtf h) rfl
  | coreQueryTimeStampRsp => exact chosen_coreQueryTimeStampRsp (reads_coreQueryTimeStampRsp h) rfl
  | sessionInitRspV2 => exact chosen_sessionInitRspV2 (reads_sessionInitRspV2 h) rfl
  | sessionDeinitRsp => exact chosen_sessionDeinitRsp (reads_sessionDeinitRsp h) rfl
  | sessionStatusNtf => exact chosen_sessionStatusNtf (reads_sessionStatusNtf h) rfl
  | sessionSetAppConfigRsp => exact chosen_sessionSetAppConfigRsp (reads_sessionSetAppConfigRsp h) rfl
  | sessionGetAppConfigRsp => exact chosen_sessionGetAppConfigRsp (reads_sessionGetAppConfigRsp h) rfl
  | sessionGetCountRsp => exact chosen_sessionGetCountRsp (reads_sessionGetCountRsp h) rfl
  | sessionGetStateRsp => exact chosen_sessionGetStateRsp (reads_sessionGetStateRsp h) rfl
  | sessionUpdateDtTagRangingRoundsRsp => exact chosen_sessionUpdateDtTagRangingRoundsRsp (reads_sessionUpdateDtTagRangingRoundsRsp h) rfl
  | sessionUpdateControllerMulticastListRsp => exact chosen_sessionUpdateControllerMulticastListRsp (reads_sessionUpdateControllerMulticastListRsp h) rfl
  | sessionUpdateControllerMulticastListNtf => exact chosen_sessionUpdateControllerMulticastListNtf (reads_sessionUpdateControllerMulticastListNtf h) rfl
  | sessionQueryMaxDataSizeInRangingRsp => exact chosen_sessionQueryMaxDataSizeInRangingRsp (reads_sessionQueryMaxDataSizeInRangingRsp h) rfl
  | sessionDataCreditNtf => exact chosen_sessionDataCreditNtf (reads_sessionDataCreditNtf h) rfl
  | sessionDataTransferStatusNtf => exact chosen_sessionDataTransferStatusNtf (reads_sessionDataTransferStatusNtf h) rfl
  | sessionStartRsp => exact chosen_sessionStartRsp (reads_sessionStartRsp h) rfl
  | sessionStopRsp => exact chosen_sessionStopRsp (reads_sessionStopRsp h) rfl
  | sessionGetRangingCountRsp => exact chosen_sessionGetRangingCountRsp (reads_sessionGetRangingCountRsp h) rfl
  | androidGetPowerStatsRsp => exact chosen_androidGetPowerStatsRsp (reads_androidGetPowerStatsRsp h) rfl
  | androidSetCountryCodeRsp => exact chosen_androidSetCountryCodeRsp (reads_androidSetCountryCodeRsp h) rfl
  | androidRangeDiagnosticsNtf => exact chosen_androidRangeDiagnosticsNtf (reads_androidRangeDiagnosticsNtf h) rfl

/-! ### Groups -/

/-- What the classes of a group read. -/
theorem back_group {g mt oid : Nat} {p : Bytes} {o : Obj} (l : List (Nat → Nat → Bytes → Option (Obj × Bytes)))
    (hl : ∀ c ∈ l, Back g c) (h : firstChild (l.map fun c => c mt oid p) = some o) :
    o.code = (g, mt, oid) ∧ ObjFits o ∧ ∃ b, o.body = some b ∧ b.length = p.length := by
  have h1 := mem_of_firstChild h
  rw [List.mem_map] at h1
  obtain ⟨c, hc, h2⟩ := h1
  obtain ⟨k1, k2, b, k3, k4⟩ := hl c hc _ _ _ _ _ h2
  exact ⟨k1, k2, b, k3, by simpa using k4⟩

theorem back_coreChild {mt oid : Nat} {p : Bytes} {o : Obj} (h : coreChild mt oid p = some o) :
    o.code = (0, mt, oid) ∧ ObjFits o ∧ ∃ b, o.body = some b ∧ b.length = p.length := by
  refine back_group [coreDeviceResetCmd, coreDeviceResetRsp, coreDeviceStatusNtf, coreGetDeviceInfoCmd, coreGetDeviceInfoRsp, coreGetCapsInfoCmd, coreGetCapsInfoRsp, coreSetConfigCmd, coreSetConfigRsp, coreGetConfigCmd, coreGetConfigRsp, coreGenericErrorNtf, coreQueryTimeStampCmd, coreQueryTimeStampRsp] ?_ h
  simp only [List.forall_mem_cons, List.not_mem_nil]
  exact ⟨back_coreDeviceResetCmd, back_coreDeviceResetRsp, back_coreDeviceStatusNtf, back_coreGetDeviceInfoCmd, back_coreGetDeviceInfoRsp, back_coreGetCapsInfoCmd, back_coreGetCapsInfoRsp, back_coreSetConfigCmd, back_coreSetConfigRsp, back_coreGetConfigCmd, back_coreGetConfigRsp, back_coreGenericErrorNtf, back_coreQueryTimeStampCmd, back_coreQueryTimeStampRsp, fun _ h => h.elim⟩

theorem back_sessionConfigChild {mt oid : Nat} {p : Bytes} {o : Obj} (h : sessionConfigChild mt oid p = some o) :
    o.code = (1, mt, oid) ∧ ObjFits o ∧ ∃ b, o.body = some b ∧ b.length = p.length := by
  refine back_group [sessionInitCmd, sessionInitRspV2, sessionInitRsp, sessionDeinitCmd, sessionDeinitRsp, sessionStatusNtf, sessionSetAppConfigCmd, sessionSetAppConfigRsp, sessionGetAppConfigCmd, sessionGetAppConfigRsp, sessionGetCountCmd, sessionGetCountRsp, sessionGetStateCmd, sessionGetStateRsp, sessionUpdateDtAnchorRangingRoundsCmd, sessionUpdateDtAnchorRangingRoundsRsp, sessionUpdateDtTagRangingRoundsCmd, sessionUpdateDtTagRangingRoundsRsp, sessionUpdateControllerMulticastListCmd, sessionUpdateControllerMulticastListRsp, sessionUpdateControllerMulticastListNtf, sessionQueryMaxDataSizeInRangingCmd, sessionQueryMaxDataSizeInRangingRsp] ?_ h
  simp only [List.forall_mem_cons, List.not_mem_nil]
  exact ⟨back_sessionInitCmd, back_sessionInitRspV2, back_sessionInitRsp, back_sessionDeinitCmd, back_sessionDeinitRsp, back_sessionStatusNtf, back_sessionSetAppConfigCmd, back_sessionSetAppConfigRsp, back_sessionGetAppConfigCmd, back_sessionGetAppConfigRsp, back_sessionGetCountCmd, back_sessionGetCountRsp, back_sessionGetStateCmd, back_sessionGetStateRsp, back_sessionUpdateDtAnchorRangingRoundsCmd, back_sessionUpdateDtAnchorRangingRoundsRsp, back_sessionUpdateDtTagRangingRoundsCmd, back_sessionUpdateDtTagRangingRoundsRsp, back_sessionUpdateControllerMulticastListCmd, back_sessionUpdateControllerMulticastListRsp, back_sessionUpdateControllerMulticastListNtf, back_sessionQueryMaxDataSizeInRangingCmd, back_sessionQueryMaxDataSizeInRangingRsp, fun _ h => h.elim⟩

theorem back_androidChild {mt oid : Nat} {p : Bytes} {o : Obj} (h : androidChild mt oid p = some o) :
    o.code = (12, mt, oid) ∧ ObjFits o ∧ ∃ b, o.body = some b ∧ b.length = p.length := by
  refine back_group [androidGetPowerStatsCmd, androidGetPowerStatsRsp, androidSetCountryCodeCmd, androidSetCountryCodeRsp, androidRangeDiagnosticsNtf] ?_ h
  simp only [List.forall_mem_cons, List.not_mem_nil]
  exact ⟨back_androidGetPowerStatsCmd, back_androidGetPowerStatsRsp, back_androidSetCountryCodeCmd, back_androidSetCountryCodeRsp, back_androidRangeDiagnosticsNtf, fun _ h => h.elim⟩

theorem back_sessionControlChild {mt oid : Nat} {p : Bytes} {o : Obj} (h : sessionControlChild mt oid p = some o) :
    o.code = (2, mt, oid) ∧ (ObjFits o ∨ Chosen o ∧ ∃ n t r i y d p, o = .sessionInfoNtf n t r i y d p) ∧ ∃ b, o.body = some b ∧ b.length = p.length := by
  have h1 := mem_of_firstChild h
  simp only [List.mem_cons, List.not_mem_nil, or_false] at h1
  have key : ∀ {c}, Back 2 c → some (o, []) = c mt oid p →
      o.code = (2, mt, oid) ∧ (ObjFits o ∨ Chosen o ∧ ∃ n t r i y d p, o = .sessionInfoNtf n t r i y d p) ∧ ∃ b, o.body = some b ∧ b.length = p.length := by
    intro c hc h2
    obtain ⟨k1, k2, b, k3, k4⟩ := hc _ _ _ _ _ h2.symm
    exact ⟨k1, Or.inl k2, b, k3, by simpa using k4⟩
  rcases h1 with h1 | h1 | h1 | h1 | h1 | h1 | h1 | h1 | h1
  · exact key back_sessionDataCreditNtf h1
  · exact key back_sessionDataTransferStatusNtf h1
  · exact key back_sessionStartCmd h1
  · exact key back_sessionStartRsp h1
  · obtain ⟨k1, k2, b, k3, k4⟩ := back_sessionInfoNtf h1.symm
    refine ⟨k1, ?_, b, k3, by simpa using k4⟩
    rcases k2 with k2 | ⟨k2, k5, n, t, r, i, y, d, q, rfl⟩
    · exact Or.inl k2
    · exact Or.inr ⟨chosen_sessionInfoNtf k5 rfl, _, _, _, _, _, _, _, rfl⟩
  · exact key back_sessionStopCmd h1
  · exact key back_sessionStopRsp h1
  · exact key back_sessionGetRangingCountCmd h1
  · exact key back_sessionGetRangingCountRsp h1

/-! ### Whole packets -/

/-- The codes of the messages of the four groups. -/
def validCode (c : Nat × Nat × Nat) : Bool :=
  decide (c.2.1 ∈ messageTypes) &&
    ((decide (c.1 = 0) && decide (c.2.2 ∈ coreOpcodes)) || (decide (c.1 = 1) && decide (c.2.2 ∈ sessionConfigOpcodes)) ||
      (decide (c.1 = 2) && decide (c.2.2 ∈ sessionControlOpcodes)) || (decide (c.1 = 12) && decide (c.2.2 ∈ androidOpcodes)))

theorem validCode_of {o : Obj} (h : ObjFits o) (hd : ¬ IsData o) : validCode o.code = true := by
  cases o with
  | command c => cases c <;> rfl
  | controlPacket => exact h.elim
  | corePacket => exact h.elim
  | sessionConfigPacket => exact h.elim
  | sessionControlPacket => exact h.elim
  | androidPacket => exact h.elim
  | sessionInfoNtf => exact h.elim
  | dataPacket => exact h.elim
  | dataMessageSnd => exact (hd trivial).elim
  | dataMessageRcv => exact (hd trivial).elim
  | _ => rfl

/-- The packet with a code and a payload that no class takes. -/
def bare (g mt oid : Nat) (p : Bytes) : Obj :=
  if g = 0 then .corePacket mt oid p else if g = 1 then .sessionConfigPacket mt oid p
  else if g = 2 then .sessionControlPacket mt oid p else .androidPacket mt oid p

theorem head_bits : ∀ g ∈ groupIds, ∀ m ∈ messageTypes, g ||| (m <<< 5) < 2 ^ 8 ∧
    (UInt8.ofNat (g ||| (m <<< 5))).toNat % 16 = g ∧ (UInt8.ofNat (g ||| (m <<< 5))).toNat / 32 = m := by decide +kernel

theorem oid_bits : ∀ o < 64, (UInt8.ofNat o).toNat % 64 = o := by decide +kernel

theorem group_written {g mt oid : Nat} {p : Bytes} (h : validCode (g, mt, oid) = true) :
    ∃ b, groupHead g mt oid p = some b ∧ b.length = 4 + p.length ∧
      parseControl b = some ((groupChild g mt oid p).getD (bare g mt oid p)) := by
  simp only [validCode, Bool.and_eq_true, Bool.or_eq_true, decide_eq_true_eq] at h
  obtain ⟨hm, h⟩ := h
  have key : ∀ {l : List Nat}, g ∈ groupIds → oid ∈ l → (∀ o ∈ l, o < 64) →
      groupHead g mt oid p = some (UInt8.ofNat (g ||| (mt <<< 5)) :: UInt8.ofNat oid :: 0 :: 0 :: p) := by
    intro l hg ho hl
    have := hl _ ho
    rw [groupHead, byte_of (by omega)]
    simp only [Option.bind_eq_bind, Option.bind_some]
    rw [controlHead, byte_of (head_bits g hg mt hm).1]
    rfl
  rcases h with ((⟨rfl, ho⟩ | ⟨rfl, ho⟩) | ⟨rfl, ho⟩) | ⟨rfl, ho⟩
  · refine ⟨_, key (by decide) ho (by decide), by simp; omega, ?_⟩
    exact parse_core (head_bits 0 (by decide) mt hm).2.1 (head_bits 0 (by decide) mt hm).2.2
      (oid_bits oid (mem_lt ho (by decide))) hm ho
  · refine ⟨_, key (by decide) ho (by decide), by simp; omega, ?_⟩
    exact parse_sessionConfig (head_bits 1 (by decide) mt hm).2.1 (head_bits 1 (by decide) mt hm).2.2
      (oid_bits oid (mem_lt ho (by decide))) hm ho
  · refine ⟨_, key (by decide) ho (by decide), by simp; omega, ?_⟩
    exact parse_sessionControl (head_bits 2 (by decide) mt hm).2.1 (head_bits 2 (by decide) mt hm).2.2
      (oid_bits oid (mem_lt ho (by decide))) hm ho
  · refine ⟨_, key (by decide) ho (by decide), by simp; omega, ?_⟩
    exact parse_android (head_bits 12 (by decide) mt hm).2.1 (head_bits 12 (by decide) mt hm).2.2
      (oid_bits oid (mem_lt ho (by decide))) hm ho

/-- `serialize` of an object of a class below a group. -/
theorem serialize_group {o : Obj} (h : validCode o.code = true ∧ ObjFits o ∧ ¬ IsData o ∨ ∃ n t r i y d p, o = .sessionInfoNtf n t r i y d p)
    {b : Bytes} (hb : o.body = some b) : o.serialize = groupHead o.code.1 o.code.2.1 o.code.2.2 b := by
  rcases h with ⟨_, h, hd⟩ | ⟨n, t, r, i, y, d, p, rfl⟩
  · unfold Obj.serialize
    rw [hb]
    cases o with
    | controlPacket => exact h.elim
    | dataPacket => exact h.elim
    | dataMessageSnd => exact (hd trivial).elim
    | dataMessageRcv => exact (hd trivial).elim
    | _ => rfl
  · unfold Obj.serialize
    rw [hb]
    rfl

/-! ### Data -/

theorem data_bits : ∀ d ∈ dataPacketFormats, ∀ p ∈ pbfs, ∀ m ∈ messageTypes, d ||| (p <<< 4) ||| (m <<< 5) < 2 ^ 8 ∧
    (UInt8.ofNat (d ||| (p <<< 4) ||| (m <<< 5))).toNat &&& 0xf = d ∧
    ((UInt8.ofNat (d ||| (p <<< 4) ||| (m <<< 5))).toNat >>> 4) &&& 0x1 = p ∧
    ((UInt8.ofNat (d ||| (p <<< 4) ||| (m <<< 5))).toNat >>> 5) &&& 0x7 = m := by decide +kernel

/-- The classes tried for data. -/
def dataChild (d p m : Nat) (v : Bytes) : Option Obj := firstChild [dataMessageSnd d p m v, dataMessageRcv d p m v]

theorem data_written {d p m : Nat} {v : Bytes} (hd : d ∈ dataPacketFormats) (hp : p ∈ pbfs) (hm : m ∈ messageTypes) :
    ∃ b, dataHead d p m v = some b ∧ b.length = 4 + v.length ∧
      parseData b = some ((dataChild d p m v).getD (.dataPacket d p m v)) := by
  obtain ⟨h1, h2, h3, h4⟩ := data_bits d hd p hp m hm
  refine ⟨UInt8.ofNat (d ||| (p <<< 4) ||| (m <<< 5)) :: 0 :: 0 :: 0 :: v, by rw [dataHead, byte_of h1]; rfl,
    by simp; omega, ?_⟩
  unfold parseData
  rw [need_of_le (by simp)]
  simp only [idx, List.getD_cons_zero, h2, h3, h4, fromInt_of hd, fromInt_of hp, fromInt_of hm]
  rfl

theorem sizedBytes_of {v : Bytes} (h : v.length < 2 ^ 16) : sizedBytes v = some (leBytes 2 v.length ++ v) := by
  rw [sizedBytes, exactly_of (k := 2) h]; rfl

theorem reads_snd {p h d n : Nat} {v : Bytes} (hf : ObjFits (.dataMessageSnd p h d n v)) :
    ∃ b, (Obj.dataMessageSnd p h d n v).body = some b ∧
      dataMessageSnd 1 p 0 b = some (.dataMessageSnd p h d n v, []) := by
  obtain ⟨_, h1, h2, h3, h4⟩ := hf
  refine ⟨_, by rw [Obj.body, sizedBytes_of h4]; rfl, ?_⟩
  have e : leBytes 2 v.length = [UInt8.ofNat v.length, UInt8.ofNat (v.length / 256)] := rfl
  simp only [int4 h1, int8 h2, int2 h3, e, List.cons_append, List.nil_append]
  unfold dataMessageSnd
  rw [forbid_false (by decide), need_of_le (by simp)]
  simp only [le, slice, idx, List.take_succ_cons, List.take_zero, List.drop_succ_cons, List.drop_zero, nat4 h1, nat8 h2,
    nat2 h3, nat2 h4]
  rw [need_of_le (by simp)]
  simp

theorem reads_rcv {p h s a n : Nat} {v : Bytes} (hf : ObjFits (.dataMessageRcv p h s a n v)) :
    ∃ b, (Obj.dataMessageRcv p h s a n v).body = some b ∧
      dataMessageRcv 2 p 0 b = some (.dataMessageRcv p h s a n v, []) := by
  obtain ⟨_, h1, h2, h3, h4, h5⟩ := hf
  refine ⟨_, by rw [Obj.body, byte_of h2, sizedBytes_of h5]; rfl, ?_⟩
  have e : leBytes 2 v.length = [UInt8.ofNat v.length, UInt8.ofNat (v.length / 256)] := rfl
  simp only [int4 h1, int8 h3, int2 h4, e, List.cons_append, List.nil_append]
  unfold dataMessageRcv
  rw [forbid_false (by decide), need_of_le (by simp)]
  simp only [le, slice, idx, List.take_succ_cons, List.take_zero, List.drop_succ_cons, List.drop_zero,
    List.getD_cons_succ, List.getD_cons_zero, nat4 h1, nat1 h2, nat8 h3, nat2 h4, nat2 h5]
  rw [need_of_le (by simp)]
  simp

theorem pbf_iff {p : Nat} : p ∈ pbfs ↔ p ≤ 1 := by
  simp only [pbfs, List.mem_cons, List.not_mem_nil, or_false]; omega

theorem back_snd {d p m : Nat} {s : Bytes} {o : Obj} {r : Bytes} (hp : p ∈ pbfs) (h : dataMessageSnd d p m s = some (o, r)) :
    d = 1 ∧ m = 0 ∧ (∃ h e n v, o = .dataMessageSnd p h e n v) ∧ ObjFits o ∧ ∃ b, o.body = some b ∧ b.length + r.length = s.length := by
  simp only [dataMessageSnd, Option.bind_eq_bind, Option.bind_eq_some_iff, forbid_iff, need_iff, Option.pure_def,
    Option.some.injEq, Prod.mk.injEq] at h
  obtain ⟨_, hf, _, h1, _, h2, rfl, rfl⟩ := h
  rw [List.length_drop] at h2
  have h3 : ((s.drop 16).take (le s 14 16)).length = le s 14 16 := by rw [List.length_take, List.length_drop]; omega
  have h4 := le_lt s 14 16
  refine ⟨by omega, by omega, ⟨_, _, _, _, rfl⟩, ⟨pbf_iff.1 hp, le_lt s 0 4, le_lt s 4 12, le_lt s 12 14, by rw [h3]; exact h4⟩, _,
    by rw [Obj.body, sizedBytes_of (by rw [h3]; exact h4)]; rfl, ?_⟩
  simp only [List.length_append, int_length, length_leBytes, List.length_drop, h3]
  omega

theorem back_rcv {d p m : Nat} {s : Bytes} {o : Obj} {r : Bytes} (hp : p ∈ pbfs) (h : dataMessageRcv d p m s = some (o, r)) :
    d = 2 ∧ m = 0 ∧ (∃ h t a n v, o = .dataMessageRcv p h t a n v) ∧ ObjFits o ∧ ∃ b, o.body = some b ∧ b.length + r.length = s.length := by
  simp only [dataMessageRcv, Option.bind_eq_bind, Option.bind_eq_some_iff, forbid_iff, need_iff, Option.pure_def,
    Option.some.injEq, Prod.mk.injEq] at h
  obtain ⟨_, hf, _, h1, _, h2, rfl, rfl⟩ := h
  rw [List.length_drop] at h2
  have h3 : ((s.drop 17).take (le s 15 17)).length = le s 15 17 := by rw [List.length_take, List.length_drop]; omega
  have h4 := le_lt s 15 17
  refine ⟨by omega, by omega, ⟨_, _, _, _, _, rfl⟩, ⟨pbf_iff.1 hp, le_lt s 0 4, idx_lt s 4, le_lt s 5 13, le_lt s 13 15,
    by rw [h3]; exact h4⟩, _,
    by rw [Obj.body, byte_of (idx_lt s 4), sizedBytes_of (by rw [h3]; exact h4)]; rfl, ?_⟩
  simp only [List.length_append, List.length_cons, List.length_nil, int_length, length_leBytes, List.length_drop, h3]
  omega

/-! ### Everything -/

/-- What fits is written and read back. -/
theorem written_of {o : Obj} (h : ObjFits o) : ∃ b x, o.body = some x ∧ o.serialize = some b ∧ b.length = 4 + x.length ∧ ReadAs b o := by
  by_cases hd : IsData o
  · cases o with
    | dataMessageSnd p h' d n v =>
      obtain ⟨x, h1, h2⟩ := reads_snd h
      obtain ⟨b, h3, h4, h5⟩ := data_written (d := 1) (p := p) (m := 0) (v := x) (by decide) (pbf_iff.2 h.1) (by decide)
      refine ⟨b, x, h1, ?_, h4, Or.inl ⟨hd, ?_⟩⟩
      · unfold Obj.serialize
        rw [h1]
        exact h3
      · rw [h5]
        simp only [dataChild, h2]
        rfl
    | dataMessageRcv p h' d n v =>
      obtain ⟨x, h1, h2⟩ := reads_rcv h
      obtain ⟨b, h3, h4, h5⟩ := data_written (d := 2) (p := p) (m := 0) (v := x) (by decide) (pbf_iff.2 h.1) (by decide)
      refine ⟨b, x, h1, ?_, h4, Or.inl ⟨hd, ?_⟩⟩
      · unfold Obj.serialize
        rw [h1]
        exact h3
      · rw [h5]
        simp only [dataChild, h2]
        rfl
    | dataPacket => exact h.elim
    | _ => exact hd.elim
  · obtain ⟨x, h1, h2⟩ := chosen_of h hd
    have hv := validCode_of h hd
    obtain ⟨b, h3, h4, h5⟩ := group_written (g := o.code.1) (mt := o.code.2.1) (oid := o.code.2.2) (p := x) hv
    refine ⟨b, x, h1, ?_, h4, Or.inr ⟨hd, ?_⟩⟩
    · rw [serialize_group (Or.inl ⟨hv, h, hd⟩) h1, h3]
    · rw [h5, h2]
      rfl

/-- A class below a group read something: it is written with as many bytes and read back. -/
theorem back_written {g mt oid : Nat} {p : Bytes} {o : Obj} (hv : validCode (g, mt, oid) = true)
    (h : groupChild g mt oid p = some o) :
    (ObjFits o ∨ Bare o) ∧ ¬ IsData o ∧ ∃ b, o.serialize = some b ∧ b.length = 4 + p.length ∧ parseControl b = some o := by
  have key : o.code = (g, mt, oid) ∧ (ObjFits o ∨ Chosen o ∧ ∃ n t r i y d p, o = .sessionInfoNtf n t r i y d p) ∧ ∃ b, o.body = some b ∧ b.length = p.length := by
    simp only [validCode, Bool.and_eq_true, Bool.or_eq_true, decide_eq_true_eq] at hv
    unfold groupChild at h
    rcases hv with ⟨_, ((⟨rfl, ho⟩ | ⟨rfl, ho⟩) | ⟨rfl, ho⟩) | ⟨rfl, ho⟩⟩
    · obtain ⟨h1, h2, h3⟩ := back_coreChild h
      exact ⟨h1, Or.inl h2, h3⟩
    · obtain ⟨h1, h2, h3⟩ := back_sessionConfigChild h
      exact ⟨h1, Or.inl h2, h3⟩
    · exact back_sessionControlChild h
    · obtain ⟨h1, h2, h3⟩ := back_androidChild h
      exact ⟨h1, Or.inl h2, h3⟩
  obtain ⟨h1, h2, x, h3, h4⟩ := key
  rcases h2 with h2 | ⟨⟨x', h5, h6⟩, h7⟩
  · have hd : ¬ IsData o := by
      intro hd
      cases o with
      | dataPacket => exact h2.elim
      | dataMessageSnd => cases h1; revert hv; simp [validCode]
      | dataMessageRcv => cases h1; revert hv; simp [validCode]
      | _ => exact hd.elim
    obtain ⟨b, y, k1, k2, k3, k4⟩ := written_of h2
    rw [h3] at k1
    cases k1
    rcases k4 with k4 | k4
    · exact (hd k4.1).elim
    · exact ⟨Or.inl h2, hd, b, k2, by omega, k4.2⟩
  · rw [h3] at h5
    cases h5
    obtain ⟨b, k1, k2, k3⟩ := group_written (p := x) hv
    have hs := serialize_group (Or.inr h7) h3
    rw [h1] at hs h6
    refine ⟨?_, ?_, b, by rw [hs]; exact k1, by omega, by rw [k3]; simp only at h6; rw [h6]; rfl⟩
    · obtain ⟨n, t, r, i, y, d, q, rfl⟩ := h7
      exact Or.inr trivial
    · obtain ⟨n, t, r, i, y, d, q, rfl⟩ := h7
      exact fun h => h

/-- A packet no class takes is written and read back. -/
theorem bare_written {g mt oid : Nat} {p : Bytes} (hv : validCode (g, mt, oid) = true) (h : groupChild g mt oid p = none) :
    Bare (bare g mt oid p) ∧ ¬ IsData (bare g mt oid p) ∧
      ∃ b, (bare g mt oid p).serialize = some b ∧ b.length = 4 + p.length ∧ parseControl b = some (bare g mt oid p) := by
  obtain ⟨b, k1, k2, k3⟩ := group_written (p := p) hv
  rw [h] at k3
  have hg : g = 0 ∨ g = 1 ∨ g = 2 ∨ g = 12 := by
    simp only [validCode, Bool.and_eq_true, Bool.or_eq_true, decide_eq_true_eq] at hv
    rcases hv with ⟨_, ((⟨h, _⟩ | ⟨h, _⟩) | ⟨h, _⟩) | ⟨h, _⟩⟩ <;> simp [h]
  rcases hg with rfl | rfl | rfl | rfl <;> exact ⟨trivial, fun h => h, b, k1, k2, k3⟩

/-- The classes tried for a control packet. -/
def controlChild (g mt : Nat) (p : Bytes) : Option Obj :=
  firstChild [corePacket g mt p, sessionConfigPacket g mt p, sessionControlPacket g mt p, androidPacket g mt p]

theorem opcode_iff {l : List Nat} {s p : Bytes} {o : Nat} (h : opcode l s = some (o, p)) : o ∈ l ∧ s.length = 3 + p.length := by
  simp only [opcode, Option.bind_eq_bind, Option.bind_eq_some_iff, need_iff, fromInt_iff, Option.pure_def,
    Option.some.injEq, Prod.mk.injEq] at h
  obtain ⟨_, h1, _, ⟨h2, rfl⟩, rfl, rfl⟩ := h
  exact ⟨h2, by rw [List.length_drop]; omega⟩

theorem controlChild_back {g mt : Nat} {s : Bytes} {o : Obj} (hm : mt ∈ messageTypes) (h : controlChild g mt s = some o) :
    ∃ oid p, validCode (g, mt, oid) = true ∧ s.length = 3 + p.length ∧ o = (groupChild g mt oid p).getD (bare g mt oid p) := by
  have h := mem_of_firstChild h
  simp only [List.mem_cons, List.not_mem_nil, or_false] at h
  rcases h with h | h | h | h
  · have h := h.symm
    simp only [corePacket, Option.bind_eq_bind, Option.bind_eq_some_iff, forbid_iff, Option.pure_def, Option.some.injEq,
      Prod.mk.injEq] at h
    obtain ⟨_, h1, ⟨oid, p⟩, h2, rfl, _⟩ := h
    obtain ⟨h3, h4⟩ := opcode_iff h2
    obtain rfl : g = 0 := by omega
    exact ⟨oid, p, by simp [validCode, hm, h3], h4, rfl⟩
  · have h := h.symm
    simp only [sessionConfigPacket, Option.bind_eq_bind, Option.bind_eq_some_iff, forbid_iff, Option.pure_def,
      Option.some.injEq, Prod.mk.injEq] at h
    obtain ⟨_, h1, ⟨oid, p⟩, h2, rfl, _⟩ := h
    obtain ⟨h3, h4⟩ := opcode_iff h2
    obtain rfl : g = 1 := by omega
    exact ⟨oid, p, by simp [validCode, hm, h3], h4, rfl⟩
  · have h := h.symm
    simp only [sessionControlPacket, Option.bind_eq_bind, Option.bind_eq_some_iff, forbid_iff, Option.pure_def,
      Option.some.injEq, Prod.mk.injEq] at h
    obtain ⟨_, h1, ⟨oid, p⟩, h2, rfl, _⟩ := h
    obtain ⟨h3, h4⟩ := opcode_iff h2
    obtain rfl : g = 2 := by omega
    exact ⟨oid, p, by simp [validCode, hm, h3], h4, rfl⟩
  · have h := h.symm
    simp only [androidPacket, Option.bind_eq_bind, Option.bind_eq_some_iff, forbid_iff, Option.pure_def, Option.some.injEq,
      Prod.mk.injEq] at h
    obtain ⟨_, h1, ⟨oid, p⟩, h2, rfl, _⟩ := h
    obtain ⟨h3, h4⟩ := opcode_iff h2
    obtain rfl : g = 12 := by omega
    exact ⟨oid, p, by simp [validCode, hm, h3], h4, rfl⟩

/-- Whatever is read as a control packet is written with as many bytes and read back. -/
theorem control_back {s : Bytes} {o : Obj} (h : parseControl s = some o) :
    (ObjFits o ∨ Bare o) ∧ ¬ IsData o ∧ ∃ b, o.serialize = some b ∧ b.length = s.length ∧ parseControl b = some o := by
  simp only [parseControl, Option.bind_eq_bind, Option.bind_eq_some_iff, need_iff, fromInt_iff, Option.pure_def,
    Option.some.injEq] at h
  obtain ⟨_, h1, g, ⟨hg, rfl⟩, m, ⟨hm, rfl⟩, h⟩ := h
  generalize idx s 0 &&& 0xf = g at *
  generalize (idx s 0 >>> 5) &&& 0x7 = m at *
  have hl : s.length = 1 + (s.drop 1).length := by rw [List.length_drop]; omega
  have e : firstChild [corePacket g m (s.drop 1), sessionConfigPacket g m (s.drop 1), sessionControlPacket g m (s.drop 1),
    androidPacket g m (s.drop 1)] = controlChild g m (s.drop 1) := rfl
  rw [e] at h
  cases hc : controlChild g m (s.drop 1) with
  | some x =>
    rw [hc] at h
    cases h
    obtain ⟨oid, p, k1, k2, k3⟩ := controlChild_back hm hc
    have hl' : s.length = 4 + p.length := by omega
    cases hx : groupChild g m oid p with
    | some y =>
      rw [hx] at k3
      subst k3
      rw [hl']
      exact back_written k1 hx
    | none =>
      rw [hx] at k3
      subst k3
      rw [hl']
      obtain ⟨j1, j2, j3⟩ := bare_written k1 hx
      exact ⟨Or.inr j1, j2, j3⟩
  | none =>
    rw [hc] at h
    subst h
    obtain ⟨h2, h3, h4⟩ := head_bits g hg m hm
    refine ⟨Or.inr trivial, fun h => h, UInt8.ofNat (g ||| (m <<< 5)) :: s.drop 1, ?_, by rw [hl, List.length_cons]; omega, ?_⟩
    · show controlHead g m (s.drop 1) = _
      rw [controlHead, byte_of h2]
      rfl
    · unfold parseControl
      rw [need_of_le (by simp)]
      have e1 : idx (UInt8.ofNat (g ||| (m <<< 5)) :: s.drop 1) 0 = (UInt8.ofNat (g ||| (m <<< 5))).toNat := rfl
      have e2 : (UInt8.ofNat (g ||| (m <<< 5)) :: s.drop 1).drop 1 = s.drop 1 := rfl
      rw [e1, u8_and15, u8_type, h3, h4, fromInt_of hg, fromInt_of hm]
      simp only [Option.bind_eq_bind, Option.bind_some, e2, e, hc]
      rfl

/-- Whatever is read as data is written with as many bytes and read back. -/
theorem data_back {s : Bytes} {o : Obj} (h : parseData s = some o) :
    (ObjFits o ∨ Bare o) ∧ IsData o ∧ ∃ b, o.serialize = some b ∧ b.length = s.length ∧ parseData b = some o := by
  simp only [parseData, Option.bind_eq_bind, Option.bind_eq_some_iff, need_iff, fromInt_iff, Option.pure_def,
    Option.some.injEq] at h
  obtain ⟨_, h1, d, ⟨hd, rfl⟩, p, ⟨hp, rfl⟩, m, ⟨hm, rfl⟩, h⟩ := h
  generalize idx s 0 &&& 0xf = d at *
  generalize (idx s 0 >>> 4) &&& 0x1 = p at *
  generalize (idx s 0 >>> 5) &&& 0x7 = m at *
  have hl : s.length = 4 + (s.drop 4).length := by rw [List.length_drop]; omega
  have e : firstChild [dataMessageSnd d p m (s.drop 4), dataMessageRcv d p m (s.drop 4)] = dataChild d p m (s.drop 4) := rfl
  rw [e] at h
  cases hc : dataChild d p m (s.drop 4) with
  | some x =>
    rw [hc] at h
    replace h : x = o := h
    subst h
    have key : ObjFits x ∧ IsData x ∧ ∃ b, x.body = some b ∧ b.length = (s.drop 4).length := by
      have h := mem_of_firstChild hc
      simp only [List.mem_cons, List.not_mem_nil, or_false] at h
      rcases h with h | h
      · obtain ⟨_, _, ⟨_, _, _, _, rfl⟩, k1, b, k2, k3⟩ := back_snd hp h.symm
        exact ⟨k1, trivial, b, k2, by simpa using k3⟩
      · obtain ⟨_, _, ⟨_, _, _, _, _, rfl⟩, k1, b, k2, k3⟩ := back_rcv hp h.symm
        exact ⟨k1, trivial, b, k2, by simpa using k3⟩
    obtain ⟨k1, k2, z, k3, k4⟩ := key
    obtain ⟨b, y, j1, j2, j3, j4⟩ := written_of k1
    rw [k3] at j1
    cases j1
    rcases j4 with j4 | j4
    · exact ⟨Or.inl k1, k2, b, j2, by omega, j4.2⟩
    · exact (j4.1 k2).elim
  | none =>
    rw [hc] at h
    subst h
    obtain ⟨b, k1, k2, k3⟩ := data_written (v := s.drop 4) hd hp hm
    rw [hc] at k3
    exact ⟨Or.inr trivial, trivial, b, k1, by omega, k3⟩

end Pica.Py
