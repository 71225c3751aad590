import Verif.Model.PySize
import Verif.Spec.PySize
import Verif.Proofs.PyRoundTrip
/-! The lengths of what the Python packets write. -/

namespace Pica.Py
open Spec

theorem byte_len {v : Nat} {b : Bytes} (h : byte v = some b) : b.length = 1 := by
  unfold byte at h
  split at h
  · cases h; rfl
  · cases h

theorem exactly_len {k v : Nat} {b : Bytes} (h : exactly k v = some b) : b.length = k := by
  unfold exactly at h
  split at h
  · cases h; exact length_leBytes _ _
  · cases h

theorem mapM_len {α : Type} {f : α → Option Bytes} {size : α → Nat} {l : List α} {xs : List Bytes}
    (hf : ∀ x ∈ l, ∀ b, f x = some b → b.length = size x) (h : l.mapM f = some xs) :
    xs.flatten.length = (l.map size).sum := by
  induction l generalizing xs with
  | nil => cases h; rfl
  | cons x l ih =>
    rw [List.mapM_cons] at h
    obtain ⟨b, h1, h⟩ := Option.bind_eq_some_iff.1 h
    obtain ⟨bs, h2, h⟩ := Option.bind_eq_some_iff.1 h
    cases h
    rw [List.flatten_cons, List.length_append, hf x List.mem_cons_self b h1,
      ih (fun y hy => hf y (List.mem_cons_of_mem _ hy)) h2]
    simp

theorem list_len {α : Type} {f : α → Option Bytes} {size : α → Nat} {F : α → Prop} {l : List α} {b : Bytes}
    (hf : ∀ x, F x → ∀ b, f x = some b → b.length = size x) (hl : Listed F l) (h : list f l = some b) :
    b.length = (l.map size).sum + 1 := by
  unfold list at h
  rw [List.take_of_length_le hl.1] at h
  obtain ⟨n, h1, h⟩ := Option.bind_eq_some_iff.1 h
  obtain ⟨xs, h2, h⟩ := Option.bind_eq_some_iff.1 h
  cases h
  rw [List.length_append, byte_len h1, mapM_len (fun x hx => hf x (hl.2 x hx)) h2]
  omega

theorem tlv_len (p : Nat × Bytes) (hp : TlvFits p) (b : Bytes) (h : appConfigTlv p = some b) : b.length = tlvSize p := by
  unfold appConfigTlv at h
  rw [List.take_of_length_le hp.2] at h
  obtain ⟨i, h1, h⟩ := Option.bind_eq_some_iff.1 h
  obtain ⟨n, h2, h⟩ := Option.bind_eq_some_iff.1 h
  cases h
  have := byte_len h1
  have := byte_len h2
  simp only [List.length_append, tlvSize]
  omega

theorem parameter_len (p : Nat × Bytes) (_ : TlvFits p) (b : Bytes) (h : configParameter p = some b) :
    b.length = tlvSize p := by
  unfold configParameter at h
  obtain ⟨i, h1, h⟩ := Option.bind_eq_some_iff.1 h
  obtain ⟨n, h2, h⟩ := Option.bind_eq_some_iff.1 h
  cases h
  have := byte_len h1
  have := byte_len h2
  simp only [List.length_append, tlvSize]
  omega

theorem idStatus_len (p : Nat × Nat) (_ : PairFits p) (b : Bytes) (h : idStatusBytes p = some b) :
    b.length = idStatusSize p := by
  unfold idStatusBytes at h
  obtain ⟨i, h1, h⟩ := Option.bind_eq_some_iff.1 h
  obtain ⟨n, h2, h⟩ := Option.bind_eq_some_iff.1 h
  cases h
  rw [List.length_append, byte_len h1, byte_len h2]
  rfl

theorem controleeStatus_len (p : Bytes × Nat) (hp : ControleeStatusFits p) (b : Bytes) (h : controleeStatusBytes p = some b) :
    b.length = controleeStatusSize p := by
  unfold controleeStatusBytes at h
  obtain ⟨i, h1, h⟩ := Option.bind_eq_some_iff.1 h
  cases h
  rw [List.length_append, byte_len h1, hp.1]
  rfl

theorem measurement_len {w r : Nat} (hw : w + r = 13) {F : Measurement → Prop} (m : Measurement) (_ : F m) (b : Bytes)
    (h : measurementBytes w r m = some b) : b.length = measurementSize m := by
  unfold measurementBytes at h
  obtain ⟨i, h1, h⟩ := Option.bind_eq_some_iff.1 h
  cases h
  have := byte_len h1
  simp only [List.length_append, int_length, List.length_replicate, measurementSize]
  omega

theorem owrAoa_len {F : OwrAoa → Prop} (m : OwrAoa) (_ : F m) (b : Bytes) (h : owrAoaBytes 2 m = some b) :
    b.length = owrAoaSize m := by
  unfold owrAoaBytes at h
  obtain ⟨i, h1, h⟩ := Option.bind_eq_some_iff.1 h
  cases h
  have := byte_len h1
  simp only [List.length_append, int_length, owrAoaSize]
  omega

theorem extOwrAoa_len {F : OwrAoa → Prop} (m : OwrAoa) (_ : F m) (b : Bytes) (h : owrAoaBytes 8 m = some b) :
    b.length = extOwrAoaSize m := by
  unfold owrAoaBytes at h
  obtain ⟨i, h1, h⟩ := Option.bind_eq_some_iff.1 h
  cases h
  have := byte_len h1
  simp only [List.length_append, int_length, extOwrAoaSize]
  omega

theorem sized_len {v b : Bytes} (h : sizedBytes v = some b) : b.length = v.length + 2 := by
  unfold sizedBytes at h
  obtain ⟨i, h1, h⟩ := Option.bind_eq_some_iff.1 h
  cases h
  rw [List.length_append, exactly_len h1]
  omega

theorem counted_len {v b : Bytes} (hv : v.length ≤ 255) (h : countedBytes v = some b) : b.length = v.length + 1 := by
  unfold countedBytes at h
  rw [List.take_of_length_le hv] at h
  obtain ⟨i, h1, h⟩ := Option.bind_eq_some_iff.1 h
  cases h
  rw [List.length_append, byte_len h1]
  omega

theorem frameReportTlv_len (p : Nat × Bytes) (_ : FrameReportTlvFits p) (b : Bytes) (h : frameReportTlvBytes p = some b) :
    b.length = frameReportTlvSize p := by
  unfold frameReportTlvBytes at h
  obtain ⟨i, h1, h⟩ := Option.bind_eq_some_iff.1 h
  obtain ⟨n, h2, h⟩ := Option.bind_eq_some_iff.1 h
  cases h
  have := byte_len h1
  have := sized_len h2
  simp only [List.length_append, frameReportTlvSize]
  omega

theorem frameReport_len (r : FrameReport) (hr : FrameReportFits r) (b : Bytes) (h : frameReportBytes r = some b) :
    b.length = frameReportSize r := by
  unfold frameReportBytes at h
  obtain ⟨i, h1, h⟩ := Option.bind_eq_some_iff.1 h
  cases h
  have := list_len frameReportTlv_len hr.2.2.2 h1
  simp only [List.length_append, int_length, frameReportSize]
  omega

theorem statusList_len {α : Type} {f : α → Option Bytes} {size : α → Nat} {F : α → Prop} {s : Nat} {l : List α} {b : Bytes}
    (hf : ∀ x, F x → ∀ b, f x = some b → b.length = size x) (hl : Listed F l) (h : statusList f s l = some b) :
    b.length = (l.map size).sum + 2 := by
  unfold statusList at h
  obtain ⟨i, h1, h⟩ := Option.bind_eq_some_iff.1 h
  obtain ⟨n, h2, h⟩ := Option.bind_eq_some_iff.1 h
  cases h
  rw [List.length_append, byte_len h1, list_len hf hl h2]
  omega

theorem infoBody_len {n t r i y m : Nat} {p b : Bytes} (h : infoBody n t r i y m p = some b) : b.length = p.length + 24 := by
  unfold infoBody at h
  obtain ⟨a, h1, h⟩ := Option.bind_eq_some_iff.1 h
  obtain ⟨c, h2, h⟩ := Option.bind_eq_some_iff.1 h
  cases h
  have := byte_len h1
  have := byte_len h2
  simp only [List.length_append, int_length, List.length_replicate, List.length_cons, List.length_nil]
  omega

theorem group_len {g m o : Nat} {p b : Bytes} (h : groupHead g m o p = some b) : b.length = p.length + 4 := by
  unfold groupHead controlHead at h
  obtain ⟨a, h1, h⟩ := Option.bind_eq_some_iff.1 h
  obtain ⟨c, h2, h⟩ := Option.bind_eq_some_iff.1 h
  cases h
  have := byte_len h1
  have := byte_len h2
  simp only [List.length_append, List.length_cons, List.length_nil]
  omega

theorem control_len {g m : Nat} {p b : Bytes} (h : controlHead g m p = some b) : b.length = p.length + 1 := by
  unfold controlHead at h
  obtain ⟨c, h2, h⟩ := Option.bind_eq_some_iff.1 h
  cases h
  have := byte_len h2
  simp only [List.length_append]
  omega

theorem data_len {d f m : Nat} {p b : Bytes} (h : dataHead d f m p = some b) : b.length = p.length + 4 := by
  unfold dataHead at h
  obtain ⟨c, h2, h⟩ := Option.bind_eq_some_iff.1 h
  cases h
  have := byte_len h2
  simp only [List.length_append, List.length_cons, List.length_nil]
  omega

theorem mapM_none (w : Nat) (l : List (Nat × DlTdoa)) :
    l.mapM (addressedDlTdoaSize w) = if l = [] then some [] else none := by
  cases l with
  | nil => rfl
  | cons x l => rw [List.mapM_cons]; rfl

theorem ids_len {F : Nat → Prop} {l : List Nat} {b : Bytes} (hl : Listed F l) (h : list byte l = some b) :
    b.length = l.length + 1 := by
  have := list_len (size := fun _ => 1) (fun _ _ _ h => byte_len h) hl h
  rwa [List.map_const', List.sum_replicate_nat, Nat.mul_one] at this

/-- What a command writes after the header. -/
theorem command_len (c : Command) (hc : CommandFits c) (p : Bytes) (h : c.body = some p) :
    c.size = p.length + 7 * asked (.command c) := by
  cases c
  case coreDeviceReset => exact (byte_len h).symm
  case coreGetDeviceInfo => cases h; rfl
  case coreGetCapsInfo => cases h; rfl
  case coreSetConfig l => exact (list_len parameter_len hc h).symm
  case coreGetConfig l =>
    have := ids_len hc h
    simp only [Command.size, asked]
    omega
  case coreQueryTimeStamp => cases h; rfl
  case sessionInit =>
    obtain ⟨a, h1, h⟩ := Option.bind_eq_some_iff.1 h
    cases h
    rw [List.length_append, byte_len h1, int_length]
    rfl
  case sessionDeinit => cases h; rw [int_length]; rfl
  case sessionSetAppConfig t l =>
    obtain ⟨a, h1, h⟩ := Option.bind_eq_some_iff.1 h
    cases h
    rw [List.length_append, list_len tlv_len hc.2 h1, int_length]
    simp only [Command.size, asked]
    omega
  case sessionGetAppConfig t l =>
    obtain ⟨a, h1, h⟩ := Option.bind_eq_some_iff.1 h
    cases h
    rw [List.length_append, ids_len hc.2 h1, int_length]
    simp only [Command.size, asked]
    omega
  case sessionGetCount => cases h; rfl
  case sessionGetState => cases h; rw [int_length]; rfl
  case sessionUpdateDtAnchorRangingRounds => cases h; rfl
  case sessionUpdateDtTagRangingRounds t v =>
    simp only [Command.body] at h
    rw [List.take_of_length_le hc.2] at h
    obtain ⟨a, h1, h⟩ := Option.bind_eq_some_iff.1 h
    cases h
    simp only [List.length_append, byte_len h1, int_length, Command.size, asked]
    omega
  case sessionUpdateControllerMulticastList t a v =>
    obtain ⟨a, h1, h⟩ := Option.bind_eq_some_iff.1 h
    cases h
    simp only [List.length_append, byte_len h1, int_length, Command.size, asked]
    omega
  case sessionQueryMaxDataSizeInRanging => cases h; rw [int_length]; rfl
  case sessionStart => cases h; rw [int_length]; rfl
  case sessionStop => cases h; rw [int_length]; rfl
  case sessionGetRangingCount => cases h; rw [int_length]; rfl
  case androidGetPowerStats => cases h; rfl
  case androidSetCountryCode v => cases h; exact hc.symm

/-- What an object writes, all classes together. -/
theorem object_len (o : Obj) (ho : ObjFits o ∨ Bare o) (b : Bytes) (h : o.serialize = some b) (hd : ¬ HasDlTdoa o) :
    ∃ n, o.size = some n ∧ n + inherited o = b.length + 7 * asked o := by
  obtain ⟨p, hp, hb⟩ := Option.bind_eq_some_iff.1 h
  clear h
  have h := hb
  clear hb
  cases o
  case controlPacket g m v =>
    cases hp
    exact ⟨_, rfl, by rw [control_len h]; rfl⟩
  case dataPacket g m f v =>
    cases hp
    exact ⟨_, rfl, by rw [data_len h]; rfl⟩
  case corePacket | sessionConfigPacket | sessionControlPacket | androidPacket =>
    all_goals
      cases hp
      exact ⟨_, rfl, by rw [group_len h]; rfl⟩
  case command c =>
    have := command_len c (ho.resolve_right id) p hp
    refine ⟨_, rfl, ?_⟩
    rw [group_len h, this]
    simp only [inherited]
    omega
  case coreDeviceResetRsp | coreDeviceStatusNtf | coreGenericErrorNtf | sessionInitRsp | sessionDeinitRsp
      | sessionUpdateControllerMulticastListRsp | sessionStartRsp | sessionStopRsp | androidSetCountryCodeRsp =>
    all_goals exact ⟨_, rfl, by rw [group_len h, byte_len hp]; rfl⟩
  case coreGetDeviceInfoRsp s x y z w v =>
    obtain ⟨a, h1, hp⟩ := Option.bind_eq_some_iff.1 hp
    obtain ⟨c, h2, hp⟩ := Option.bind_eq_some_iff.1 hp
    cases hp
    have hv := (ho.resolve_right id).2.2.2.2.2
    refine ⟨_, rfl, ?_⟩
    rw [group_len h]
    simp only [List.length_append, byte_len h1, counted_len hv h2, int_length, inherited, asked]
    omega
  case coreGetCapsInfoRsp | sessionGetAppConfigRsp =>
    all_goals exact ⟨_, rfl, by rw [group_len h, statusList_len tlv_len (ho.resolve_right id).2 hp]; rfl⟩
  case coreGetConfigRsp => exact ⟨_, rfl, by rw [group_len h, statusList_len parameter_len (ho.resolve_right id).2 hp]; rfl⟩
  case coreSetConfigRsp | sessionSetAppConfigRsp =>
    all_goals exact ⟨_, rfl, by rw [group_len h, statusList_len idStatus_len (ho.resolve_right id).2 hp]; rfl⟩
  case coreQueryTimeStampRsp | sessionInitRspV2 | sessionStatusNtf | sessionGetCountRsp | sessionDataCreditNtf
      | sessionDataTransferStatusNtf | sessionGetRangingCountRsp | androidGetPowerStatsRsp =>
    all_goals
      obtain ⟨a, h1, hp⟩ := Option.bind_eq_some_iff.1 hp
      cases hp
      refine ⟨_, rfl, ?_⟩
      rw [group_len h]
      simp only [List.length_append, byte_len h1, int_length, inherited, asked]
  case sessionGetStateRsp =>
    obtain ⟨a, h1, hp⟩ := Option.bind_eq_some_iff.1 hp
    obtain ⟨c, h2, hp⟩ := Option.bind_eq_some_iff.1 hp
    cases hp
    refine ⟨_, rfl, ?_⟩
    rw [group_len h]
    simp only [List.length_append, byte_len h1, byte_len h2, inherited, asked]
  case sessionUpdateDtAnchorRangingRoundsRsp => cases hp; exact ⟨_, rfl, by rw [group_len h]; rfl⟩
  case sessionUpdateDtTagRangingRoundsRsp s v =>
    obtain ⟨a, h1, hp⟩ := Option.bind_eq_some_iff.1 hp
    obtain ⟨c, h2, hp⟩ := Option.bind_eq_some_iff.1 hp
    cases hp
    refine ⟨_, rfl, ?_⟩
    rw [group_len h]
    simp only [List.length_append, byte_len h1, counted_len (ho.resolve_right id).2 h2, inherited, asked]
    omega
  case sessionUpdateControllerMulticastListNtf t l =>
    obtain ⟨a, h1, hp⟩ := Option.bind_eq_some_iff.1 hp
    cases hp
    refine ⟨_, rfl, ?_⟩
    rw [group_len h]
    simp only [List.length_append, list_len controleeStatus_len (ho.resolve_right id).2 h1, int_length, inherited, asked]
    omega
  case sessionQueryMaxDataSizeInRangingRsp =>
    cases hp
    refine ⟨_, rfl, ?_⟩
    rw [group_len h]
    simp only [List.length_append, int_length, inherited, asked]
  case sessionInfoNtf =>
    exact ⟨_, rfl, by rw [group_len h, infoBody_len hp]; rfl⟩
  case shortMacTwoWaySessionInfoNtf n t r i l v =>
    obtain ⟨a, h1, hp⟩ := Option.bind_eq_some_iff.1 hp
    refine ⟨_, rfl, ?_⟩
    rw [group_len h, infoBody_len hp, List.length_append,
      list_len (measurement_len (by rfl)) (ho.resolve_right id).2 h1]
    simp only [inherited, asked]
    omega
  case extendedMacTwoWaySessionInfoNtf n t r i l v =>
    obtain ⟨a, h1, hp⟩ := Option.bind_eq_some_iff.1 hp
    refine ⟨_, rfl, ?_⟩
    rw [group_len h, infoBody_len hp, List.length_append,
      list_len (measurement_len (by rfl)) (ho.resolve_right id).2 h1]
    simp only [inherited, asked]
    omega
  case shortMacOwrAoaSessionInfoNtf n t r i l v =>
    obtain ⟨a, h1, hp⟩ := Option.bind_eq_some_iff.1 hp
    refine ⟨_, rfl, ?_⟩
    rw [group_len h, infoBody_len hp, List.length_append, list_len owrAoa_len (ho.resolve_right id).2 h1]
    simp only [inherited, asked]
    omega
  case extendedMacOwrAoaSessionInfoNtf n t r i l v =>
    obtain ⟨a, h1, hp⟩ := Option.bind_eq_some_iff.1 hp
    refine ⟨_, rfl, ?_⟩
    rw [group_len h, infoBody_len hp, List.length_append, list_len extOwrAoa_len (ho.resolve_right id).2 h1]
    simp only [inherited, asked]
    omega
  case shortMacDlTDoASessionInfoNtf n t r i l =>
    obtain rfl : l = [] := by simpa [HasDlTdoa] using hd
    refine ⟨1, rfl, ?_⟩
    rw [group_len h]
    have := infoBody_len (n := n) (t := t) (r := r) (i := i) (y := 2) (m := 0) (p := [0]) hp
    simp only [inherited, asked, this, List.length_cons, List.length_nil]
  case extendedMacDlTDoASessionInfoNtf n t r i l =>
    obtain rfl : l = [] := by simpa [HasDlTdoa] using hd
    refine ⟨1, rfl, ?_⟩
    rw [group_len h]
    have := infoBody_len (n := n) (t := t) (r := r) (i := i) (y := 2) (m := 1) (p := [0]) hp
    simp only [inherited, asked, this, List.length_cons, List.length_nil]
  case androidRangeDiagnosticsNtf t n l =>
    obtain ⟨a, h1, hp⟩ := Option.bind_eq_some_iff.1 hp
    cases hp
    refine ⟨_, rfl, ?_⟩
    rw [group_len h]
    simp only [List.length_append, list_len frameReport_len (ho.resolve_right id).2.2 h1, int_length, inherited, asked]
    omega
  case dataMessageSnd =>
    obtain ⟨a, h1, hp⟩ := Option.bind_eq_some_iff.1 hp
    cases hp
    refine ⟨_, rfl, ?_⟩
    rw [data_len h]
    simp only [List.length_append, sized_len h1, int_length, inherited, asked]
    omega
  case dataMessageRcv =>
    obtain ⟨c, h2, hp⟩ := Option.bind_eq_some_iff.1 hp
    obtain ⟨a, h1, hp⟩ := Option.bind_eq_some_iff.1 hp
    cases hp
    refine ⟨_, rfl, ?_⟩
    rw [data_len h]
    simp only [List.length_append, byte_len h2, sized_len h1, int_length, inherited, asked]
    omega

/-- The exception. -/
theorem size_none (o : Obj) : o.size = none ↔ HasDlTdoa o := by
  cases o
  case shortMacDlTDoASessionInfoNtf n t r i l | extendedMacDlTDoASessionInfoNtf n t r i l =>
    all_goals
      simp only [Obj.size, HasDlTdoa, mapM_none]
      split <;> simp_all
  all_goals simp only [Obj.size, HasDlTdoa, reduceCtorEq]

end Pica.Py
