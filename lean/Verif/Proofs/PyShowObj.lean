import Verif.Proofs.PyShowTold
/-! The objects and what is printed of them. -/

namespace Pica.PyShow
open Py Spec

theorem typedList_map {α : Type} {t : FieldType} {f : α → Val} (h : ∀ x, Typed t (f x)) (l : List α) :
    TypedList t (l.map f) := by
  induction l with
  | nil => trivial
  | cons x l ih => exact ⟨h x, ih⟩

theorem hideList_map {α : Type} (t : FieldType) (f : α → Val) (l : List α) :
    hideList t (l.map f) = l.map fun x => hide t (f x) := by
  induction l with
  | nil => rfl
  | cons x l ih => simp only [List.map_cons, hideList, ih]

theorem map_told {α β γ : Type} {f : α → β} {g : α → γ} (h : ∀ x y, f x = f y → g x = g y) {l l' : List α}
    (hl : l.map f = l'.map f) : l.map g = l'.map g := by
  induction l generalizing l' with
  | nil => cases l' with
    | nil => rfl
    | cons => simp at hl
  | cons x l ih =>
    cases l' with
    | nil => simp at hl
    | cons y l' =>
      simp only [List.map_cons, List.cons.injEq] at hl ⊢
      exact ⟨h x y hl.1, ih hl.2⟩

theorem map_inj_told {α β : Type} {f : α → β} (h : ∀ x y, f x = f y → x = y) {l l' : List α}
    (hl : l.map f = l'.map f) : l = l' := by
  simpa using map_told (g := id) h hl

/-! ### Structures -/

theorem typed_capTlv (x : Nat × Bytes) : Typed (.struct .capTlv) (tlvValue .capTlv x) := ⟨rfl, trivial, trivial, trivial, trivial⟩
theorem typed_configParameter (x : Nat × Bytes) : Typed (.struct .configParameter) (tlvValue .configParameter x) :=
  ⟨rfl, trivial, trivial, trivial, trivial⟩
theorem typed_appConfigTlv (x : Nat × Bytes) : Typed (.struct .appConfigTlv) (tlvValue .appConfigTlv x) :=
  ⟨rfl, trivial, trivial, trivial, trivial⟩
theorem typed_frameReportTlv (x : Nat × Bytes) : Typed (.struct .frameReportTlv) (tlvValue .frameReportTlv x) :=
  ⟨rfl, trivial, trivial, trivial, trivial⟩
theorem typed_configParameterStatus (x : Nat × Nat) :
    Typed (.struct .configParameterStatus) (pairValue .configParameterStatus x) := ⟨rfl, trivial, trivial, trivial, trivial⟩
theorem typed_appConfigStatus (x : Nat × Nat) : Typed (.struct .appConfigStatus) (pairValue .appConfigStatus x) :=
  ⟨rfl, trivial, trivial, trivial, trivial⟩
theorem typed_controleeStatus (x : Bytes × Nat) : Typed (.struct .controleeStatus) (controleeStatusValue x) :=
  ⟨rfl, trivial, trivial, trivial, trivial⟩
theorem typed_short (m : Py.Measurement) :
    Typed (.struct .shortAddressTwoWayRangingMeasurement) (m.value .shortAddressTwoWayRangingMeasurement) := by
  refine ⟨rfl, trivial, ?_⟩; repeat' constructor
theorem typed_extended (m : Py.Measurement) :
    Typed (.struct .extendedAddressTwoWayRangingMeasurement) (m.value .extendedAddressTwoWayRangingMeasurement) := by
  refine ⟨rfl, trivial, ?_⟩; repeat' constructor
theorem typed_shortOwr (m : OwrAoa) :
    Typed (.struct .shortAddressOwrAoaRangingMeasurement) (m.value .shortAddressOwrAoaRangingMeasurement) := by
  refine ⟨rfl, trivial, ?_⟩; repeat' constructor
theorem typed_extendedOwr (m : OwrAoa) :
    Typed (.struct .extendedAddressOwrAoaRangingMeasurement) (m.value .extendedAddressOwrAoaRangingMeasurement) := by
  refine ⟨rfl, trivial, ?_⟩; repeat' constructor
theorem typed_wgs84 (w : Bytes) : Typed (.struct .wgs84Location) (structure_ .wgs84Location [.bytes w]) :=
  ⟨rfl, trivial, trivial, trivial⟩
theorem typed_relative (l : RelativeLocation) : Typed (.struct .relativeLocation) l.value :=
  ⟨rfl, trivial, trivial, trivial, trivial, trivial⟩
theorem typed_dlTdoa (m : DlTdoa) : Typed (.struct .dlTdoaRangingMeasurement) m.value := by
  refine ⟨rfl, trivial, trivial, trivial, trivial, trivial, trivial, trivial, trivial, trivial, trivial, trivial, trivial,
    trivial, trivial, trivial, trivial, trivial, trivial, trivial, trivial, trivial, ?_, ?_, trivial, trivial⟩
  · exact typedList_map typed_wgs84 _
  · exact typedList_map typed_relative _
theorem typed_shortDl (m : Nat × DlTdoa) :
    Typed (.struct .shortAddressDlTdoaRangingMeasurement) (addressedValue .shortAddressDlTdoaRangingMeasurement m) :=
  ⟨rfl, trivial, trivial, typed_dlTdoa m.2, trivial⟩
theorem typed_extendedDl (m : Nat × DlTdoa) :
    Typed (.struct .extendedAddressDlTdoaRangingMeasurement) (addressedValue .extendedAddressDlTdoaRangingMeasurement m) :=
  ⟨rfl, trivial, trivial, typed_dlTdoa m.2, trivial⟩
theorem typed_frameReport (r : FrameReport) : Typed (.struct .frameReport) r.value :=
  ⟨rfl, trivial, trivial, trivial, trivial, typedList_map typed_frameReportTlv _, trivial⟩

/-- Every object has the fields of its class. -/
theorem typed_command (c : Py.Command) : ∃ vs, (Obj.command c).value = .obj c.own.1 vs ∧ TypedFields c.own.1.fields vs := by
  cases c
  case coreSetConfig l =>
    exact ⟨_, rfl, trivial, trivial, trivial, trivial, typedList_map typed_configParameter _, trivial⟩
  case coreGetConfig l =>
    exact ⟨_, rfl, trivial, trivial, trivial, trivial, typedList_map (t := .enum _) (f := .int) (fun _ => trivial) _, trivial⟩
  case sessionSetAppConfig t l =>
    exact ⟨_, rfl, trivial, trivial, trivial, trivial, trivial, typedList_map typed_appConfigTlv _, trivial⟩
  case sessionGetAppConfig t l =>
    exact ⟨_, rfl, trivial, trivial, trivial, trivial, trivial, typedList_map (t := .enum _) (f := .int) (fun _ => trivial) _, trivial⟩
  all_goals first
    | exact ⟨_, rfl, trivial, trivial, trivial, trivial, trivial⟩
    | exact ⟨_, rfl, trivial, trivial, trivial, trivial, trivial, trivial⟩
    | exact ⟨_, rfl, trivial, trivial, trivial, trivial, trivial, trivial, trivial⟩

/-- The class of an object. -/
def classOf : Obj → Class
  | .controlPacket .. => .controlPacket
  | .corePacket .. => .corePacket
  | .sessionConfigPacket .. => .sessionConfigPacket
  | .sessionControlPacket .. => .sessionControlPacket
  | .androidPacket .. => .androidPacket
  | .command c => c.own.1
  | .coreDeviceResetRsp .. => .coreDeviceResetRsp
  | .coreDeviceStatusNtf .. => .coreDeviceStatusNtf
  | .coreGetDeviceInfoRsp .. => .coreGetDeviceInfoRsp
  | .coreGetCapsInfoRsp .. => .coreGetCapsInfoRsp
  | .coreSetConfigRsp .. => .coreSetConfigRsp
  | .coreGetConfigRsp .. => .coreGetConfigRsp
  | .coreGenericErrorNtf .. => .coreGenericErrorNtf
  | .coreQueryTimeStampRsp .. => .coreQueryTimeStampRsp
  | .sessionInitRspV2 .. => .sessionInitRsp_V2
  | .sessionInitRsp .. => .sessionInitRsp
  | .sessionDeinitRsp .. => .sessionDeinitRsp
  | .sessionStatusNtf .. => .sessionStatusNtf
  | .sessionSetAppConfigRsp .. => .sessionSetAppConfigRsp
  | .sessionGetAppConfigRsp .. => .sessionGetAppConfigRsp
  | .sessionGetCountRsp .. => .sessionGetCountRsp
  | .sessionGetStateRsp .. => .sessionGetStateRsp
  | .sessionUpdateDtAnchorRangingRoundsRsp => .sessionUpdateDtAnchorRangingRoundsRsp
  | .sessionUpdateDtTagRangingRoundsRsp .. => .sessionUpdateDtTagRangingRoundsRsp
  | .sessionUpdateControllerMulticastListRsp .. => .sessionUpdateControllerMulticastListRsp
  | .sessionUpdateControllerMulticastListNtf .. => .sessionUpdateControllerMulticastListNtf
  | .sessionQueryMaxDataSizeInRangingRsp .. => .sessionQueryMaxDataSizeInRangingRsp
  | .sessionDataCreditNtf .. => .sessionDataCreditNtf
  | .sessionDataTransferStatusNtf .. => .sessionDataTransferStatusNtf
  | .sessionStartRsp .. => .sessionStartRsp
  | .sessionInfoNtf .. => .sessionInfoNtf
  | .shortMacTwoWaySessionInfoNtf .. => .shortMacTwoWaySessionInfoNtf
  | .extendedMacTwoWaySessionInfoNtf .. => .extendedMacTwoWaySessionInfoNtf
  | .shortMacDlTDoASessionInfoNtf .. => .shortMacDlTDoASessionInfoNtf
  | .extendedMacDlTDoASessionInfoNtf .. => .extendedMacDlTDoASessionInfoNtf
  | .shortMacOwrAoaSessionInfoNtf .. => .shortMacOwrAoaSessionInfoNtf
  | .extendedMacOwrAoaSessionInfoNtf .. => .extendedMacOwrAoaSessionInfoNtf
  | .sessionStopRsp .. => .sessionStopRsp
  | .sessionGetRangingCountRsp .. => .sessionGetRangingCountRsp
  | .androidGetPowerStatsRsp .. => .androidGetPowerStatsRsp
  | .androidSetCountryCodeRsp .. => .androidSetCountryCodeRsp
  | .androidRangeDiagnosticsNtf .. => .androidRangeDiagnosticsNtf
  | .dataPacket .. => .dataPacket
  | .dataMessageSnd .. => .dataMessageSnd
  | .dataMessageRcv .. => .dataMessageRcv

theorem typed_obj (o : Obj) : ∃ vs, o.value = .obj (classOf o) vs ∧ TypedFields (classOf o).fields vs := by
  cases o
  case command c => exact typed_command c
  all_goals
    refine ⟨_, rfl, ?_⟩
    repeat' constructor
  all_goals first
    | exact typedList_map typed_capTlv _
    | exact typedList_map typed_configParameter _
    | exact typedList_map typed_appConfigTlv _
    | exact typedList_map typed_configParameterStatus _
    | exact typedList_map typed_appConfigStatus _
    | exact typedList_map typed_controleeStatus _
    | exact typedList_map typed_short _
    | exact typedList_map typed_extended _
    | exact typedList_map typed_shortOwr _
    | exact typedList_map typed_extendedOwr _
    | exact typedList_map typed_shortDl _
    | exact typedList_map typed_extendedDl _
    | exact typedList_map typed_frameReport _

/-! ### What is hidden -/

theorem told_tlv {c : Class} (hc : c.fields = packetFields ++ [("t", .enum "CapTlvType"), ("v", .custom)] ∨
      c.fields = packetFields ++ [("id", .enum "ConfigParameterId"), ("value", .custom)] ∨
      c.fields = packetFields ++ [("cfg_id", .enum "AppConfigTlvType"), ("v", .custom)] ∨
      c.fields = packetFields ++ [("t", .enum "FrameReportTlvType"), ("v", .custom)])
    (x y : Nat × Bytes) (h : hide (.struct c) (tlvValue c x) = hide (.struct c) (tlvValue c y)) : x = y := by
  obtain ⟨a, b⟩ := x
  obtain ⟨a', b'⟩ := y
  rcases hc with hc | hc | hc | hc <;>
    simpa [tlvValue, structure_, hide, hideFields, hc, packetFields] using h

theorem told_pair {c : Class} (hc : c.fields = packetFields ++ [("id", .enum "ConfigParameterId"), ("status", .enum "Status")] ∨
      c.fields = packetFields ++ [("cfg_id", .enum "AppConfigTlvType"), ("status", .enum "Status")])
    (x y : Nat × Nat) (h : hide (.struct c) (pairValue c x) = hide (.struct c) (pairValue c y)) : x = y := by
  obtain ⟨a, b⟩ := x
  obtain ⟨a', b'⟩ := y
  rcases hc with hc | hc <;> simpa [pairValue, structure_, hide, hideFields, hc, packetFields] using h

theorem told_controlee (x y : Bytes × Nat)
    (h : hide (.struct .controleeStatus) (controleeStatusValue x) = hide (.struct .controleeStatus) (controleeStatusValue y)) :
    x = y := by
  obtain ⟨a, b⟩ := x
  obtain ⟨a', b'⟩ := y
  simpa [controleeStatusValue, structure_, hide, hideFields, Class.fields, packetFields] using h

theorem told_measurement {c : Class} (hc : c = .shortAddressTwoWayRangingMeasurement ∨ c = .extendedAddressTwoWayRangingMeasurement)
    (x y : Py.Measurement) (h : hide (.struct c) (x.value c) = hide (.struct c) (y.value c)) : x = y := by
  cases x
  cases y
  rcases hc with rfl | rfl <;>
    simpa [Py.Measurement.value, structure_, hide, hideFields, Class.fields, packetFields] using h

theorem told_owr {c : Class} (hc : c = .shortAddressOwrAoaRangingMeasurement ∨ c = .extendedAddressOwrAoaRangingMeasurement)
    (x y : OwrAoa) (h : hide (.struct c) (x.value c) = hide (.struct c) (y.value c)) : x = y := by
  cases x
  cases y
  rcases hc with rfl | rfl <;>
    simpa [OwrAoa.value, structure_, hide, hideFields, Class.fields, packetFields] using h

theorem told_wgs84 (x y : Bytes) (h : hide (.struct .wgs84Location) (structure_ .wgs84Location [.bytes x]) =
    hide (.struct .wgs84Location) (structure_ .wgs84Location [.bytes y])) : x = y := by
  simpa [structure_, hide, hideFields, Class.fields, packetFields] using h

theorem told_relative (x y : RelativeLocation)
    (h : hide (.struct .relativeLocation) x.value = hide (.struct .relativeLocation) y.value) : x = y := by
  cases x
  cases y
  simpa [RelativeLocation.value, structure_, hide, hideFields, Class.fields, packetFields] using h

theorem told_dlTdoa (x y : DlTdoa)
    (h : hide (.struct .dlTdoaRangingMeasurement) x.value = hide (.struct .dlTdoaRangingMeasurement) y.value) :
    unstamped x = unstamped y := by
  cases x
  cases y
  simp only [DlTdoa.value, structure_, hide, hideFields, Class.fields, packetFields, List.cons_append, List.nil_append,
    Val.obj.injEq, List.cons.injEq, Val.int.injEq, Val.list.injEq, Val.bytes.injEq, hideList_map, true_and, and_true] at h
  obtain ⟨rfl, rfl, rfl, rfl, rfl, rfl, rfl, rfl, rfl, rfl, rfl, rfl, rfl, rfl, rfl, rfl, h1, h2, rfl⟩ := h
  have := map_inj_told told_wgs84 h1
  have := map_inj_told told_relative h2
  simp_all [unstamped]

theorem hide_int (n : Nat) : hide .int (.int n) = .int n := rfl

theorem told_addressed {c : Class} (hc : c = .shortAddressDlTdoaRangingMeasurement ∨ c = .extendedAddressDlTdoaRangingMeasurement)
    (x y : Nat × DlTdoa) (h : hide (.struct c) (addressedValue c x) = hide (.struct c) (addressedValue c y)) :
    (x.1, unstamped x.2) = (y.1, unstamped y.2) := by
  have : x.1 = y.1 ∧ hide (.struct .dlTdoaRangingMeasurement) x.2.value = hide (.struct .dlTdoaRangingMeasurement) y.2.value := by
    rcases hc with rfl | rfl <;>
    simpa only [addressedValue, structure_, hide.eq_2, hideFields, Class.fields, packetFields, List.cons_append, List.nil_append,
      hide_int, Val.obj.injEq, List.cons.injEq, Val.int.injEq, true_and, and_true] using h
  rw [this.1, told_dlTdoa _ _ this.2]

theorem told_frameReport (x y : FrameReport)
    (h : hide (.struct .frameReport) x.value = hide (.struct .frameReport) y.value) : x = y := by
  cases x
  cases y
  simp only [FrameReport.value, structure_, hide, hideFields, Class.fields, packetFields, List.cons_append, List.nil_append,
    Val.obj.injEq, List.cons.injEq, Val.int.injEq, Val.list.injEq, hideList_map, true_and, and_true] at h
  obtain ⟨rfl, rfl, rfl, h⟩ := h
  have := map_inj_told (told_tlv (c := .frameReportTlv) (by simp [Class.fields])) h
  simp_all

theorem told_int (x y : Nat) (h : Val.int x = Val.int y) : x = y := Val.int.inj h

theorem told_command (c c' : Py.Command) (hc : c.own.1 = c'.own.1)
    (h : hide (.struct c.own.1) (Obj.command c).value = hide (.struct c.own.1) (Obj.command c').value) :
    visible (.command c) = visible (.command c') := by
  cases c <;> cases c' <;> first
    | (simp only [Command.own, reduceCtorEq] at hc; done)
    | rfl
    | (simp only [Obj.value, Obj.code, Command.code, grouped, Command.own, Command.payload, hide, hideFields, Class.fields, corePacketFields,
        sessionConfigPacketFields, sessionControlPacketFields, androidPacketFields, controlPacketFields, packetFields,
        List.cons_append, List.nil_append, List.append_assoc, Val.obj.injEq, List.cons.injEq, Val.int.injEq, Val.bytes.injEq,
        Val.list.injEq, hideList_map, true_and, and_true] at h
       first
        | (simp only [visible, Obj.command.injEq]; simp_all; done)
        | (obtain rfl := map_inj_told (told_tlv (c := .configParameter) (by simp [Class.fields])) h; rfl)
        | (obtain rfl := map_inj_told told_int h; rfl)
        | (obtain ⟨rfl, h⟩ := h
           obtain rfl := map_inj_told (told_tlv (c := .appConfigTlv) (by simp [Class.fields])) h; rfl)
        | (obtain ⟨rfl, h⟩ := h; obtain rfl := map_inj_told told_int h; rfl))

/-- The classes of commands. -/
def isCommand : Class → Bool
  | .coreDeviceResetCmd | .coreGetDeviceInfoCmd | .coreGetCapsInfoCmd | .coreSetConfigCmd | .coreGetConfigCmd
  | .coreQueryTimeStampCmd | .sessionInitCmd | .sessionDeinitCmd | .sessionSetAppConfigCmd | .sessionGetAppConfigCmd
  | .sessionGetCountCmd | .sessionGetStateCmd | .sessionUpdateDtAnchorRangingRoundsCmd
  | .sessionUpdateDtTagRangingRoundsCmd | .sessionUpdateControllerMulticastListCmd | .sessionQueryMaxDataSizeInRangingCmd
  | .sessionStartCmd | .sessionStopCmd | .sessionGetRangingCountCmd | .androidGetPowerStatsCmd | .androidSetCountryCodeCmd => true
  | _ => false

theorem isCommand_own (c : Py.Command) : isCommand c.own.1 = true := by cases c <;> rfl

set_option maxHeartbeats 2000000 in
theorem told_obj (o o' : Obj) (hc : classOf o = classOf o')
    (h : hide (.struct (classOf o)) o.value = hide (.struct (classOf o)) o'.value) : visible o = visible o' := by
  by_cases hk : isCommand (classOf o) = true
  · have hk' := hk
    rw [hc] at hk'
    cases o
    case command c =>
      cases o'
      case command c' => exact told_command c c' hc h
      all_goals cases hk'
    all_goals cases hk
  · have hk' : ¬ isCommand (classOf o') = true := hc ▸ hk
    cases o
    case command c => exact absurd (isCommand_own c) hk
    all_goals cases o' <;> first
      | (simp only [classOf, reduceCtorEq] at hc; done)
      | exact absurd (isCommand_own _) hk'
      | rfl
      | (simp only [Obj.value, Obj.code, grouped, infoFields, structure_, hide, hideFields, Class.fields, corePacketFields,
          sessionConfigPacketFields, sessionControlPacketFields, androidPacketFields, controlPacketFields, packetFields,
          dataPacketFields, sessionInfoNtfFields,
          List.cons_append, List.nil_append, List.append_assoc, Val.obj.injEq, List.cons.injEq, Val.int.injEq, Val.bytes.injEq,
          Val.list.injEq, hideList_map, true_and, and_true] at h
         first
          | (simp only [visible]; simp_all; done)
          | (obtain ⟨rfl, h⟩ := h
             first
              | (obtain rfl := map_inj_told (told_tlv (c := .capTlv) (by simp [Class.fields])) h; rfl)
              | (obtain rfl := map_inj_told (told_tlv (c := .configParameter) (by simp [Class.fields])) h; rfl)
              | (obtain rfl := map_inj_told (told_tlv (c := .appConfigTlv) (by simp [Class.fields])) h; rfl)
              | (obtain rfl := map_inj_told (told_pair (c := .configParameterStatus) (by simp [Class.fields])) h; rfl)
              | (obtain rfl := map_inj_told (told_pair (c := .appConfigStatus) (by simp [Class.fields])) h; rfl)
              | (obtain rfl := map_inj_told told_controlee h; rfl))
          | (obtain ⟨rfl, rfl, h⟩ := h; obtain rfl := map_inj_told told_frameReport h; rfl)
          | (obtain ⟨rfl, rfl, rfl, rfl, h, rfl⟩ := h
             first
              | (obtain rfl := map_inj_told (told_measurement (.inl rfl)) h; rfl)
              | (obtain rfl := map_inj_told (told_measurement (.inr rfl)) h; rfl)
              | (obtain rfl := map_inj_told (told_owr (.inl rfl)) h; rfl)
              | (obtain rfl := map_inj_told (told_owr (.inr rfl)) h; rfl))
          | (obtain ⟨rfl, rfl, rfl, rfl, h⟩ := h
             simp only [visible]
             first
              | rw [map_told (told_addressed (.inl rfl)) h]
              | rw [map_told (told_addressed (.inr rfl)) h]))

end Pica.PyShow
