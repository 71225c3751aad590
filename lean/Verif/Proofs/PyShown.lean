import Verif.Spec.PyShown
import Verif.Proofs.PyShowAll
/-! The fields of an object are those of its packet. -/

namespace Pica.Py
open Spec

theorem same_int {k n : Nat} : Same k (.int n) (.int n) := by unfold Same; exact .inl rfl
theorem same_bytes {k : Nat} {b : Bytes} : Same k (.bytes b) (.bytes b) := by unfold Same; rfl
theorem same_ints {k : Nat} {l : List Nat} : Same k (.list (l.map .int)) (.ints l) := by unfold Same; rfl
theorem same_option {k : Nat} {n : Option Nat} : Same k (.optional n) (ofOption n) := by
  cases n with
  | none => unfold ofOption Same; rfl
  | some n => unfold ofOption Same; exact .inr rfl
theorem same_record {k : Nat} {w : Val} {r : Pdl.Values} (h : SameFields (Same k) w r) : Same (k + 1) w (.record r) := by
  unfold Same; exact h
theorem same_records {α : Type} {k : Nat} {f : α → Val} {g : α → Pdl.Values} {l : List α} (h : ∀ x, SameFields (Same k) (f x) (g x)) :
    Same (k + 1) (.list (l.map f)) (.records (l.map g)) := by
  unfold Same
  refine ⟨_, rfl, ?_⟩
  induction l with
  | nil => exact .nil
  | cons x l ih => exact .cons (h x) ih

/-- Find a field by its name. -/
syntax "find_field" : tactic
macro_rules | `(tactic| find_field) => `(tactic| first | exact List.Mem.head _ | (apply List.Mem.tail; find_field))

/-- Write out the attributes. -/
macro "attribute_names" : tactic => `(tactic|
    simp only [attributes, fixedOf, packetOf, commandPacket, infoValues, capTlvValues, configParameterValues, appConfigTlvValues,
      configParameterStatusValues, appConfigStatusValues, controleeStatusValues, frameReportTlvValues, frameReportValues,
      measurementValues, owrAoaValues, wgs84LocationValues, relativeLocationValues, dlTdoaValues, addressedDlTdoaValues,
      Spec.Pdl.controlPacket, Spec.Pdl.dataPacket, Spec.Pdl.dataMessageSnd, Spec.Pdl.dataMessageRcv, Spec.Pdl.corePacket, Spec.Pdl.sessionConfigPacket,
      Spec.Pdl.sessionControlPacket, Spec.Pdl.androidPacket, Spec.Pdl.coreDeviceResetCmd, Spec.Pdl.coreDeviceResetRsp,
      Spec.Pdl.coreDeviceStatusNtf, Spec.Pdl.coreGetDeviceInfoCmd, Spec.Pdl.coreGetDeviceInfoRsp, Spec.Pdl.coreGetCapsInfoCmd,
      Spec.Pdl.coreGetCapsInfoRsp, Spec.Pdl.coreSetConfigCmd, Spec.Pdl.coreSetConfigRsp, Spec.Pdl.coreGetConfigCmd, Spec.Pdl.coreGetConfigRsp,
      Spec.Pdl.coreGenericErrorNtf, Spec.Pdl.coreQueryTimeStampCmd, Spec.Pdl.coreQueryTimeStampRsp, Spec.Pdl.sessionInitCmd,
      Spec.Pdl.sessionInitRsp_V2, Spec.Pdl.sessionInitRsp, Spec.Pdl.sessionDeinitCmd, Spec.Pdl.sessionDeinitRsp, Spec.Pdl.sessionStatusNtf,
      Spec.Pdl.sessionSetAppConfigCmd, Spec.Pdl.sessionSetAppConfigRsp, Spec.Pdl.sessionGetAppConfigCmd, Spec.Pdl.sessionGetAppConfigRsp,
      Spec.Pdl.sessionGetCountCmd, Spec.Pdl.sessionGetCountRsp, Spec.Pdl.sessionGetStateCmd, Spec.Pdl.sessionGetStateRsp,
      Spec.Pdl.sessionUpdateDtAnchorRangingRoundsCmd, Spec.Pdl.sessionUpdateDtAnchorRangingRoundsRsp,
      Spec.Pdl.sessionUpdateDtTagRangingRoundsCmd, Spec.Pdl.sessionUpdateDtTagRangingRoundsRsp,
      Spec.Pdl.sessionUpdateControllerMulticastListCmd, Spec.Pdl.sessionUpdateControllerMulticastListRsp,
      Spec.Pdl.sessionUpdateControllerMulticastListNtf, Spec.Pdl.sessionDataCreditNtf, Spec.Pdl.sessionDataTransferStatusNtf,
      Spec.Pdl.sessionQueryMaxDataSizeInRangingCmd, Spec.Pdl.sessionQueryMaxDataSizeInRangingRsp, Spec.Pdl.sessionStartCmd,
      Spec.Pdl.sessionStartRsp, Spec.Pdl.sessionInfoNtf, Spec.Pdl.shortMacTwoWaySessionInfoNtf, Spec.Pdl.extendedMacTwoWaySessionInfoNtf,
      Spec.Pdl.shortMacDlTDoASessionInfoNtf, Spec.Pdl.extendedMacDlTDoASessionInfoNtf, Spec.Pdl.shortMacOwrAoaSessionInfoNtf,
      Spec.Pdl.extendedMacOwrAoaSessionInfoNtf, Spec.Pdl.sessionStopCmd, Spec.Pdl.sessionStopRsp, Spec.Pdl.sessionGetRangingCountCmd,
      Spec.Pdl.sessionGetRangingCountRsp, Spec.Pdl.androidGetPowerStatsCmd, Spec.Pdl.androidGetPowerStatsRsp,
      Spec.Pdl.androidSetCountryCodeCmd, Spec.Pdl.androidSetCountryCodeRsp, Spec.Pdl.frameReportTlvPacket, Spec.Pdl.rssi, Spec.Pdl.aoa, Spec.Pdl.cir,
      Spec.Pdl.androidRangeDiagnosticsNtf,
      List.cons_append, List.nil_append, List.map_cons, List.map_nil])

/-- Go through the fields of an object of a class; structures within it with one of the tactics given. -/
syntax "same_fields" term "using" tactic : tactic
macro_rules | `(tactic| same_fields $c using $t) => `(tactic| (
  refine ⟨$c, _, rfl, rfl, ?_, ?_⟩
  · try attribute_names
    simp only [List.forall_mem_cons]
    repeat' apply And.intro
    all_goals first
      | (intro x hx; exact absurd hx List.not_mem_nil)
      | (intro hx; exact absurd (by decide) hx)
      | (intro _; refine ⟨_, by find_field, ?_⟩
         first
           | exact same_int
           | exact same_bytes
           | exact same_ints
           | exact same_option
           | ($t:tactic))
  · (try attribute_names); decide))

theorem fields_capTlv {k : Nat} (x : Nat × Bytes) : SameFields (Same k) (tlvValue .capTlv x) (capTlvValues x) := by
  same_fields .capTlv using skip
theorem fields_configParameter {k : Nat} (x : Nat × Bytes) : SameFields (Same k) (tlvValue .configParameter x) (configParameterValues x) := by
  same_fields .configParameter using skip
theorem fields_appConfigTlv {k : Nat} (x : Nat × Bytes) : SameFields (Same k) (tlvValue .appConfigTlv x) (appConfigTlvValues x) := by
  same_fields .appConfigTlv using skip
theorem fields_frameReportTlv {k : Nat} (x : Nat × Bytes) : SameFields (Same k) (tlvValue .frameReportTlv x) (frameReportTlvValues x) := by
  same_fields .frameReportTlv using skip
theorem fields_configParameterStatus {k : Nat} (x : Nat × Nat) : SameFields (Same k) (pairValue .configParameterStatus x) (configParameterStatusValues x) := by
  same_fields .configParameterStatus using skip
theorem fields_appConfigStatus {k : Nat} (x : Nat × Nat) : SameFields (Same k) (pairValue .appConfigStatus x) (appConfigStatusValues x) := by
  same_fields .appConfigStatus using skip
theorem fields_controleeStatus {k : Nat} (x : Bytes × Nat) : SameFields (Same k) (controleeStatusValue x) (controleeStatusValues x) := by
  same_fields .controleeStatus using skip
theorem fields_shortTwoWay {k : Nat} (x : Py.Measurement) :
    SameFields (Same k) (Measurement.value .shortAddressTwoWayRangingMeasurement x) (measurementValues x) := by
  same_fields .shortAddressTwoWayRangingMeasurement using skip
theorem fields_shortOwrAoa {k : Nat} (x : OwrAoa) :
    SameFields (Same k) (OwrAoa.value .shortAddressOwrAoaRangingMeasurement x) (owrAoaValues x) := by
  same_fields .shortAddressOwrAoaRangingMeasurement using skip
theorem fields_extendedTwoWay {k : Nat} (x : Py.Measurement) :
    SameFields (Same k) (Measurement.value .extendedAddressTwoWayRangingMeasurement x) (measurementValues x) := by
  same_fields .extendedAddressTwoWayRangingMeasurement using skip
theorem fields_extendedOwrAoa {k : Nat} (x : OwrAoa) :
    SameFields (Same k) (OwrAoa.value .extendedAddressOwrAoaRangingMeasurement x) (owrAoaValues x) := by
  same_fields .extendedAddressOwrAoaRangingMeasurement using skip
theorem fields_wgs84Location {k : Nat} (x : Bytes) : SameFields (Same k) (structure_ .wgs84Location [.bytes x]) (wgs84LocationValues x) := by
  same_fields .wgs84Location using skip
theorem fields_relativeLocation {k : Nat} (x : RelativeLocation) : SameFields (Same k) x.value (relativeLocationValues x) := by
  same_fields .relativeLocation using skip
theorem fields_dlTdoa {k : Nat} (x : DlTdoa) : SameFields (Same (k + 1)) x.value (dlTdoaValues x) := by
  same_fields .dlTdoaRangingMeasurement using first | exact same_records fields_wgs84Location | exact same_records fields_relativeLocation
theorem fields_shortDlTdoa {k : Nat} (x : Nat × DlTdoa) :
    SameFields (Same (k + 2)) (addressedValue .shortAddressDlTdoaRangingMeasurement x) (addressedDlTdoaValues x) := by
  same_fields .shortAddressDlTdoaRangingMeasurement using exact same_record (fields_dlTdoa _)
theorem fields_extendedDlTdoa {k : Nat} (x : Nat × DlTdoa) :
    SameFields (Same (k + 2)) (addressedValue .extendedAddressDlTdoaRangingMeasurement x) (addressedDlTdoaValues x) := by
  same_fields .extendedAddressDlTdoaRangingMeasurement using exact same_record (fields_dlTdoa _)
theorem fields_frameReport {k : Nat} (x : FrameReport) : SameFields (Same (k + 1)) x.value (frameReportValues x) := by
  same_fields .frameReport using exact same_records fields_frameReportTlv

theorem fields_command (c : Py.Command) : SameFields (Same 3) (Obj.command c).value (attributes (.command c)) := by
  cases c
  case coreDeviceReset => same_fields .coreDeviceResetCmd using first | exact same_records fields_configParameter | exact same_records fields_appConfigTlv
  case coreGetDeviceInfo => same_fields .coreGetDeviceInfoCmd using first | exact same_records fields_configParameter | exact same_records fields_appConfigTlv
  case coreGetCapsInfo => same_fields .coreGetCapsInfoCmd using first | exact same_records fields_configParameter | exact same_records fields_appConfigTlv
  case coreSetConfig => same_fields .coreSetConfigCmd using first | exact same_records fields_configParameter | exact same_records fields_appConfigTlv
  case coreGetConfig => same_fields .coreGetConfigCmd using first | exact same_records fields_configParameter | exact same_records fields_appConfigTlv
  case coreQueryTimeStamp => same_fields .coreQueryTimeStampCmd using first | exact same_records fields_configParameter | exact same_records fields_appConfigTlv
  case sessionInit => same_fields .sessionInitCmd using first | exact same_records fields_configParameter | exact same_records fields_appConfigTlv
  case sessionDeinit => same_fields .sessionDeinitCmd using first | exact same_records fields_configParameter | exact same_records fields_appConfigTlv
  case sessionSetAppConfig => same_fields .sessionSetAppConfigCmd using first | exact same_records fields_configParameter | exact same_records fields_appConfigTlv
  case sessionGetAppConfig => same_fields .sessionGetAppConfigCmd using first | exact same_records fields_configParameter | exact same_records fields_appConfigTlv
  case sessionGetCount => same_fields .sessionGetCountCmd using first | exact same_records fields_configParameter | exact same_records fields_appConfigTlv
  case sessionGetState => same_fields .sessionGetStateCmd using first | exact same_records fields_configParameter | exact same_records fields_appConfigTlv
  case sessionUpdateDtAnchorRangingRounds => same_fields .sessionUpdateDtAnchorRangingRoundsCmd using first | exact same_records fields_configParameter | exact same_records fields_appConfigTlv
  case sessionUpdateDtTagRangingRounds => same_fields .sessionUpdateDtTagRangingRoundsCmd using first | exact same_records fields_configParameter | exact same_records fields_appConfigTlv
  case sessionUpdateControllerMulticastList => same_fields .sessionUpdateControllerMulticastListCmd using first | exact same_records fields_configParameter | exact same_records fields_appConfigTlv
  case sessionQueryMaxDataSizeInRanging => same_fields .sessionQueryMaxDataSizeInRangingCmd using first | exact same_records fields_configParameter | exact same_records fields_appConfigTlv
  case sessionStart => same_fields .sessionStartCmd using first | exact same_records fields_configParameter | exact same_records fields_appConfigTlv
  case sessionStop => same_fields .sessionStopCmd using first | exact same_records fields_configParameter | exact same_records fields_appConfigTlv
  case sessionGetRangingCount => same_fields .sessionGetRangingCountCmd using first | exact same_records fields_configParameter | exact same_records fields_appConfigTlv
  case androidGetPowerStats => same_fields .androidGetPowerStatsCmd using first | exact same_records fields_configParameter | exact same_records fields_appConfigTlv
  case androidSetCountryCode => same_fields .androidSetCountryCodeCmd using first | exact same_records fields_configParameter | exact same_records fields_appConfigTlv

/-- One of the lists of structures, or the one structure. -/
macro "inner" : tactic => `(tactic| first
  | exact same_record (by same_fields .powerStats using skip)
  | exact same_records fields_capTlv
  | exact same_records fields_configParameter
  | exact same_records fields_configParameterStatus
  | exact same_records fields_appConfigTlv
  | exact same_records fields_appConfigStatus
  | exact same_records fields_controleeStatus
  | exact same_records fields_shortTwoWay
  | exact same_records fields_extendedTwoWay
  | exact same_records fields_shortDlTdoa
  | exact same_records fields_extendedDlTdoa
  | exact same_records fields_shortOwrAoa
  | exact same_records fields_extendedOwrAoa
  | exact same_records fields_frameReport)

theorem fields_obj (o : Obj) : SameFields (Same 3) o.value (attributes o) := by
  cases o
  case command c => exact fields_command c
  case controlPacket => same_fields .controlPacket using inner
  case corePacket => same_fields .corePacket using inner
  case sessionConfigPacket => same_fields .sessionConfigPacket using inner
  case sessionControlPacket => same_fields .sessionControlPacket using inner
  case androidPacket => same_fields .androidPacket using inner
  case coreDeviceResetRsp => same_fields .coreDeviceResetRsp using inner
  case coreDeviceStatusNtf => same_fields .coreDeviceStatusNtf using inner
  case coreGetDeviceInfoRsp => same_fields .coreGetDeviceInfoRsp using inner
  case coreGetCapsInfoRsp => same_fields .coreGetCapsInfoRsp using inner
  case coreSetConfigRsp => same_fields .coreSetConfigRsp using inner
  case coreGetConfigRsp => same_fields .coreGetConfigRsp using inner
  case coreGenericErrorNtf => same_fields .coreGenericErrorNtf using inner
  case coreQueryTimeStampRsp => same_fields .coreQueryTimeStampRsp using inner
  case sessionInitRspV2 => same_fields .sessionInitRsp_V2 using inner
  case sessionInitRsp => same_fields .sessionInitRsp using inner
  case sessionDeinitRsp => same_fields .sessionDeinitRsp using inner
  case sessionStatusNtf => same_fields .sessionStatusNtf using inner
  case sessionSetAppConfigRsp => same_fields .sessionSetAppConfigRsp using inner
  case sessionGetAppConfigRsp => same_fields .sessionGetAppConfigRsp using inner
  case sessionGetCountRsp => same_fields .sessionGetCountRsp using inner
  case sessionGetStateRsp => same_fields .sessionGetStateRsp using inner
  case sessionUpdateDtAnchorRangingRoundsRsp => same_fields .sessionUpdateDtAnchorRangingRoundsRsp using inner
  case sessionUpdateDtTagRangingRoundsRsp => same_fields .sessionUpdateDtTagRangingRoundsRsp using inner
  case sessionUpdateControllerMulticastListRsp => same_fields .sessionUpdateControllerMulticastListRsp using inner
  case sessionUpdateControllerMulticastListNtf => same_fields .sessionUpdateControllerMulticastListNtf using inner
  case sessionQueryMaxDataSizeInRangingRsp => same_fields .sessionQueryMaxDataSizeInRangingRsp using inner
  case sessionDataCreditNtf => same_fields .sessionDataCreditNtf using inner
  case sessionDataTransferStatusNtf => same_fields .sessionDataTransferStatusNtf using inner
  case sessionStartRsp => same_fields .sessionStartRsp using inner
  case sessionInfoNtf => same_fields .sessionInfoNtf using inner
  case shortMacTwoWaySessionInfoNtf => same_fields .shortMacTwoWaySessionInfoNtf using inner
  case extendedMacTwoWaySessionInfoNtf => same_fields .extendedMacTwoWaySessionInfoNtf using inner
  case shortMacDlTDoASessionInfoNtf => same_fields .shortMacDlTDoASessionInfoNtf using inner
  case extendedMacDlTDoASessionInfoNtf => same_fields .extendedMacDlTDoASessionInfoNtf using inner
  case shortMacOwrAoaSessionInfoNtf => same_fields .shortMacOwrAoaSessionInfoNtf using inner
  case extendedMacOwrAoaSessionInfoNtf => same_fields .extendedMacOwrAoaSessionInfoNtf using inner
  case sessionStopRsp => same_fields .sessionStopRsp using inner
  case sessionGetRangingCountRsp => same_fields .sessionGetRangingCountRsp using inner
  case androidGetPowerStatsRsp => same_fields .androidGetPowerStatsRsp using inner
  case androidSetCountryCodeRsp => same_fields .androidSetCountryCodeRsp using inner
  case androidRangeDiagnosticsNtf => same_fields .androidRangeDiagnosticsNtf using inner
  case dataPacket => same_fields .dataPacket using inner
  case dataMessageSnd => same_fields .dataMessageSnd using inner
  case dataMessageRcv => same_fields .dataMessageRcv using inner

theorem no_lengths (o : Obj) : ∀ n ∈ (attributes o).map (·.1), n ∉ lengths := by
  cases o
  case command c => cases c <;> (attribute_names; decide)
  all_goals (attribute_names; decide)

end Pica.Py
