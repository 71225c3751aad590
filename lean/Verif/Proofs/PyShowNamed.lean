import Verif.Proofs.PyShowFull
/-!
An object that was read is printed to the end exactly if everything in it has a name.
-/

namespace Pica.PyShow
open Spec Py

theorem complete_enum (e : String) (v : Nat) : complete (.enum e) (.int v) = true ↔ v ∈ memberValues e := by
  rw [complete]; exact memberName_isSome e v
theorem complete_int (v : Nat) : complete .int (.int v) = true := rfl
theorem complete_custom (b : Bytes) : complete .custom (.bytes b) = true := rfl
theorem complete_other (t : String) (v : Val) : complete (.other t) v = true := by cases v <;> rfl
theorem complete_list (t : FieldType) (l : List Val) : complete (.list t) (.list l) = completeList t l := by rw [complete]
theorem complete_struct (c d : Class) (vs : List Val) : complete (.struct c) (.obj d vs) = completeFields d.fields vs := by
  rw [complete]
theorem completeFields_cons (f : Field) (fs : List Field) (v : Val) (vs : List Val) :
    completeFields (f :: fs) (v :: vs) = true ↔ (f.1 = "payload" ∨ complete f.2 v = true) ∧ completeFields fs vs = true := by
  rw [completeFields]; simp
theorem completeFields_nil : completeFields [] [] = true := rfl

theorem values_groupIds : memberValues "GroupId" = groupIds := by decide +kernel
theorem values_messageTypes : memberValues "MessageType" = messageTypes := by decide +kernel
theorem values_coreOpcodes : memberValues "CoreOpcodeId" = coreOpcodes := by decide +kernel
theorem values_sessionConfigOpcodes : memberValues "SessionConfigOpcodeId" = sessionConfigOpcodes := by decide +kernel
theorem values_sessionControlOpcodes : memberValues "SessionControlOpcodeId" = sessionControlOpcodes := by decide +kernel
theorem values_androidOpcodes : memberValues "AndroidOpcodeId" = androidOpcodes := by decide +kernel
theorem values_dataPacketFormats : memberValues "DataPacketFormat" = dataPacketFormats := by decide +kernel
theorem values_pbfs : memberValues "PacketBoundaryFlag" = pbfs := by decide +kernel
theorem values_creditAvailabilities : memberValues "CreditAvailability" = creditAvailabilities := by decide +kernel
theorem values_dataTransferStatuses : memberValues "DataTransferNtfStatusCode" = dataTransferStatuses := by decide +kernel
theorem values_deviceStates : memberValues "DeviceState" = deviceStates := by decide +kernel
theorem values_sessionStates : memberValues "SessionState" = sessionStates := by decide +kernel
theorem values_multicastStatuses : memberValues "MulticastUpdateStatus" = multicastStatuses := by decide +kernel
theorem values_macAddressIndicators : memberValues "MacAddressIndicator" = macAddressIndicators := by decide +kernel
theorem values_rangingMeasurementTypes : memberValues "RangingMeasurementType" = rangingMeasurementTypes := by decide +kernel
theorem values_resetConfigs : memberValues "ResetConfig" = resetConfigs := by decide +kernel
theorem values_sessionTypes : memberValues "SessionType" = sessionTypes := by decide +kernel
theorem values_multicastActions : memberValues "UpdateMulticastListAction" = multicastActions := by decide +kernel
theorem values_frameReportTlvTypes : memberValues "FrameReportTlvType" = frameReportTlvTypes := by decide +kernel

set_option maxHeartbeats 4000000 in
theorem named_obj (o : Obj) (h : ObjFits o ∨ BareNamed o) : complete (.struct (classOf o)) o.value = true ↔ AllNamed o := by
  cases o
  case command c =>
    cases c <;> simp only [ObjFits, CommandFits, BareNamed, Listed, or_false] at h <;>
    simp +decide only [classOf, Obj.value, Obj.code, Command.code, Command.own, Command.payload, grouped, complete_struct, Class.fields,
      corePacketFields, sessionConfigPacketFields, sessionControlPacketFields, androidPacketFields, controlPacketFields, packetFields,
      List.cons_append, List.nil_append, completeFields_cons, completeFields_nil, complete_enum, complete_int, complete_custom, complete_other, complete_list,
      completeList_map, List.all_eq_true, tlvValue, structure_, named_status, named_parameter, named_appConfig, named_cap, AllNamed,
      values_groupIds, values_messageTypes, values_coreOpcodes, values_sessionConfigOpcodes, values_sessionControlOpcodes, values_androidOpcodes, values_dataPacketFormats, values_pbfs, values_creditAvailabilities, values_dataTransferStatuses, values_deviceStates, values_sessionStates, values_multicastStatuses, values_macAddressIndicators, values_rangingMeasurementTypes, values_resetConfigs, values_sessionTypes, values_multicastActions, values_frameReportTlvTypes, h, or_true, true_or, or_false, false_or, true_and, and_true, implies_true, String.reduceEq]
  all_goals
    simp only [ObjFits, BareNamed, Listed, or_false, false_or] at h
    simp +decide only [classOf, Obj.value, Obj.code, grouped, infoFields, complete_struct, Class.fields,
      corePacketFields, sessionConfigPacketFields, sessionControlPacketFields, androidPacketFields, controlPacketFields, packetFields, dataPacketFields, sessionInfoNtfFields,
      List.cons_append, List.nil_append, completeFields_cons, completeFields_nil, complete_enum, complete_int, complete_custom, complete_other, complete_list,
      completeList_map, List.all_eq_true, tlvValue, pairValue, controleeStatusValue, Measurement.value, OwrAoa.value, addressedValue, DlTdoa.value, RelativeLocation.value, FrameReport.value, structure_, named_status, named_parameter, named_appConfig, named_cap, AllNamed,
      values_groupIds, values_messageTypes, values_coreOpcodes, values_sessionConfigOpcodes, values_sessionControlOpcodes, values_androidOpcodes, values_dataPacketFormats, values_pbfs, values_creditAvailabilities, values_dataTransferStatuses, values_deviceStates, values_sessionStates, values_multicastStatuses, values_macAddressIndicators, values_rangingMeasurementTypes, values_resetConfigs, values_sessionTypes, values_multicastActions, values_frameReportTlvTypes, h, or_true, true_or, or_false, false_or, true_and, and_true, implies_true, String.reduceEq]
  case sessionUpdateControllerMulticastListNtf => exact iff_true_intro fun x hx => (h.2.2 x hx).2
  case androidRangeDiagnosticsNtf => exact iff_true_intro fun x hx y hy => ((h.2.2.2 x hx).2.2.2.2 y hy).1
  all_goals
    have hp : ∀ v, v ≤ 1 → v ∈ pbfs := by intro v hv; simp [pbfs]; omega
    simp [hp _ h.1]

/-- What was read is printed to the end exactly if everything in it has a name. -/
theorem show_returned {s : Bytes} {o : Obj} (h : ReadAs s o) : o.show.returned = true ↔ AllNamed o := by
  rw [show_complete, named_obj o (read_named h)]

end Pica.PyShow
