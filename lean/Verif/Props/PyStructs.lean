import Verif.Proofs.PyTlvPacket
import Verif.Props.Layout
/-! C113: the structures of the Python package outside the messages are those of the packet description. -/

namespace Pica.Props
open Spec Py
open Spec.Pdl (Matches IsWritten)

/-! ### Bits and heads -/

theorem C113_ranging_round_control : Follows Spec.Pdl.rangingRoundControl rangingRoundControlValues RangingRoundControlFits
    rangingRoundControl rangingRoundControlBytes := follows_roundControl

/-- The bit that is fixed must be set; the reserved ones may be. -/
example : rangingRoundControl [0xbf, 9] = some (⟨1, 1, 0, 1⟩, [9]) ∧ rangingRoundControl [0xbd] = none ∧
    RangingRoundControlFits ⟨1, 1, 0, 1⟩ ∧ rangingRoundControlBytes ⟨1, 1, 0, 1⟩ = some [0x87] := by
  unfold RangingRoundControlFits
  decide +kernel

theorem C113_result_report_config : Follows Spec.Pdl.resultReportConfig resultReportConfigValues ResultReportConfigFits
    resultReportConfig resultReportConfigBytes := follows_reportConfig

example : resultReportConfig [0xfd] = some (⟨1, 0, 1, 1⟩, []) ∧ ResultReportConfigFits ⟨1, 0, 1, 1⟩ ∧
    resultReportConfigBytes ⟨1, 0, 1, 1⟩ = some [0x0d] := by
  unfold ResultReportConfigFits
  decide +kernel

theorem C113_common_header : Follows Spec.Pdl.commonPacketHeader commonHeaderValues CommonHeaderFits commonHeader
    commonHeaderBytes := follows_commonHeader

example : commonHeader [0x5c, 1] = some (⟨1, 2⟩, [1]) ∧ commonHeader [0x80] = none ∧ CommonHeaderFits ⟨1, 2⟩ ∧
    commonHeaderBytes ⟨1, 2⟩ = some [0x50] := by
  unfold CommonHeaderFits
  decide +kernel

theorem C113_control_header : Follows Spec.Pdl.controlPacketHeader lengthHeaderValues (LengthHeaderFits 8) controlHeader
    controlHeaderBytes := follows_controlHeader

example : controlHeader [0x5c, 1, 2, 3, 4] = some (⟨1, 2, 3⟩, [4]) ∧ LengthHeaderFits 8 ⟨1, 2, 3⟩ ∧
    controlHeaderBytes ⟨1, 2, 3⟩ = some [0x50, 0, 0, 3] := by
  unfold LengthHeaderFits
  decide +kernel

theorem C113_data_header : Follows Spec.Pdl.dataPacketHeader lengthHeaderValues (LengthHeaderFits 16) dataHeader
    dataHeaderBytes := follows_dataHeader

example : dataHeader [0x5c, 1, 2, 3, 4] = some (⟨1, 2, 0x302⟩, [4]) ∧ LengthHeaderFits 16 ⟨1, 2, 0x302⟩ ∧
    dataHeaderBytes ⟨1, 2, 0x302⟩ = some [0x50, 0, 2, 3] := by
  unfold LengthHeaderFits
  decide +kernel

/-! ### Controlees -/

theorem C113_controlee (k : Nat) (hk : k = 0 ∨ k = 16 ∨ k = 32) :
    Follows (controleeFields k) controleeEntryValues (ControleeEntryFits k) (controleeEntry k) controleeEntryBytes :=
  follows_controleeEntry hk

theorem C113_controlees (k : Nat) (hk : k = 0 ∨ k = 16 ∨ k = 32) :
    Follows (controleesFields k) controleesValues (ControleesFit k) (controleeEntries k) controleeEntriesBytes :=
  follows_controleeEntries hk

example : controleeEntries 0 [2, 1, 2, 3, 4, 5, 6, 7, 8, 9, 0, 0, 0, 99] =
      some ([⟨[1, 2], 0x06050403, []⟩, ⟨[7, 8], 9, []⟩], [99]) ∧
    ControleesFit 0 [⟨[1, 2], 0x06050403, []⟩, ⟨[7, 8], 9, []⟩] ∧
    controleeEntriesBytes [⟨[1, 2], 0x06050403, []⟩, ⟨[7, 8], 9, []⟩] = some [2, 1, 2, 3, 4, 5, 6, 7, 8, 9, 0, 0, 0] ∧
    controleeEntries 16 ([1, 1, 2, 3, 0, 0, 0] ++ List.replicate 15 7) = none := by
  refine ⟨by decide +kernel, ⟨by decide, ?_⟩, by decide +kernel, by decide +kernel⟩
  unfold ControleeEntryFits
  decide

/-- Of more than 255 controlees the others are left out. -/
theorem C113_cut (l : List ControleeEntry) : controleeEntriesBytes l = controleeEntriesBytes (l.take 255) := by
  unfold controleeEntriesBytes list
  rw [List.take_take]
  rfl

example : (controleeEntriesBytes (List.replicate 300 ⟨[1, 2], 3, []⟩)).map List.length = some (1 + 255 * 6) := by decide +kernel

/-- The emulator reads the controlees that a Python host puts into a multicast update. -/
theorem C113_emulator (k : Nat) (hk : k = 0 ∨ k = 16 ∨ k = 32) (l : List ControleeEntry) (hl : ControleesFit k l) :
    ∃ b cs, controleeEntriesBytes l = some b ∧ (Pdl.controleeList k).decFull b = some cs ∧
      cs.map (fun c => (c.shortAddress.1, c.subsessionId.toNat, c.subsessionKey.1)) =
        l.map (fun x => (x.shortAddress, x.subsessionId, x.subsessionKey)) := by
  obtain ⟨b, h1, h2⟩ := (C113_controlees k hk).writes l hl
  have key : ∃ cs : List (WireControlee k), cs.map ofControlee = l.map controleeEntryValues ∧
      cs.map (fun c => (c.shortAddress.1, c.subsessionId.toNat, c.subsessionKey.1)) =
        l.map (fun x => (x.shortAddress, x.subsessionId, x.subsessionKey)) := by
    replace hl := hl.2
    clear h1 h2
    induction l with
    | nil => exact ⟨[], rfl, rfl⟩
    | cons x l ih =>
      obtain ⟨cs, e1, e2⟩ := ih fun y hy => hl y (List.mem_cons_of_mem _ hy)
      obtain ⟨f0, f1, f2⟩ := hl x List.mem_cons_self
      have e : (UInt32.ofNat x.subsessionId).toNat = x.subsessionId := UInt32.toNat_ofNat_of_lt' f1
      refine ⟨⟨⟨x.shortAddress, f0⟩, UInt32.ofNat x.subsessionId, ⟨x.subsessionKey, f2⟩⟩ :: cs, ?_, ?_⟩
      · rw [List.map_cons, List.map_cons, e1]
        simp only [ofControlee, controleeEntryValues, e]
      · rw [List.map_cons, List.map_cons, e2]
        simp only [e]
  obtain ⟨cs, e1, e2⟩ := key
  refine ⟨b, cs, h1, (C99_controlees_read k hk cs b).2 ⟨?_, ?_⟩, e2⟩
  · have := congrArg List.length e1
    rw [List.length_map, List.length_map] at this
    rw [this]
    exact hl.1
  · unfold controleeBits
    rw [e1]
    exact h2.matches

example : ControleesFit 16 [⟨[1, 2], 7, List.replicate 16 5⟩, ⟨[3, 4], 8, List.replicate 16 6⟩] := by
  refine ⟨by decide, ?_⟩
  unfold ControleeEntryFits
  decide

/-! ### The values in a report of a frame -/

theorem C113_aoa_measurement : Follows Spec.Pdl.aoaMeasurement aoaMeasurementValues AoaMeasurementFits aoaMeasurement
    aoaMeasurementBytes := follows_aoaMeasurement

example : aoaMeasurement [1, 2, 3, 4, 5, 6, 7, 8, 9] = some (⟨0x201, 0x403, 0x605, 7, 8⟩, [9]) ∧
    AoaMeasurementFits ⟨0x201, 0x403, 0x605, 7, 8⟩ := by
  refine ⟨by decide +kernel, ?_⟩
  unfold AoaMeasurementFits
  decide

theorem C113_cir_value : Follows Spec.Pdl.cirValue cirValueValues CirValueFits cirValue cirValueBytes := follows_cirValue

example : cirValue [1, 0, 2, 0, 3, 0, 4, 0, 5, 0, 6, 0, 7, 8, 2, 0, 10, 11, 12] = some (⟨1, 2, 3, 4, 5, 6, 7, 8, [10, 11]⟩, [12]) ∧
    CirValueFits ⟨1, 2, 3, 4, 5, 6, 7, 8, [10, 11]⟩ := by
  refine ⟨by decide +kernel, ?_⟩
  unfold CirValueFits
  decide

/-- What is read of a packet in the report of a frame. -/
theorem C113_tlv_read (s : Bytes) (x : TlvPacket) (r : Bytes) :
    tlvPacket s = some (x, r) ↔ ∃ b, s = b ++ r ∧ TlvReads b x := tlvReads_iff s x r

/-- Of each class; angles of nine bytes, and an impulse response with a byte too much, are none. -/
example : tlvPacket [0, 2, 0, 5, 6, 99] = some (⟨0, [5, 6], .rssi [5, 6]⟩, [99]) ∧
    tlvPacket [1, 8, 0, 1, 2, 3, 4, 5, 6, 7, 8] = some (⟨1, [1, 2, 3, 4, 5, 6, 7, 8], .aoa [⟨0x201, 0x403, 0x605, 7, 8⟩]⟩, []) ∧
    tlvPacket [1, 9, 0, 1, 2, 3, 4, 5, 6, 7, 8, 9] = some (⟨1, [1, 2, 3, 4, 5, 6, 7, 8, 9], .bare⟩, []) ∧
    tlvPacket [2, 1, 0, 0] = some (⟨2, [0], .cir []⟩, []) ∧ tlvPacket [2, 2, 0, 0, 0] = some (⟨2, [0, 0], .bare⟩, []) ∧
    tlvPacket [3, 0, 0] = none := by decide +kernel

/-- What is written of one, unless its list is empty and there is an old payload. -/
theorem C113_tlv_written_partial (x : TlvPacket) (ht : TlvTyped x) (hf : TlvFieldsFit x.fields)
    (hp : x.payload = [] ∨ (x.fields ≠ .rssi [] ∧ x.fields ≠ .aoa [])) :
    ∃ b, x.serialize = some b ∧ IsWritten (tlvFieldsBits x.fields) b := tlv_written x ht hf hp

example : let x : TlvPacket := ⟨1, [9, 9], .aoa [⟨0x201, 0x403, 0x605, 7, 8⟩]⟩
    TlvTyped x ∧ TlvFieldsFit x.fields ∧ x.fields ≠ .rssi [] ∧ x.fields ≠ .aoa [] ∧
      x.serialize = some [1, 8, 0, 1, 2, 3, 4, 5, 6, 7, 8] := by
  refine ⟨rfl, ⟨?_, by decide +kernel⟩, by decide, by decide, by decide +kernel⟩
  unfold AoaMeasurementFits
  decide

theorem C113_bare_written (x : TlvPacket) (h : x.fields = .bare) (ht : x.t < 2 ^ 8) (hp : x.payload.length < 2 ^ 16) :
    ∃ b, x.serialize = some b ∧ IsWritten (bareTlvBits x.t x.payload) b := bareTlv_written x h ht hp

example : TlvPacket.serialize ⟨1, [1, 2, 3], .bare⟩ = some [1, 3, 0, 1, 2, 3] := by decide +kernel

/-- With an empty list and an old payload, the old payload is written. -/
theorem C113_kept (x : TlvPacket) (h : x.fields = .rssi [] ∨ x.fields = .aoa []) (ht : x.t < 2 ^ 8)
    (hp : x.payload.length < 2 ^ 16) : ∃ b, x.serialize = some b ∧ IsWritten (bareTlvBits x.t x.payload) b :=
  kept_written x h ht hp

/-- The measurement of a packet that was read is there again after it was taken out of the list. -/
example : tlvPacket [1, 8, 0, 1, 2, 3, 4, 5, 6, 7, 8] = some (⟨1, [1, 2, 3, 4, 5, 6, 7, 8], .aoa [⟨0x201, 0x403, 0x605, 7, 8⟩]⟩, []) ∧
    TlvPacket.serialize ⟨1, [1, 2, 3, 4, 5, 6, 7, 8], .aoa []⟩ = some [1, 8, 0, 1, 2, 3, 4, 5, 6, 7, 8] := by decide +kernel

theorem C113_tlv_written_false : ¬ ∀ x : TlvPacket, TlvTyped x → TlvFieldsFit x.fields →
    ∃ b, x.serialize = some b ∧ IsWritten (tlvFieldsBits x.fields) b := by
  intro h
  obtain ⟨b, h1, h2⟩ := h ⟨1, [1, 2, 3, 4, 5, 6, 7, 8], .aoa []⟩ rfl ⟨by simp, by decide +kernel⟩
  have e : TlvPacket.serialize ⟨1, [1, 2, 3, 4, 5, 6, 7, 8], .aoa []⟩ = some [1, 8, 0, 1, 2, 3, 4, 5, 6, 7, 8] := by decide +kernel
  rw [e, Option.some.injEq] at h1
  subst h1
  have := h2.matches
  revert this
  decide +kernel

/-! ### Sizes -/

/-- The property `size` of the controlees and of the impulse responses is the length of what is written. -/
theorem C113_size (k : Nat) (hk : k = 0 ∨ k = 16 ∨ k = 32) :
    (∀ x b, ControleeEntryFits k x → controleeEntryBytes x = some b → b.length = controleeSize k) ∧
    (∀ l b, ControleesFit k l → controleeEntriesBytes l = some b → b.length = controleesSize k l) ∧
    (∀ x b, CirValueFits x → cirValueBytes x = some b → b.length = x.size) := by
  have hs : 6 + k = controleeSize k := by rcases hk with rfl | rfl | rfl <;> rfl
  refine ⟨fun x b hx h => ?_, fun l b hl h => ?_, fun x b _ h => ?_⟩
  · simp only [controleeEntryBytes, Option.some.injEq] at h
    subst h
    have := (wr_controleeEntry x).matches.length
    rw [controleeEntryPat_length hx] at this
    omega
  · obtain ⟨c, h1, h2⟩ := (C113_controlees k hk).writes l hl
    rw [h, Option.some.injEq] at h1
    subst h1
    have e := h2.matches.length
    rw [controleeEntries_pat hk hl.2] at e
    have key : (l.flatMap controleeEntryPat).length = 8 * (l.map fun _ => controleeSize k).sum := by
      have hl := hl.2
      clear h h2 e
      induction l with
      | nil => rfl
      | cons x l ih =>
        rw [List.flatMap_cons, List.length_append, ih ⟨by have := ‹ControleesFit k (x :: l)›.1; simp at this; omega, fun y hy => hl y (List.mem_cons_of_mem _ hy)⟩ (fun y hy => hl y (List.mem_cons_of_mem _ hy)),
          controleeEntryPat_length (hl x List.mem_cons_self), hs, List.map_cons, List.sum_cons]
        omega
    simp only [listPat, List.length_append, Spec.Pdl.nat_length, key] at e
    unfold controleesSize
    omega
  · have e := (wr_cir x b h).matches.length
    simp only [cirPat, List.length_append, Spec.Pdl.nat_length, Spec.Pdl.octets_length] at e
    unfold CirValue.size
    omega

example : CirValueFits ⟨1, 2, 3, 4, 5, 6, 7, 8, [10, 11]⟩ ∧ CirValue.size ⟨1, 2, 3, 4, 5, 6, 7, 8, [10, 11]⟩ = 18 := by
  unfold CirValueFits
  decide

/-- A short address is not checked: with one byte, less is written than `size` says. -/
example : (controleeEntryBytes ⟨[1], 7, []⟩).map List.length = some 5 ∧ controleeSize 0 = 6 := by decide +kernel

/-- Of a packet of a derived class in the report of a frame it is 3 less than the length of what is written: type and length
are not counted. -/
theorem C113_tlv_size (x : TlvPacket) (ht : TlvTyped x) (hf : TlvFieldsFit x.fields)
    (hp : x.payload = [] ∨ (x.fields ≠ .rssi [] ∧ x.fields ≠ .aoa [])) (b : Bytes) (h : x.serialize = some b) :
    b.length = x.size + 3 := by
  obtain ⟨c, h1, h2⟩ := tlv_written x ht hf hp
  rw [h, Option.some.injEq] at h1
  subst h1
  have hne : x.fields ≠ .bare := by rintro h; rw [h] at hf; exact hf
  have e := h2.matches.length
  rw [tlvFields_pat hne, tlvHead_length] at e
  have key : x.fields.body.length = 8 * x.size := by
    unfold TlvPacket.size
    cases hx : x.fields with
    | bare => exact (hne hx).elim
    | rssi b => simp only [TlvFields.body, Spec.Pdl.octets_length]; omega
    | aoa l =>
      simp only [TlvFields.body]
      clear hp hf hne e h2 ht hx
      induction l with
      | nil => rfl
      | cons y l ih =>
        rw [List.flatMap_cons, List.length_append, ih, List.map_cons, List.sum_cons]
        simp only [aoaPat, List.length_append, Spec.Pdl.nat_length]
        omega
    | cir l =>
      have : (l.flatMap cirPat).length = 8 * (l.map CirValue.size).sum := by
        clear hp hf hne e h2 ht hx
        induction l with
        | nil => rfl
        | cons y l ih =>
          rw [List.flatMap_cons, List.length_append, ih, List.map_cons, List.sum_cons]
          simp only [cirPat, List.length_append, Spec.Pdl.nat_length, Spec.Pdl.octets_length, CirValue.size]
          omega
      simp only [TlvFields.body, listPat, List.length_append, Spec.Pdl.nat_length, this]
      omega
  omega

example : (TlvPacket.serialize ⟨2, [], .cir [⟨1, 2, 3, 4, 5, 6, 7, 8, [10, 11]⟩]⟩).map List.length = some 22 ∧
    TlvPacket.size ⟨2, [], .cir [⟨1, 2, 3, 4, 5, 6, 7, 8, [10, 11]⟩]⟩ = 19 := by decide +kernel

end Pica.Props
