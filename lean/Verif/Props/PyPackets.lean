import Verif.Proofs.PySerial
import Verif.Proofs.PyRoundTrip
import Verif.Proofs.PyCut
/-! C96: the Python packets are written and read back. -/

namespace Pica.Props
open Spec Py

/-! ### Structures -/

/-- Each structure inside a message is read back from what is written, whatever follows, and what is read is in range and
written with as many bytes as it was read from. -/
theorem C96_structs :
    PyCodec tlv configParameter TlvFits ∧
    PyCodec tlv appConfigTlv TlvFits ∧
    PyCodec idStatus idStatusBytes PairFits ∧
    PyCodec controleeStatus controleeStatusBytes ControleeStatusFits ∧
    PyCodec measurement (measurementBytes 2 11) (MeasurementFits 16) ∧
    PyCodec extMeasurement (measurementBytes 8 5) (MeasurementFits 64) ∧
    PyCodec owrAoa (owrAoaBytes 2) (OwrAoaFits 16) ∧
    PyCodec extOwrAoa (owrAoaBytes 8) (OwrAoaFits 64) ∧
    PyCodec wgs84Location (fun b => some b) (fun b => b.length = 12) ∧
    PyCodec relativeLocation relativeLocationBytes RelativeFits ∧
    PyCodec dlTdoa dlTdoaBytes DlTdoaFits ∧
    PyCodec (addressedDlTdoa 2) (addressedDlTdoaBytes 2) (AddressedFits 16) ∧
    PyCodec (addressedDlTdoa 8) (addressedDlTdoaBytes 8) (AddressedFits 64) ∧
    PyCodec frameReportTlv frameReportTlvBytes FrameReportTlvFits ∧
    PyCodec frameReport frameReportBytes FrameReportFits :=
  ⟨codec_configParameter, codec_appConfigTlv, codec_idStatus, codec_controleeStatus, codec_measurement,
    codec_extMeasurement, codec_owrAoa, codec_extOwrAoa, codec_wgs84, codec_relativeLocation, codec_dlTdoa,
    codec_addressed (by decide), codec_addressed (by decide), codec_frameReportTlv, codec_frameReport⟩

/-- A DL-TDoA measurement with a time stamp of either size, a relative location and two ranging rounds. -/
def dlTdoaExample : DlTdoa :=
  ⟨0, 2, 1, 7, 3, 1, 0xfffe, 100, 5, 99, 200, some (2 ^ 40 - 1), none, none, some (2 ^ 64 - 1), 11, 12, 2 ^ 31, 14, 15,
    [], [⟨2 ^ 28 - 1, 1, 2 ^ 24 - 1⟩], [4, 9]⟩

theorem dlTdoaExample_fits : DlTdoaFits dlTdoaExample := by
  unfold DlTdoaFits StampFits
  refine ⟨by decide, by decide, by decide, by decide, by decide, by decide, by decide, by decide, by decide, by decide,
    by decide, Or.inl ⟨_, rfl, by decide, rfl⟩, Or.inr ⟨_, rfl, by decide, rfl⟩, by decide, by decide, by decide, by decide,
    by decide, by decide, ?_, by decide, ?_, by decide⟩
  · intro w hw; cases hw
  · intro l hl
    obtain rfl : l = ⟨2 ^ 28 - 1, 1, 2 ^ 24 - 1⟩ := by simpa [dlTdoaExample] using hl
    exact ⟨by decide, by decide, by decide⟩

example : dlTdoa ((dlTdoaBytes dlTdoaExample).getD [] ++ [1, 2, 3]) = some (dlTdoaExample, [1, 2, 3]) := by decide +kernel

/-! ### Messages -/

/-- Every object of a class of messages whose fields are in range is written without an exception, and what is written is read
as that object. Missing: the two commands that ask for parameters, with an identifier that has no name (`C96_false`). -/
theorem C96_forward_partial (o : Obj) (h : ObjFits o) : ∃ b, o.serialize = some b ∧ ReadAs b o := by
  obtain ⟨b, _, _, h1, _, h2⟩ := written_of h
  exact ⟨b, h1, h2⟩

example : ObjFits (.shortMacDlTDoASessionInfoNtf 1 2 0 200 [(0xffff, dlTdoaExample), (3, dlTdoaExample)]) := by
  refine ⟨⟨by decide, by decide, by decide, by decide⟩, by decide, ?_⟩
  intro m hm
  simp only [List.mem_cons, List.not_mem_nil, or_false] at hm
  rcases hm with rfl | rfl
  · exact ⟨by decide, dlTdoaExample_fits⟩
  · exact ⟨by decide, dlTdoaExample_fits⟩

example : ObjFits (.dataMessageSnd 1 7 (2 ^ 64 - 1) 65535 [1, 2, 3]) := ⟨by decide, by decide, by decide, by decide, by decide⟩

/-- Whatever is read, as a control packet or as data, is written without an exception with as many bytes, which are read as
the same object. -/
theorem C96_back (s : Bytes) (o : Obj) (h : ReadAs s o) : ∃ b, o.serialize = some b ∧ b.length = s.length ∧ ReadAs b o := by
  rcases h with ⟨h1, h2⟩ | ⟨h1, h2⟩
  · obtain ⟨_, _, b, k1, k2, k3⟩ := data_back h2
    exact ⟨b, k1, k2, Or.inl ⟨h1, k3⟩⟩
  · obtain ⟨_, _, b, k1, k2, k3⟩ := control_back h2
    exact ⟨b, k1, k2, Or.inr ⟨h1, k3⟩⟩

/-- A packet whose reserved bits are set and whose length is wrong is read; it is written with these cleared. -/
example : ReadAs [0x41, 0xc3, 0xff, 0x77, 5, 1, 0xaa, 9] (.sessionSetAppConfigRsp 5 [(0xaa, 9)]) ∧
    (Obj.sessionSetAppConfigRsp 5 [(0xaa, 9)]).serialize = some [0x41, 0x03, 0, 0, 5, 1, 0xaa, 9] :=
  ⟨Or.inr ⟨fun h => h, by decide +kernel⟩, by decide +kernel⟩

/-- What is read by one of the two parsers is of one of its own classes, and has its fields in range or is a bare packet. -/
theorem C96_fits (s : Bytes) (o : Obj) :
    (parseControl s = some o → ¬ IsData o ∧ (ObjFits o ∨ Bare o)) ∧ (parseData s = some o → IsData o ∧ (ObjFits o ∨ Bare o)) :=
  ⟨fun h => ⟨(control_back h).2.1, (control_back h).1⟩, fun h => ⟨(data_back h).2.1, (data_back h).1⟩⟩

example : parseControl [0x21, 0x04, 0, 0, 1, 0, 0, 0, 1, 0xa0] = some (.sessionConfigPacket 1 4 [1, 0, 0, 0, 1, 0xa0]) := by
  decide +kernel

example : parseData [0x01, 0, 0, 0, 1] = some (.dataPacket 1 0 0 [1]) := by decide +kernel

theorem not_fits_bare {o : Obj} (h : ObjFits o) : ¬ Bare o := by
  cases o with
  | controlPacket => exact h.elim
  | corePacket => exact h.elim
  | sessionConfigPacket => exact h.elim
  | sessionControlPacket => exact h.elim
  | androidPacket => exact h.elim
  | sessionInfoNtf => exact h.elim
  | dataPacket => exact h.elim
  | _ => exact fun h => h

/-- The ranges are exact: an object of a class of messages is read from some bytes if, and only if, its fields are in range,
and then from those it is written as. -/
theorem C96_exact (o : Obj) (ho : ¬ Bare o) : (∃ b, ReadAs b o) ↔ ObjFits o := by
  constructor
  · rintro ⟨b, h | h⟩
    · exact ((C96_fits b o).2 h.2).2.resolve_right ho
    · exact ((C96_fits b o).1 h.2).2.resolve_right ho
  · intro h
    obtain ⟨b, _, h2⟩ := C96_forward_partial o h
    exact ⟨b, h2⟩

example : ¬ ∃ b, ReadAs b (.sessionStatusNtf 1 4 0) := by
  rw [C96_exact (.sessionStatusNtf 1 4 0) fun h => h]
  exact fun h => absurd h.2.1 (by decide)

/-- Different messages are written differently. -/
theorem C96_injective (o o' : Obj) (h : ObjFits o) (h' : ObjFits o') (hd : IsData o ↔ IsData o') (he : o.serialize = o'.serialize) :
    o = o' := by
  obtain ⟨b, h1, h2⟩ := C96_forward_partial o h
  obtain ⟨b', h1', h2'⟩ := C96_forward_partial o' h'
  obtain rfl : b = b' := Option.some.inj (by rw [← h1, ← h1', he])
  rcases h2 with ⟨k1, k2⟩ | ⟨k1, k2⟩ <;> rcases h2' with ⟨k1', k2'⟩ | ⟨k1', k2'⟩
  · exact Option.some.inj (k2.symm.trans k2')
  · exact (k1' (hd.1 k1)).elim
  · exact (k1 (hd.2 k1')).elim
  · exact Option.some.inj (k2.symm.trans k2')

example : (Obj.sessionInitRsp 1).serialize ≠ (Obj.sessionInitRspV2 1 0).serialize := by decide +kernel

/-- The full statement fails: an application parameter reserved for vendors is asked for, and what is written is not read as
this command but as a packet of no class. -/
theorem C96_false : ¬ ∀ o, FitsOpen o → ∃ b, o.serialize = some b ∧ ReadAs b o := by
  intro h
  obtain ⟨b, _, h2⟩ := h (.command (.sessionGetAppConfig 1 [0xa0])) (Or.inr (Or.inr ⟨1, [0xa0], rfl, by decide, by decide,
    by decide⟩))
  have h3 := (C96_exact (.command (.sessionGetAppConfig 1 [0xa0])) fun h => h).1 ⟨b, h2⟩
  exact absurd (h3.2.2 0xa0 (List.mem_singleton.2 rfl)) (by decide)

/-- This is what happens to these two commands exactly when one of the identifiers has no name. -/
theorem C96_unlisted (t : Nat) (l : List Nat) (ht : t < 2 ^ 32) (hl : Listed (· < 2 ^ 8) l) :
    ((∃ b, (Obj.command (.sessionGetAppConfig t l)).serialize = some b ∧ ReadAs b (.command (.sessionGetAppConfig t l))) ↔
      ∀ i ∈ l, i ∈ appConfigTlvTypes) ∧
    ((∃ b, (Obj.command (.coreGetConfig l)).serialize = some b ∧ ReadAs b (.command (.coreGetConfig l))) ↔
      ∀ i ∈ l, i ∈ configParameterIds) := by
  refine ⟨⟨fun ⟨b, _, h⟩ => ((C96_exact (.command (.sessionGetAppConfig t l)) fun h => h).1 ⟨b, h⟩).2.2, fun h => C96_forward_partial _ ⟨ht, hl.1, h⟩⟩,
    ⟨fun ⟨b, _, h⟩ => ((C96_exact (.command (.coreGetConfig l)) fun h => h).1 ⟨b, h⟩).2, fun h => C96_forward_partial _ ⟨hl.1, h⟩⟩⟩

example : Listed (· < 2 ^ 8) [0, 0xa0] := ⟨by decide, by decide⟩

/-- An object whose fields do not fit is written like what is left of it, and read as this if that fits. -/
theorem C96_wide (o : Obj) :
    o.serialize = (objCut o).serialize ∧ (ObjFits (objCut o) → ∃ b, o.serialize = some b ∧ ReadAs b (objCut o)) := by
  have h := (objCut_serialize o).symm
  refine ⟨h, fun hf => ?_⟩
  rw [h]
  exact C96_forward_partial _ hf

/-- A handle, a sequence number too large and a location with a coordinate of 29 bits lose their highest bits. -/
example : ObjFits (objCut (.dataMessageSnd 1 (2 ^ 32 + 7) 5 65537 [1])) ∧
    objCut (.dataMessageSnd 1 (2 ^ 32 + 7) 5 65537 [1]) = .dataMessageSnd 1 7 5 1 [1] ∧
    relativeLocationBytes ⟨2 ^ 28 + 5, 2 ^ 29 - 1, 2 ^ 24⟩ = relativeLocationBytes ⟨5, 2 ^ 28 - 1, 0⟩ :=
  ⟨⟨by decide, by decide, by decide, by decide, by decide⟩, rfl, (location_cut ⟨2 ^ 28 + 5, 2 ^ 29 - 1, 2 ^ 24⟩).symm⟩

/-- C96: the objects that can be written: those whose fields that are not cut are in range. -/
theorem C96_raises (o : Obj) : o.serialize = none ↔ ¬ Serial o := by
  rw [← PySerial.serialize_some]
  cases o.serialize <;> simp

/-- A count of the sessions is cut, a status is not; nor is a time stamp. -/
example : Serial (.sessionGetCountRsp 0 300) ∧ ¬ Serial (.sessionGetCountRsp 256 0) ∧
    ∀ m : DlTdoa, ¬ Serial (.shortMacDlTDoASessionInfoNtf 0 0 0 0 [(0, { m with txTimestamp40 := some (2 ^ 40) })]) :=
  ⟨show 0 < 256 by decide, fun h => absurd (show 256 < 256 from h) (by decide),
    fun _ h => absurd ((h _ List.mem_cons_self).2.1 _ rfl) (by decide)⟩

end Pica.Props
