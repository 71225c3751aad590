import Verif.Proofs.PySize
import Verif.Props.PyPackets
/-! C100: the sizes that Python packets report. -/

namespace Pica.Props
open Spec Py

/-- An object read from bytes reports as its size the number of these bytes, less those of the classes it is derived from.
Missing: the commands that ask for parameters (`C100_asked`) and DL-TDoA measurements (`C100_none`). -/
theorem C100_size_partial (s : Bytes) (o : Obj) (h : ReadAs s o) (ha : asked o = 0) (hd : ¬ HasDlTdoa o) :
    ∃ n, o.size = some n ∧ n + inherited o = s.length := by
  obtain ⟨b, h1, h2, _⟩ := C96_back s o h
  have hf : ObjFits o ∨ Bare o := h.elim (fun h => ((C96_fits s o).2 h.2).2) fun h => ((C96_fits s o).1 h.2).2
  obtain ⟨n, h3, h4⟩ := object_len o hf b h1 hd
  exact ⟨n, h3, by rw [h4, ha, h2]; rfl⟩

/-- A measurement of a peer, with the notification around it: 64 bytes, of which the class itself writes 36. -/
example : ReadAs ([0x62, 0, 0, 0] ++ [1, 0, 0, 0, 7, 0, 0, 0, 0, 200, 0, 0, 0, 1, 0, 0] ++ List.replicate 8 0 ++ [1] ++
      ([0x34, 0x12, 0, 0, 9, 0] ++ List.replicate 25 0) ++ [0xaa, 0xbb, 0xcc, 0xdd])
    (.shortMacTwoWaySessionInfoNtf 1 7 0 200 [⟨0x1234, 0, 0, 9, 0, 0, 0, 0, 0, 0, 0, 0, 0, 0⟩] [0xaa, 0xbb, 0xcc, 0xdd]) ∧
    (Obj.shortMacTwoWaySessionInfoNtf 1 7 0 200 [⟨0x1234, 0, 0, 9, 0, 0, 0, 0, 0, 0, 0, 0, 0, 0⟩] [0xaa, 0xbb, 0xcc, 0xdd]).size
      = some 36 := ⟨Or.inr ⟨fun h => h, by decide +kernel⟩, by decide +kernel⟩

/-- The same for what is written. -/
theorem C100_written_partial (o : Obj) (hf : ObjFits o) (ha : asked o = 0) (hd : ¬ HasDlTdoa o) :
    ∃ b n, o.serialize = some b ∧ o.size = some n ∧ n + inherited o = b.length := by
  obtain ⟨b, h1, _⟩ := C96_forward_partial o hf
  obtain ⟨n, h3, h4⟩ := object_len o (Or.inl hf) b h1 hd
  exact ⟨b, n, h1, h3, by rw [h4, ha]; rfl⟩

example : ObjFits (.coreGetDeviceInfoRsp 0 1 2 3 4 [5, 6]) ∧ (Obj.coreGetDeviceInfoRsp 0 1 2 3 4 [5, 6]).size = some 12 :=
  ⟨⟨by decide, by decide, by decide, by decide, by decide, by decide⟩, rfl⟩

/-- A command that asks for parameters reports seven bytes too many for each of them: eight, the bits of an identifier, for
the one byte that it takes. -/
theorem C100_asked (s : Bytes) (o : Obj) (h : ReadAs s o) (hd : ¬ HasDlTdoa o) :
    ∃ n, o.size = some n ∧ n + inherited o = s.length + 7 * asked o := by
  obtain ⟨b, h1, h2, _⟩ := C96_back s o h
  have hf : ObjFits o ∨ Bare o := h.elim (fun h => ((C96_fits s o).2 h.2).2) fun h => ((C96_fits s o).1 h.2).2
  obtain ⟨n, h3, h4⟩ := object_len o hf b h1 hd
  exact ⟨n, h3, by rw [h4, h2]⟩

/-- The size of a notification with a DL-TDoA measurement, and of no other packet, is an exception. -/
theorem C100_none (o : Obj) : o.size = none ↔ HasDlTdoa o := size_none o

example : (Obj.extendedMacDlTDoASessionInfoNtf 1 2 0 200 [(3, dlTdoaExample)]).size = none := rfl

/-- The full statement fails: a command asking for two parameters writes 7 bytes after the header and reports 21. -/
theorem C100_false : ¬ ∀ s o, ReadAs s o → ∃ n, o.size = some n ∧ n + inherited o = s.length := by
  intro h
  obtain ⟨n, h1, h2⟩ := h [0x21, 4, 0, 0, 1, 0, 0, 0, 2, 0, 9] (.command (.sessionGetAppConfig 1 [0, 9]))
    (Or.inr ⟨fun h => h, by decide +kernel⟩)
  cases h1
  exact absurd h2 (by decide)

end Pica.Props
