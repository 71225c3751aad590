import Verif.Proofs.Vectors
/-! The test lines of the packet description. -/

namespace Pica.Props
open Spec Spec.Pdl

/-- The line without the three bytes after its fourth one. -/
def trimmed (v : Vector) : Vector := { v with wire := v.wire.take 4 ++ v.wire.drop 7 }

/-- C117: not every test line of the description is the packet that it is said to be; just five of them are. -/
theorem C117_valid : ∀ v ∈ vectors, v.Valid ↔ v.line ∈ [851, 1123, 1305, 1458, 1480] := by
  have yes : ∀ v ∈ vectors, v.line ∈ [851, 1123, 1305, 1458, 1480] → v.valid = true := by decide +kernel
  have no : ∀ v ∈ vectors, v.line ∉ [851, 1123, 1305, 1458, 1480] → v.packet.clear = true ∧ v.packet.accepts (bitsOf v.wire) = false := by
    decide +kernel
  intro v hv
  refine ⟨fun h => ?_, fun h => valid_of (yes v hv h)⟩
  by_contra g
  exact not_valid_of (no v hv g).1 (no v hv g).2 h

/-- C117: without these bytes, which belong to a header of seven bytes, all others but two are. -/
theorem C117_trimmed : ∀ v ∈ vectors, v.line ∉ [851, 1123, 1458, 1480] → ((trimmed v).Valid ↔ v.line ∉ [1078, 1093]) := by
  have yes : ∀ v ∈ vectors, v.line ∉ [851, 1123, 1458, 1480] → v.line ∉ [1078, 1093] → (trimmed v).valid = true := by
    decide +kernel
  have no : ∀ v ∈ vectors, v.line ∈ [1078, 1093] →
      (trimmed v).packet.clear = true ∧ (trimmed v).packet.accepts (bitsOf (trimmed v).wire) = false := by
    decide +kernel
  intro v hv hn
  refine ⟨fun h g => ?_, fun h => valid_of (yes v hv hn h)⟩
  exact not_valid_of (no v hv g).1 (no v hv g).2 h

/-- C117: the values of a test line that is a packet are determined by it. -/
theorem C117_values : ∀ v ∈ vectors, ∀ env env' : Values, v.ReadsAs env → v.ReadsAs env' → v.packet.same env env' := by
  have hc : ∀ v ∈ vectors, v.packet.clear = true := by decide +kernel
  intro v hv env env' h h'
  exact clear_read (hc v hv) h.1 h'.1 ⟨_, h.2, h'.2⟩

/-- C117, example: the list has lines of both kinds. -/
example : (∃ v ∈ vectors, v.line = 851) ∧ (∃ v ∈ vectors, v.line = 708) ∧ vectors.length = 58 := by decide +kernel

/-- C117, example: what the line of the query of the time reads as. -/
example : ∃ v ∈ vectors, v.line = 851 ∧ v.ReadsAs
    [("gid", .int 0), ("mt", .int 2), ("oid", .int 8), ("status", .int 0), ("timeStamp", .int 0x0101010001010000)] := by
  refine ⟨⟨851, coreQueryTimeStampRsp, _⟩, List.mem_of_getElem? (i := 13) rfl, rfl, packet_fitted (by decide +kernel), agreed_agrees (by decide +kernel)⟩

end Pica.Props
