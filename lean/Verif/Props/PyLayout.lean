import Verif.Proofs.PyTakenPacket
import Verif.Props.PyPackets
/-! C98: the Python packets have the layouts of the packet description. -/

namespace Pica.Props
open Spec Py
open Spec.Pdl (Matches IsWritten)

/-- An object whose fields are in range is written with the bits its packet has in the description, the reserved ones being 0.
These are then all the bytes there are. Missing: the answer to a multicast update (`C98_false`). -/
theorem C98_write_partial (o : Obj) (h : FitsOpen o) (hm : ∀ v, o ≠ .sessionUpdateControllerMulticastListRsp v) (b : Bytes)
    (hb : o.serialize = some b) : IsWritten (layout o) b ∧ ∀ c, IsWritten (layout o) c → c = b :=
  have hw := wr_serialize (Or.inl h) (headFits_of h) hm hb
  ⟨hw, fun _ hc => Spec.Pdl.written_unique hc hw⟩

example : FitsOpen (.sessionStatusNtf 0x04030201 2 5) := Or.inl ⟨by decide, by decide, by decide⟩

/-- The head of group 1, a notification, opcode 2; a token of four bytes, the least significant one first; the state; the
reason. -/
example : IsWritten (layout (.sessionStatusNtf 0x04030201 2 5)) [0x61, 0x02, 0, 0, 1, 2, 3, 4, 2, 5] := by decide +kernel

/-- Twenty-eight bits, twenty-eight more, twenty-four. -/
example : (dlTdoaBytes dlTdoaExample).getD [] =
    [0, 2, 0x49, 0x01, 7, 0, 3, 1, 0xfe, 0xff, 100, 5, 0, 99, 200, 0xff, 0xff, 0xff, 0xff, 0xff,
      0xff, 0xff, 0xff, 0xff, 0xff, 0xff, 0xff, 0xff, 11, 0, 12, 0, 0, 0, 0, 0x80, 14, 0, 0, 0, 15, 0,
      0xff, 0xff, 0xff, 0x1f, 0, 0, 0, 0xff, 0xff, 0xff, 4, 9] := by decide +kernel

/-- Every object in range is written at all (`C96`), so that it is written as described. -/
theorem C98_written_partial (o : Obj) (h : ObjFits o) (hm : ∀ v, o ≠ .sessionUpdateControllerMulticastListRsp v) :
    ∃ b, o.serialize = some b ∧ IsWritten (layout o) b := by
  obtain ⟨b, h1, _⟩ := C96_forward_partial o h
  exact ⟨b, h1, (C98_write_partial o (Or.inl h) hm b h1).1⟩

example : ObjFits (.extendedMacDlTDoASessionInfoNtf 1 2 0 200 [(2 ^ 64 - 1, dlTdoaExample)]) := by
  refine ⟨⟨by decide, by decide, by decide, by decide⟩, by decide, ?_⟩
  intro m hm
  rw [List.mem_singleton] at hm
  subst hm
  exact ⟨by decide, dlTdoaExample_fits⟩

/-- Whatever is read, by one of the classes of messages or as a bare packet, has the layout of what it is read as, whatever
the reserved bits are. Missing: the answer to a multicast update. -/
theorem C98_read_partial (s : Bytes) (o : Obj) (hm : ∀ v, o ≠ .sessionUpdateControllerMulticastListRsp v) (h : ReadAs s o) :
    Matches (layout o) s := rd_readAs hm h

example : ReadAs [0x71, 0xc2, 0xff, 9, 1, 2, 3, 4, 2, 5] (.sessionStatusNtf 0x04030201 2 5) :=
  Or.inr ⟨fun h => h, by decide +kernel⟩

example : ReadAs [0x21, 0x04, 0, 0, 1, 0, 0, 0, 1, 0xa0] (.sessionConfigPacket 1 4 [1, 0, 0, 0, 1, 0xa0]) :=
  Or.inr ⟨fun h => h, by decide +kernel⟩

/-- Any bytes with the layout of an object in range are read as that object. Missing: the answer to a multicast update. -/
theorem C98_accept_partial (s : Bytes) (o : Obj) (ho : ObjFits o) (hm : ∀ v, o ≠ .sessionUpdateControllerMulticastListRsp v)
    (h : Matches (layout o) s) : ReadAs s o := fw_readAs ho hm h

/-- The reserved bits may be anything. -/
example : Matches (layout (.sessionStatusNtf 0x04030201 2 5)) [0x71, 0xc2, 0xff, 9, 1, 2, 3, 4, 2, 5] := by
  unfold Matches; simp only [layout_eq]; exact (rd_first (s := [0x71, 0xc2, 0xff, 9, 1, 2, 3, 4, 2, 5]) (by decide)).append
    ((rd_opcode (l := [2]) (s := [0xc2, 0xff, 9, 1, 2, 3, 4, 2, 5]) (oid := 2) (p := [1, 2, 3, 4, 2, 5]) (by decide)).append
      (Spec.Pdl.takes_all [1, 2, 3, 4, 2, 5])) |>.matches

/-- So the package reads the description: bytes are read as an object exactly if its fields are in range and they have its
layout. -/
theorem C98_iff_partial (s : Bytes) (o : Obj) (hb : ¬ Bare o) (hm : ∀ v, o ≠ .sessionUpdateControllerMulticastListRsp v) :
    ReadAs s o ↔ ObjFits o ∧ Matches (layout o) s :=
  ⟨fun h => ⟨(C96_exact o hb).1 ⟨s, h⟩, rd_readAs hm h⟩, fun h => fw_readAs h.1 hm h.2⟩

/-- The state 4 is not one of a session. -/
example (s : Bytes) : ¬ ReadAs s (.sessionStatusNtf 1 4 0) := by
  rw [C98_iff_partial s (.sessionStatusNtf 1 4 0) (fun h => h) (fun v h => by cases h)]
  exact fun h => absurd h.1.2.1 (by decide)

/-- And the description is not ambiguous: no bytes have the layouts of two messages in range. -/
theorem C98_unambiguous_partial (s : Bytes) (o o' : Obj) (h : ObjFits o) (h' : ObjFits o') (hd : IsData o ↔ IsData o')
    (hm : ∀ v, o ≠ .sessionUpdateControllerMulticastListRsp v) (hm' : ∀ v, o' ≠ .sessionUpdateControllerMulticastListRsp v)
    (hs : Matches (layout o) s) (hs' : Matches (layout o') s) : o = o' := by
  rcases fw_readAs h hm hs with ⟨k1, k2⟩ | ⟨k1, k2⟩ <;> rcases fw_readAs h' hm' hs' with ⟨k1', k2'⟩ | ⟨k1', k2'⟩
  · exact Option.some.inj (k2.symm.trans k2')
  · exact (k1' (hd.1 k1)).elim
  · exact (k1 (hd.2 k1')).elim
  · exact Option.some.inj (k2.symm.trans k2')

/-- Two answers to the same command that differ in length only. -/
example : Matches (layout (.sessionInitRsp 7)) [0x41, 0, 0, 0, 7] ∧
    ¬ Matches (layout (.sessionInitRspV2 7 0)) [0x41, 0, 0, 0, 7] := by
  refine ⟨(Spec.Pdl.IsWritten.matches (by decide +kernel)), fun h => ?_⟩
  have := h.length
  revert this
  decide +kernel

/-- The full statement fails: the answer to a multicast update is written without the list of controlees and without their
number. -/
theorem C98_false : ¬ ∀ o b, ObjFits o → o.serialize = some b → Matches (layout o) b := by
  intro h
  have h1 := h (.sessionUpdateControllerMulticastListRsp 0) [0x41, 7, 0, 0, 0] (show (0 : Nat) < 2 ^ 8 by decide) (by decide +kernel)
  have h2 := h1.length
  revert h2
  decide +kernel

/-- And it is never read from bytes of the length it has in the description, which is at least two after the head. -/
theorem C98_multicast (s : Bytes) (v : Nat) : ¬ (ReadAs s (.sessionUpdateControllerMulticastListRsp v) ∧ 6 ≤ s.length) := by
  rintro ⟨h, hl⟩
  obtain ⟨b, h1, h2, _⟩ := C96_back s _ h
  simp only [Obj.serialize, Obj.body, Obj.code, groupHead, controlHead, Option.bind_eq_bind, Option.bind_eq_some_iff,
    Option.pure_def, Option.some.injEq, byte_iff] at h1
  obtain ⟨x, ⟨_, rfl⟩, y, ⟨_, rfl⟩, z, ⟨_, rfl⟩, rfl⟩ := h1
  simp at h2
  omega

/-- The answer for one controlee is a bare packet to the package. -/
example : parseControl [0x41, 7, 0, 0, 0, 1, 1, 2, 0] = some (.sessionConfigPacket 2 7 [0, 1, 1, 2, 0]) := by decide +kernel

end Pica.Props
