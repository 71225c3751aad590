import Verif.Proofs.Reading
/-! The packet description is unambiguous. -/

namespace Pica.Props
open Spec Spec.Pdl

/-- All the packets of the description. -/
def described : List Packet := leaves ++ [sessionInitRsp_V2] ++ parents ++ reports

theorem described_clear : ∀ q ∈ described, q.clear = true ∨ (q.above = true ∧ q.isOpen = true) := by decide +kernel

/-- C116: bytes are read as a packet in one way only. If they are that packet with some values and with others, all the
values are the same, including the rest that the description leaves open. -/
theorem C116_reading (q : Packet) (hq : q ∈ described) (env env' : Values) (b : Bytes) (hf : q.fits env) (hf' : q.fits env')
    (h : Matches (q.pattern env) b) (h' : Matches (q.pattern env') b) :
    q.same env env' ∧ (q.isOpen = true → env.bytes "payload" = env'.bytes "payload") := by
  have hb : Both (q.pattern env) (q.pattern env') := ⟨_, h, h'⟩
  rcases described_clear q hq with hc | ⟨hc, -⟩
  · refine ⟨clear_read hc hf hf' hb, fun ho => ?_⟩
    have no : ∀ {l : List Field} (ls is : List String), ends l = true → clears ls is true l = true → False := by
      intro l
      induction l with
      | nil => intro _ _ e; cases e
      | cons f l ih =>
        intro ls is e g
        rw [clears, Bool.and_eq_true] at g
        cases l with
        | nil =>
          cases f with
          | payload => have := g.1; rw [Field.clear] at this; cases this
          | _ => cases e
        | cons f' l =>
          refine ih _ _ ?_ g.2
          cases f with
          | payload => exact e
          | _ => exact e
    cases q with
    | root l => exact (no _ _ ho hc).elim
    | child q cs l =>
      rw [Packet.clear, Bool.and_eq_true] at hc
      exact (no _ _ ho hc.2).elim
  · obtain ⟨h1, h2⟩ := above_read hc hf hf' hb
    exact ⟨h1, fun _ => both_octets h2⟩

/-- C116: a structure ends where its fields say, whatever follows, and its values are read in one way only. -/
theorem C116_structure (l : List Field) (hl : l ∈ structures) (env env' : Values) (r r' : Pattern) (b : List Bool) (hf : fit env l)
    (hf' : fit env' l) (h : Agrees (patterns env [] l ++ r) b) (h' : Agrees (patterns env' [] l ++ r') b) :
    same env env' l ∧ (patterns env [] l).length = (patterns env' [] l).length := by
  have hc : ∀ l ∈ structures, clears [] [] false l = true := by decide +kernel
  obtain ⟨h1, h2⟩ := fields_read l [] [] false env env' [] [] r r' (hc l hl) hf hf' (by simp) (by simp) (by simp) ⟨b, h, h'⟩
  refine ⟨h1, ?_⟩
  have := both_length h2
  have a := agrees_length h
  have a' := agrees_length h'
  rw [List.length_append] at a a'
  omega

/-- C116: no bytes are two different packets. -/
theorem C116_kind (i j : Nat) (hi : i < leaves.length) (hj : j < leaves.length) (hn : i ≠ j) (env env' : Values) (b : Bytes)
    (h : Matches (leaves[i].pattern env) b) : ¬ Matches (leaves[j].pattern env') b := by
  intro h'
  have hp : leaves.Pairwise fun q q' => clash (q.shape [] []) (q'.shape [] []) = true := by decide +kernel
  rw [List.pairwise_iff_getElem] at hp
  rcases Nat.lt_or_gt_of_ne hn with g | g
  · exact clash_begins (hp i j hi hj g) (pattern_begin h) (pattern_begin h')
  · exact clash_begins (hp j i hj hi g) (pattern_begin h') (pattern_begin h)

/-- C116: the two forms of the response to SESSION_INIT, which have the same header, differ in length; every other packet
differs from the second in the header. -/
theorem C116_init (i : Nat) (hi : i < leaves.length) (env env' : Values) (b : Bytes) (h : Matches (leaves[i].pattern env) b) :
    ¬ Matches (sessionInitRsp_V2.pattern env') b := by
  intro h'
  have hp : ∀ j, ∀ hj : j < leaves.length, j ≠ 17 → clash (leaves[j].shape [] []) (sessionInitRsp_V2.shape [] []) = true := by
    decide +kernel
  by_cases e : i = 17
  · subst e
    have l1 := h.length
    have l2 := h'.length
    have e1 : (sessionInitRsp.pattern env).length = 40 := by
      simp [Packet.pattern, sessionInitRsp, sessionConfigPacket, controlPacket, Packet.within, patterns, Field.pattern, nat_length, gap]
    have e2 : (sessionInitRsp_V2.pattern env').length = 72 := by
      simp [Packet.pattern, sessionInitRsp_V2, sessionConfigPacket, controlPacket, Packet.within, patterns, Field.pattern, nat_length, gap]
    rw [e2] at l2
    replace l1 : 8 * b.length = (sessionInitRsp.pattern env).length := l1
    rw [e1] at l1
    omega
  · exact clash_begins (hp i hi e) (pattern_begin h) (pattern_begin h')

/-- C116: the packets inside a frame report are told apart by their first byte. -/
theorem C116_report (i j : Nat) (hi : i < reports.length) (hj : j < reports.length) (hn : i ≠ j) (env env' : Values) (b : Bytes)
    (h : Matches (reports[i].pattern env) b) : ¬ Matches (reports[j].pattern env') b := by
  intro h'
  have hp : reports.Pairwise fun q q' => clash (q.shape [] []) (q'.shape [] []) = true := by decide +kernel
  rw [List.pairwise_iff_getElem] at hp
  rcases Nat.lt_or_gt_of_ne hn with g | g
  · exact clash_begins (hp i j hi hj g) (pattern_begin h) (pattern_begin h')
  · exact clash_begins (hp j i hj hi g) (pattern_begin h') (pattern_begin h)

namespace Caps

/-- Capabilities with one parameter. -/
def values : Values := [("status", .int 0), ("tlvs", .records [[("t", .int 0xe3), ("v", .bytes [1, 2])]])]

/-- The same on the wire. -/
def wire : Bytes := [0x40, 3, 0, 0, 0, 1, 0xe3, 2, 1, 2]

theorem values_fit : coreGetCapsInfoRsp.fits values := by
  refine ⟨⟨⟨⟨0, rfl, by decide⟩, trivial, ⟨2, rfl, by decide⟩, trivial, trivial⟩, ⟨3, rfl, by decide⟩, trivial, trivial, trivial,
    trivial⟩, ⟨0, rfl, by decide⟩, show 1 < 256 by decide, ⟨_, rfl, ?_⟩, trivial⟩
  intro e he
  obtain rfl := List.mem_singleton.1 he
  exact ⟨⟨0xe3, rfl, by decide⟩, show 2 < 256 by decide, ⟨_, rfl⟩, trivial⟩

theorem values_wire : Matches (coreGetCapsInfoRsp.pattern values) wire := IsWritten.matches (by
  unfold IsWritten
  decide +kernel)

end Caps

open Caps in
/-- C116, example: the capabilities, also with the reserved bytes of the header in use. -/
example : coreGetCapsInfoRsp ∈ described ∧ coreGetCapsInfoRsp.fits values ∧ Matches (coreGetCapsInfoRsp.pattern values) wire ∧
    ∃ b, b ≠ wire ∧ Matches (coreGetCapsInfoRsp.pattern values) b := by
  refine ⟨by simp [described, leaves], values_fit, values_wire, [0x40, 3, 0, 6, 0, 1, 0xe3, 2, 1, 2], by decide, ?_⟩
  unfold Matches
  repeat first
    | exact trivial
    | refine ⟨rfl, ?_⟩
    | show Agrees _ _

open Caps in
/-- C116, example: the parameter by itself, followed by anything. -/
example : capTlv ∈ structures ∧ fit [("t", .int 0xe3), ("v", .bytes [1, 2])] capTlv ∧
    Agrees (patterns [("t", .int 0xe3), ("v", .bytes [1, 2])] [] capTlv ++ octets [7, 7]) (bitsOf [0xe3, 2, 1, 2, 7, 7]) := by
  refine ⟨by simp [structures], ⟨⟨0xe3, rfl, by decide⟩, show 2 < 256 by decide, ⟨_, rfl⟩, trivial⟩, ?_⟩
  have : bitsOf [0xe3, 2, 1, 2, 7, 7] = (patterns [("t", .int 0xe3), ("v", .bytes [1, 2])] [] capTlv ++ octets [7, 7]).map (·.getD false) := by
    decide +kernel
  rw [this]
  exact agrees_zero _

open Caps in
/-- C116, example: the bytes are the ninth packet, and so no other. -/
example : ∃ h : 8 < leaves.length, Matches (leaves[8].pattern values) wire := ⟨by decide, values_wire⟩

/-- C116, example: an RSSI report. -/
example : ∃ h : 0 < reports.length, Matches (reports[0].pattern [("rssi", .bytes [9])]) [0, 1, 0, 9] :=
  ⟨by decide, IsWritten.matches (by unfold IsWritten; decide +kernel)⟩

end Pica.Props
