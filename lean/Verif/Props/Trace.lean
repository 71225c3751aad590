import Verif.Proofs.TraceEnd
import Verif.Props.Connection
import Verif.Props.Pcapng
/-! C77, C78: what the trace file of a connection tells. -/

namespace Pica.Props
open Spec Spec.Trace Link

theorem segment_length {m : Bytes} {fs : List Bytes} (h : segment m = .ok fs) {f : Bytes} (hf : f ∈ fs) :
    f.length ≤ 1028 := by
  match m with
  | [] => cases h
  | [_] | [_, _] | [_, _, _] => cases h; cases hf
  | a :: b :: c :: d :: r =>
    obtain ⟨gs, h1, h2⟩ := segment_spec ⟨a, b, c, d, r⟩
    have h1' : segment (a :: b :: c :: d :: r) = .ok (gs.map Msg.bytes) := h1
    rw [h] at h1'
    cases h1'
    obtain ⟨g, hg, rfl⟩ := List.mem_map.mp hf
    have := (h2.size g hg).2.1
    have hl : (⟨a, b, c, d, r⟩ : Msg).limit ≤ 1024 := by unfold Msg.limit; split <;> omega
    simp only [Msg.bytes, List.length_cons]
    omega

theorem mem_sentBy {cs : List Crossing} {c : Crossing} (h : c ∈ cs) : c.packet ∈ sentBy c.side cs :=
  List.mem_map.mpr ⟨c, List.mem_filter.mpr ⟨h, by simp⟩, rfl⟩

/-- The packets of the emulator are those of messages that it sent. -/
theorem sent_segment {input : List Bytes} {as : List Act} {s : Link} (h : Inv input as s) {f : Bytes}
    (hf : f ∈ sentBy .emulator (crossings as)) : ∃ m ∈ pushed as, ∃ fs, segment m = .ok fs ∧ f ∈ fs := by
  have h1 : f ∈ sentBy .emulator (crossings as) ++ s.todo := List.mem_append_left _ hf
  rw [h.sent] at h1
  obtain ⟨m, hm, hfm⟩ := List.mem_flatMap.mp h1
  refine ⟨m, List.mem_of_mem_take hm, ?_⟩
  cases hs : segment m with
  | error e => rw [hs] at hfm; cases hfm
  | ok fs => rw [hs] at hfm; exact ⟨fs, rfl, hfm⟩

/-- C77: a reader of the trace finds all the packets that crossed the connection, in order, with the times they did, which do
not decrease. -/
theorem C77_capture (input : List Bytes) (as : List Act) (s : Link) (hr : (new input).run as = some s)
    (hl : ∀ p ∈ input, p.length < 2 ^ 32 - 36) (ht : s.clock < 2 ^ 64) (fuel : Nat)
    (hf : (crossings as).length + 2 ≤ fuel) :
    Spec.Pcapng.readFile fuel s.file = some (293, (crossings as).map captured) ∧
    (crossings as).Pairwise (fun c d => c.time ≤ d.time) := by
  have h := inv_run hr
  refine ⟨?_, h.times⟩
  rw [h.file, C46_read _ ?_ ?_ fuel (by simpa using hf)]
  · simp [captured, Function.comp_def]
  · intro r hr
    obtain ⟨c, hc, rfl⟩ := List.mem_map.mp hr
    have hm := mem_sentBy hc
    cases hs : c.side with
    | host =>
      obtain ⟨j, r1, -, -⟩ := h.reads
      rw [hs] at hm
      exact hl _ (by rw [r1]; simp [hm])
    | emulator =>
      rw [hs] at hm
      obtain ⟨m, -, fs, h1, h2⟩ := sent_segment h hm
      have := segment_length h1 h2
      show c.packet.length < _
      omega
  · intro r hr
    obtain ⟨c, hc, rfl⟩ := List.mem_map.mp hr
    exact Nat.lt_of_le_of_lt (h.clock c hc) ht

/-- C77: the packets of the host in the trace are the first ones that it sent, and the messages they make up are those
the emulator received; there is at most one more that was read, of an unknown type, and then the connection ends. -/
theorem C77_host (input : List Bytes) (as : List Act) (s : Link) (hr : (new input).run as = some s) :
    (∃ junk, input = sentBy .host (crossings as) ++ junk ++ s.input ∧ (s.ended = false → junk = []) ∧
      ∀ p ∈ junk, ¬ KnownType p) ∧
    ∀ gs rest, Grouped (sentBy .host (crossings as)) gs rest → s.received = gs.map joined := by
  have h := inv_run hr
  refine ⟨h.reads, fun gs rest hg => ?_⟩
  rw [← h.received, C62_messages _ _ _ hg]

/-- C77: the packets of the emulator in the trace, and those it has yet to write, are a segmentation of the messages of the
device it has taken, in order. All of them were written, except perhaps for a last one that could not be. -/
theorem C77_emulator (input : List Bytes) (as : List Act) (s : Link) (hr : (new input).run as = some s) (ms : List Msg)
    (hm : pushed as = ms.map Msg.bytes) :
    (∃ k, s.output = (ms.drop k).map Msg.bytes ∧ ∃ fss : List (List Msg), List.Forall₂ Segments (ms.take k) fss ∧
      sentBy .emulator (crossings as) ++ s.todo = fss.flatten.map Msg.bytes) ∧
    (s.ended = false → s.written = sentBy .emulator (crossings as)) ∧
    (s.written = sentBy .emulator (crossings as) ∨ ∃ f, s.written ++ [f] = sentBy .emulator (crossings as)) := by
  have h := inv_run hr
  refine ⟨⟨takes as, by rw [h.output, hm, List.map_drop], ?_⟩, fun x => (h.alive x).symm, ?_⟩
  · have e := h.sent
    rw [hm, ← List.map_take] at e
    rw [e]
    generalize ms.take (takes as) = ms
    clear e hm
    induction ms with
    | nil => exact ⟨[], .nil, rfl⟩
    | cons m ms ih =>
      obtain ⟨fss, h1, h2⟩ := ih
      obtain ⟨fs, h3, h4⟩ := segment_spec m
      refine ⟨fs :: fss, .cons h4 h1, ?_⟩
      rw [List.map_cons, List.flatMap_cons, h2, h3]
      simp [Except.toOption]
  · rcases h.written with x | ⟨-, f, x⟩
    · exact .inl x.symm
    · exact .inr ⟨f, x.symm⟩

/-- C77: the connection has ended exactly when there was a reason to. -/
theorem C77_ended (input : List Bytes) (as : List Act) (s : Link) (hr : (new input).run as = some s) :
    s.ended = true ↔ Ends as := (endInv_run hr).ended

/-- A long command is begun, and then there comes a packet of two bytes. -/
example : ∃ s, (new [[0x30, 0, 0, 1, 7], [0x20, 0]]).run [.read [0x30, 0, 0, 1, 7] 3, .read [0x20, 0] 4] = some s ∧ s.ended = true :=
  ⟨((new [[0x30, 0, 0, 1, 7], [0x20, 0]]).run [.read [0x30, 0, 0, 1, 7] 3, .read [0x20, 0] 4]).get (by decide +kernel),
    by decide +kernel, by decide +kernel⟩

/-- C77: when the reader finds the stream closed, all that the host sent is in the trace. -/
theorem C77_close (input : List Bytes) (as : List Act) (s : Link) (hr : (new input).run (as ++ [.close]) = some s) :
    sentBy .host (crossings (as ++ [.close])) = input := by
  have key : ∀ (as : List Act) (l s : Link), l.run (as ++ [.close]) = some s →
      ∃ m, l.run as = some m ∧ m.step .close = some s := by
    intro as
    induction as with
    | nil => intro l s h; simp only [List.nil_append, run, Option.bind_eq_some_iff, Option.some.injEq] at h
             obtain ⟨a, h, rfl⟩ := h; exact ⟨l, rfl, h⟩
    | cons a as ih =>
      intro l s h
      simp only [List.cons_append, run, Option.bind_eq_some_iff] at h
      obtain ⟨k, h1, h2⟩ := h
      obtain ⟨m, h3, h4⟩ := ih k s h2
      exact ⟨m, by simp only [run, h1, Option.bind_some, h3], h4⟩
  obtain ⟨m, h1, h2⟩ := key as _ s hr
  simp only [step] at h2
  split at h2
  · cases h2
  · rename_i hc
    push Not at hc
    obtain ⟨⟨junk, h3, h4, -⟩, -⟩ := C77_host input as m h1
    rw [h4 (by simpa using hc.1), hc.2] at h3
    have e : crossings (as ++ [.close]) = crossings as := by
      rw [crossings, List.filterMap_append, show List.filterMap crossing [Act.close] = [] from rfl, List.append_nil]
      rfl
    rw [h3, e, List.append_nil, List.append_nil]

/-- The host closes the connection after a command. -/
example : ((new [[0x20, 2, 0, 0]]).run ([.read [0x20, 2, 0, 0] 3] ++ [.close])).isSome = true ∧
    (new [[0x20, 2, 0, 0]]).run ([] ++ [.close]) = none := by decide +kernel

/-- The trace tells which packets the host sent. -/
def C78_statement : Prop :=
  ∀ (input input' : List Bytes) (as as' : List Act) (s s' : Link), (new input).run as = some s →
    (new input').run as' = some s' → s.file = s'.file →
    sentBy .host (crossings as) = sentBy .host (crossings as')

/-- C78: it does not: the direction is not recorded. In one run the host sends the bytes of a CORE_DEVICE_STATUS_NTF, in the
other the emulator does. -/
theorem C78_false : ¬ C78_statement := by
  intro h
  obtain ⟨x, y, hx, hy, e⟩ : ∃ x y, (new [[0x60, 1, 0, 1, 1]]).run [.read [0x60, 1, 0, 1, 1] 7] = some x ∧
      (new []).run [.push [0x60, 1, 0, 1, 1], .take, .write [0x60, 1, 0, 1, 1] 7] = some y ∧ x.file = y.file :=
    ⟨((new [[0x60, 1, 0, 1, 1]]).run [.read [0x60, 1, 0, 1, 1] 7]).get (by decide +kernel),
      ((new []).run [.push [0x60, 1, 0, 1, 1], .take, .write [0x60, 1, 0, 1, 1] 7]).get (by decide +kernel),
      by decide +kernel, by decide +kernel, by decide +kernel⟩
  have key := h _ _ _ _ x y hx hy e
  revert key
  decide

theorem believed_msg (m : Msg) : believed m.bytes = if m.mt = 1 ∨ m.mt = 0 ∧ m.low = 1 then .host else .emulator := rfl

theorem believed_segment {m : Bytes} (hm : believed m = .emulator) {fs : List Bytes} (h : segment m = .ok fs) {f : Bytes}
    (hf : f ∈ fs) : believed f = .emulator := by
  match m with
  | [] => cases h
  | [_] | [_, _] | [_, _, _] => cases h; cases hf
  | a :: b :: c :: d :: r =>
    obtain ⟨gs, h1, h2⟩ := segment_spec ⟨a, b, c, d, r⟩
    have h1' : segment (a :: b :: c :: d :: r) = .ok (gs.map Msg.bytes) := h1
    rw [h] at h1'
    cases h1'
    obtain ⟨g, hg, rfl⟩ := List.mem_map.mp hf
    have h3 := h2.header g hg
    have h4 : believed (⟨a, b, c, d, r⟩ : Msg).bytes = .emulator := hm
    rw [believed_msg] at h4 ⊢
    rw [h3.1, h3.2.1]
    exact h4

theorem filter_side (cs : List Crossing) (h : ∀ c ∈ cs, believed c.packet = c.side) (side : Side) :
    believedFrom side (cs.map captured) = sentBy side cs := by
  induction cs with
  | nil => rfl
  | cons c cs ih =>
    have hc := h c List.mem_cons_self
    have := ih fun d hd => h d (List.mem_cons_of_mem _ hd)
    simp only [believedFrom, sentBy, List.map_cons, List.filter_cons] at this ⊢
    rw [this, show believed (captured c).data = c.side from hc]
    by_cases hs : c.side = side <;> simp [hs, captured]

/-- C78: as long as the host sends commands and data of format 1 only, and the emulator neither, the headers tell who
sent a packet. -/
theorem C78_sides_partial (input : List Bytes) (as : List Act) (s : Link) (hr : (new input).run as = some s)
    (hh : ∀ p ∈ input, believed p = .host) (he : ∀ m ∈ pushed as, believed m = .emulator) (side : Side) :
    believedFrom side ((crossings as).map captured) = sentBy side (crossings as) := by
  have h := inv_run hr
  refine filter_side _ (fun c hc => ?_) side
  have hm := mem_sentBy hc
  cases hs : c.side with
  | host =>
    obtain ⟨j, r1, -, -⟩ := h.reads
    rw [hs] at hm
    exact hh _ (by rw [r1]; simp [hm])
  | emulator =>
    rw [hs] at hm
    obtain ⟨m, h0, fs, h1, h2⟩ := sent_segment h hm
    exact believed_segment (he m h0) h1 h2

/-- What the emulator sends is neither a command nor data of format 1. -/
theorem believed_fit {p : Packet} (h : Fit p) {b : Bytes} (hb : p.encode = some b) : believed b = .emulator := by
  have short : ∀ {b : Bytes}, Short b → believed b = .emulator := by
    rintro b ⟨h₀, h₁, h₂, st, rfl, -, h1, -⟩
    simp only [believed, h1]
    rfl
  cases p with
  | rsp r =>
    obtain ⟨-, rfl⟩ := (C48_rsp_bytes r b).mp hb
    cases r <;> (dsimp only [rspCode]; rfl)
  | ntf n =>
    obtain ⟨-, rfl⟩ := (C48_ntf_bytes n b).mp hb
    cases n <;> (dsimp only [ntfCode]; rfl)
  | control c => cases hb; exact short h.1
  | raw x => cases hb; exact short h
  | data d =>
    obtain ⟨-, rfl⟩ := (C48_data_bytes d b).mp hb
    rfl

/-- C78: take any schedule of the emulator, a device of it and the messages sent to it, and a connection that transports
them, with a host that sends commands and data of format 1. Then the trace, read by the reader of captures and then by the host's
own reader, shows exactly the messages whose packets have crossed, in order; and exactly the packets of the host. -/
theorem C78_exchange_partial (ls : List System.Label) (sys : System) (hsys : System.Run .new ls sys) (h : Nat)
    (ps : List Packet) (hps : ps <+: ls.flatMap (sentTo h))
    (input : List Bytes) (as : List Act) (s : Link) (hr : (new input).run as = some s)
    (hpush : List.Forall₂ (fun p b => p.encode = some b) ps (pushed as))
    (hh : ∀ p ∈ input, believed p = .host ∧ p.length < 2 ^ 32 - 36) (ht : s.clock < 2 ^ 64) (hdone : s.todo = [])
    (fuel : Nat) (hf : (crossings as).length + 2 ≤ fuel) (hf' : ps.length ≤ fuel) :
    ∃ rs, Spec.Pcapng.readFile fuel s.file = some (293, rs) ∧ believedFrom .host rs = sentBy .host (crossings as) ∧
      List.Forall₂ Carries (Host.readPackets fuel (believedFrom .emulator rs).flatten) (ps.take (takes as)) := by
  have hfit : ∀ p ∈ ps, Fit p := fun p hp => ((fit_run hsys).2 h p (hps.subset hp)).1
  have he : ∀ m ∈ pushed as, believed m = .emulator := fun m hm => by
    obtain ⟨p, hp, hb⟩ := exists_of_forall₂ hpush hm
    exact believed_fit (hfit p hp) hb
  have side := C78_sides_partial input as s hr (fun p hp => (hh p hp).1) he
  refine ⟨_, (C77_capture input as s hr (fun p hp => (hh p hp).2) ht fuel hf).1, side .host, ?_⟩
  rw [side .emulator]
  obtain ⟨fss, h1, h2⟩ := C63_delivery ls sys hsys h (ps.take (takes as)) ((List.take_prefix _ _).trans hps)
  have h3 := (inv_run hr).sent
  rw [hdone, List.append_nil] at h3
  have h4 : sentBy .emulator (crossings as) = fss.flatten := by
    rw [h3]
    have h5 := List.forall₂_take (takes as) hpush
    clear h3 h2
    generalize ps.take (takes as) = qs at h1 h5
    generalize (pushed as).take (takes as) = bs at h5
    induction h1 generalizing bs with
    | nil => cases h5; rfl
    | cons hx _ ih =>
      obtain ⟨b, hb, hs⟩ := hx
      cases h5 with
      | cons h6 h7 =>
        rw [hb] at h6
        cases h6
        rw [List.flatMap_cons, List.flatten_cons, ih _ h7, hs]
        rfl
  rw [h4]
  exact h2 fuel ((List.length_take_le' _ _).trans hf')

/-- C77: a connection with a command in one packet, a response, and a command of which the response could not be written. -/
def traced : List Act :=
  [.push [0x60, 1, 0, 0, 1], .take, .write [0x60, 1, 0, 1, 1] 3, .read [0x20, 0, 0, 1, 0] 5, .push [0x40, 0, 0, 0, 0],
    .read [0x20, 2, 0, 0] 5, .take, .write [0x40, 0, 0, 1, 0] 8, .push [0x40, 2, 0, 0, 0], .take, .fail [0x40, 2, 0, 1, 0] 9]

example : ((new [[0x20, 0, 0, 1, 0], [0x20, 2, 0, 0], [0x20, 3, 0, 0]]).run traced).map (fun s =>
    (s.received, s.written, s.ended, s.input, decide (s.clock < 2 ^ 64))) =
    some ([[0x20, 0, 0, 1, 0], [0x20, 2, 0, 0]], [[0x60, 1, 0, 1, 1], [0x40, 0, 0, 1, 0]], true, [[0x20, 3, 0, 0]], true) ∧
    (crossings traced).length = 5 ∧ (∀ p ∈ pushed traced, believed p = .emulator) ∧
    believed [0x20, 0, 0, 1, 0] = .host ∧ believed [0x01, 0, 0, 0] = .host := by
  decide +kernel

/-- C78: the messages of a schedule on a connection. -/
example : ∃ (ls : List System.Label) (sys : System) (ps : List Packet) (as : List Act) (s : Link), System.Run .new ls sys ∧
    ps <+: ls.flatMap (sentTo 0) ∧ ps ≠ [] ∧ (new []).run as = some s ∧
    List.Forall₂ (fun p b => p.encode = some b) ps (pushed as) ∧ s.todo = [] ∧ takes as = 1 := by
  obtain ⟨ls, sys, hr, hf⟩ := Ex.exists_sched (as := Ex.active)
    (f := fun ls _ => ((ls.flatMap (sentTo 0)).take 1).map Packet.encode == [some [0x40, 0, 0, 0, 0]]) (by decide +kernel)
  have hf := eq_of_beq hf
  have e : ∃ p, (ls.flatMap (sentTo 0)).take 1 = [p] ∧ p.encode = some [0x40, 0, 0, 0, 0] := by
    match hl : (ls.flatMap (sentTo 0)).take 1 with
    | [] => rw [hl] at hf; cases hf
    | [p] => rw [hl] at hf; exact ⟨p, rfl, by simpa using hf⟩
    | _ :: _ :: _ => rw [hl] at hf; simp at hf
  obtain ⟨p, e1, e2⟩ := e
  refine ⟨ls, sys, [p], [.push [0x40, 0, 0, 0, 0], .take, .write [0x40, 0, 0, 1, 0] 4],
    ((new []).run [.push [0x40, 0, 0, 0, 0], .take, .write [0x40, 0, 0, 1, 0] 4]).get (by decide +kernel), hr,
    e1 ▸ List.take_prefix _ _, by simp, by decide +kernel, .cons e2 .nil, by decide +kernel, by decide +kernel⟩

end Pica.Props
