import Verif.Proofs.Panics
import Verif.Proofs.SystemExamples
import Verif.Props.Schedule
/-! Schedules that end in a panic. -/

namespace Pica.Ex
open Spec Pica.System

/-- The rest of the packets of a message. -/
def further (h₀ h₁ h₂ : UInt8) : Nat → Bytes → List Msg
  | 0, _ => []
  | n + 1, p => if p.length ≤ 255 then [⟨h₀ &&& 0xef, h₁, h₂, UInt8.ofNat p.length, p⟩]
    else ⟨h₀, h₁, h₂, 255, p.take 255⟩ :: further h₀ h₁ h₂ n (p.drop 255)

/-- Packets for a message. -/
def packetsOf : Bytes → List Msg
  | h₀ :: h₁ :: h₂ :: h₃ :: p => if p.length ≤ 255 then [⟨h₀, h₁, h₂, h₃, p⟩]
    else ⟨h₀, h₁, h₂, h₃, p.take 255⟩ :: further h₀ h₁ h₂ p.length (p.drop 255)
  | _ => []

/-- These packets are well formed and make up the message. -/
def deliverable (b : Bytes) : Bool :=
  (packetsOf b).all (fun m => decide m.WellFormed) && decide ((reassemble none ((packetsOf b).map Msg.bytes)).1 = [b])

/-- A command in several packets. -/
def longCmd (gid oid : UInt8) (payload : Bytes) : Bytes := (0x30 ||| gid) :: oid :: 0 :: 255 :: payload

/-- The last step is such a panic. -/
def endsIn (k : Cause) (x : Panic) (ls : List Label) : Bool :=
  match ls.getLast? with
  | some (.panics c y) => decide (cause c = k ∧ y = x)
  | _ => false

/-- A device with the session 7. -/
def setup (ty : UInt8) : List Act := [.request .connect, .process] ++ send 0 reset ++ send 0 (sessionInit 7 ty)

/-- The controller with 127 times the same controlee. -/
def crowded : Bytes :=
  longCmd 1 3 ([7, 0, 0, 0, 8, 0x00, 1, 1, 0x01, 1, 2, 0x03, 1, 1, 0x05, 1, 127, 0x06, 2, 0x00, 0xa0, 0x07, 254] ++
    (List.replicate 127 [0x00, 0xb1]).flatten ++ [0x11, 1, 1, 0x22, 1, 1])

/-- The byte of a number. -/
def tag (i : Nat) : UInt8 := UInt8.ofNat i
/-- ADD of 129 controlees. -/
def addMany : Bytes :=
  longCmd 1 7 ([7, 0, 0, 0, 0, 129] ++ (List.range 129).flatMap fun i => [tag i, 1, 0, 0, 0, 0])

/-- The same controller with extended addresses. -/
def extended : Bytes :=
  [0x26, 1, 2, 0x00, 1, 1, 0x01, 1, 2, 0x03, 1, 1, 0x05, 1, 1, 0x06, 8, 0, 0, 0, 0, 0, 0, 0x00, 0xa0,
    0x07, 8, 0, 0, 0, 0, 0, 0, 0x00, 0xb1, 0x11, 1, 1, 0x22, 1, 1]

/-- A schedule for each panic but the overflow. -/
def witness : Cause → Panic → List Act
  | .message, .deviceNotReady => active ++ send 0 (cmd 0 2 [])
  | .message, .sessionType => setup 2 ++ send 0 (setApp 7 8 controller)
  | .message, .macMode1 => setup 1 ++ send 0 (setApp 7 2 [0x26, 1, 1, 0x06, 2, 0x00, 0xa0])
  | .message, .rangingTaskPresent => active ++ send 0 (removeOne 7 0x00 0xb1) ++ send 0 (start 7)
  | .message, .encode => setup 1 ++ send 0 crowded ++ send 0 (addOne 7 1 1) ++ send 0 (cmd 1 4 [7, 0, 0, 0, 1, 7])
  | .round, .noSession => active ++ [.packet 0 (sessionDeinit 7), .tick 0, .process, .process]
  | .round, .noDevice => active ++ [.closes 0, .leaves 0, .tick 0, .process, .process]
  | .round, .channelClosed => active ++ [.closes 0, .tick 0, .process]
  | .round, .extendedAddress => setup 1 ++ send 0 (setApp 7 9 extended) ++ send 0 (start 7) ++
      [.request (.createAnchor (.extended ⟨[0, 0, 0, 0, 0, 0, 0x00, 0xb1], rfl⟩)), .process, .tick 0, .process]
  | .round, .encode => setup 1 ++ send 0 crowded ++ send 0 addMany ++ send 0 (start 7) ++
      [.request (.createAnchor (.short ⟨[0x00, 0xb1], rfl⟩)), .process] ++
      (List.range 129).flatMap (fun i => [.request (.createAnchor (.short ⟨[tag i, 1], rfl⟩)), .process]) ++ [.tick 0, .process]
  | .message, .parseChild => setup 1 ++ send 0 (cmd 1 0 [])
  | .message, .unsupportedOid => setup 1 ++ send 0 (cmd 1 2 [])
  | _, _ => []


theorem deliverable_stream {b : Bytes} (h : deliverable b = true) : ∃ stream, b ∈ (reassemble none (readStream stream)).1 := by
  unfold deliverable at h
  rw [Bool.and_eq_true, List.all_eq_true] at h
  refine ⟨((packetsOf b).map Msg.bytes).flatten, ?_⟩
  have := readStream_msgs (packetsOf b) (fun m hm => of_decide_eq_true (h.1 m hm)) []
  rw [List.append_nil] at this
  rw [this, show readStream [] = [] from readStream_none rfl, List.append_nil, of_decide_eq_true h.2]
  exact .head _

theorem mem_sent {ls : List Label} {h : Nat} {b : Bytes} (hm : Label.packet h b ∈ ls) : (h, b) ∈ Props.sentPackets ls :=
  List.mem_filterMap.mpr ⟨_, hm, rfl⟩

theorem endsIn_iff {k : Cause} {x : Panic} {ls : List Label} (h : endsIn k x ls = true) : EndsIn ls k x := by
  unfold endsIn at h
  split at h
  · rename_i c y hl
    obtain ⟨hk, rfl⟩ := of_decide_eq_true h
    obtain ⟨ls', rfl⟩ := List.getLast?_eq_some_iff.mp hl
    exact ⟨ls', c, rfl, hk⟩
  · cases h

theorem run_ends {k : Cause} {x : Panic} (wf : Bool) (as : List Act) (h : (sched .new [] as).any (fun z =>
    (Props.sentPackets z.1).all (fun y => deliverable y.2 && (!wf || (readCmd y.2).isSome)) && endsIn k x z.1) = true) :
    ∃ ls s, Run .new ls s ∧ FromStreams ls ∧ (wf = true → ∀ h b, Label.packet h b ∈ ls → ∃ c, IsCmd b c) ∧ EndsIn ls k x := by
  obtain ⟨ls, s, hr, hf⟩ := exists_sched (f := fun ls _ =>
    (Props.sentPackets ls).all (fun y => deliverable y.2 && (!wf || (readCmd y.2).isSome)) && endsIn k x ls) h
  rw [Bool.and_eq_true, List.all_eq_true] at hf
  refine ⟨ls, s, hr, ?_, ?_, endsIn_iff hf.2⟩
  · intro h b hm
    have := hf.1 _ (mem_sent hm)
    rw [Bool.and_eq_true] at this
    exact deliverable_stream this.1
  · rintro rfl h b hm
    have := hf.1 _ (mem_sent hm)
    rw [Bool.and_eq_true] at this
    obtain ⟨c, hc⟩ := Option.isSome_iff_exists.mp (by simpa using this.2)
    exact ⟨c, isCmd_read.mpr hc⟩

set_option maxRecDepth 100000 in
theorem known_ends : ∀ z ∈ knownPanics, z ≠ (.round, .overflow) → (sched .new [] (witness z.1 z.2)).any (fun y =>
    (Props.sentPackets y.1).all (fun w => deliverable w.2 && (!true || (readCmd w.2).isSome)) && endsIn z.1 z.2 y.1) = true := by
  decide +kernel

theorem malformed_ends : ∀ z ∈ malformedPanics, (sched .new [] (witness z.1 z.2)).any (fun y =>
    (Props.sentPackets y.1).all (fun w => deliverable w.2 && (!false || (readCmd w.2).isSome)) && endsIn z.1 z.2 y.1) = true := by
  decide +kernel

/-! ### 2^32 rounds -/

/-- A device alone with an ACTIVE session that has ranged `n` times. -/
structure Alone (n : Nat) (ls : List Label) (s : System) : Prop where
  run : Run .new ls s
  sent : ∀ h b, Label.packet h b ∈ ls → deliverable b = true ∧ ∃ c, IsCmd b c
  up : s.stopped = false
  queue : s.queue = []
  timer : ∃ t ∈ s.timers, t.device = 0 ∧ t.session = 7
  conn : s.conns.get? 0 = some .running
  anchors : s.pica.anchors = []
  dev : ∃ d t, s.pica.devices = [(0, d)] ∧ d.handle = 0 ∧ d.session 7 = some t ∧ t.isSessionInfoNtfEnabled = true ∧
    t.sequenceNumber.toNat = n

theorem anchors_nil (est : Nat → Nat → Option RangingMeasurement) (h : Nat) (l : List MacAddress) :
    Pica.anchorMeasurements est [] h l = .ok [] := by
  induction l with
  | nil => rfl
  | cons m l ih => unfold Pica.anchorMeasurements; exact ih

theorem alone_step {n : Nat} {ls : List Label} {s : System} (h : Alone n ls s) :
    ∃ t, Run .new (ls ++ [.tick t]) { s with queue := [.ranging 0 7] } ∧
      ∃ p d ss, s.pica = p ∧ p.devices = [(0, d)] ∧ d.session 7 = some ss ∧ ss.sequenceNumber.toNat = n ∧
      p.step (s.env env.estimate) (.ranging 0 7) =
        if n + 1 < 2 ^ 32 then
          .ok ({ p with devices := p.devices.insert 0 (d.putSession 7 { ss with sequenceNumber := ss.sequenceNumber + 1, data := [] }) },
            [.send 0 (.ntf (.sessionInfo ss.sequenceNumber 7 0 0 [] []))])
        else .error .overflow := by
  obtain ⟨t, ht, h1, h2⟩ := h.timer
  obtain ⟨d, ss, hd, hh, hs, he, hn⟩ := h.dev
  refine ⟨t, ?_, s.pica, d, ss, rfl, hd, hs, hn, ?_⟩
  · have := Run.step h.run h.up (Step.tick ht (by unfold Room; rw [h.queue]; decide))
    rwa [h.queue, h1, h2] at this
  · have hal : (s.env env.estimate).alive 0 = true := by
      show s.alive 0 = true
      unfold System.alive
      rw [h.conn]; rfl
    have henc : (Packet.ntf (.sessionInfo ss.sequenceNumber 7 0 0 ([] ++ []) [])).encode.isNone = false := by
      rw [Option.isNone_eq_false_iff, ntf_isSome]
      simp [ntfFits]
    show s.pica.ranging _ 0 7 = _
    unfold Pica.ranging
    rw [hd, h.anchors]
    simp only [AMap.get?, ite_true, hs, hh, anchors_nil, AMap.values, List.map_cons, List.map_nil, Pica.peerLoop, bind, Except.bind,
      Pica.dataSends, he, Pica.sendUnwrap, hal, henc, hn]
    by_cases hlt : n + 1 < 2 ^ 32
    · simp only [if_pos hlt]; rfl
    · simp only [if_neg hlt]; rfl

theorem alone_succ {n : Nat} {ls : List Label} {s : System} (h : Alone n ls s) (hn : n + 1 < 2 ^ 32) :
    ∃ t ev s' r, Alone (n + 1) (ls ++ [.tick t] ++ [.process ev]) s' ∧ s'.ntfs = s.ntfs ∧ ev.command = .ranging 0 7 ∧
      ev.out = [.send 0 (.ntf r)] := by
  obtain ⟨t, hr, p, d, ss, rfl, hd, hs, hq, hstep⟩ := alone_step h
  rw [if_pos hn] at hstep
  obtain ⟨d', ss', hd', hh, hs', he, -⟩ := h.dev
  rw [hd] at hd'
  cases hd'
  rw [hs] at hs'
  cases hs'
  have := Run.step hr h.up (Step.process (estimate := env.estimate) rfl hstep)
  refine ⟨_, _, _, _, ⟨this, ?_, h.up, rfl, h.timer, h.conn, h.anchors,
    d.putSession 7 { ss with sequenceNumber := ss.sequenceNumber + 1, data := [] }, _, ?_, hh, AMap.get?_insert_self .., he, ?_⟩,
    rfl, rfl, rfl⟩
  · intro k b hb
    rcases List.mem_append.mp hb with hb | hb
    · rcases List.mem_append.mp hb with hb | hb
      · exact h.sent k b hb
      · simp at hb
    · simp at hb
  · show AMap.insert s.pica.devices 0 _ = _
    rw [hd]; rfl
  · show (ss.sequenceNumber + 1).toNat = n + 1
    rw [UInt32.toNat_add, hq]
    exact Nat.mod_eq_of_lt hn

theorem alone_zero : Alone 0 (labels active) (final active) := by
  have hr := final_run (as := active) (by decide +kernel)
  have hf : (fun ls s =>
    ((Props.sentPackets ls).all fun y => deliverable y.2 && (readCmd y.2).isSome) &&
    (decide (s.stopped = false ∧ s.queue = [] ∧ s.conns.get? 0 = some .running ∧ s.pica.anchors = []) &&
    ((s.timers.any fun t => decide (t.device = 0 ∧ t.session = 7)) &&
    match s.pica.devices with
    | [(0, d)] => decide (d.handle = 0) && (match d.session 7 with
      | some t => t.isSessionInfoNtfEnabled && decide (t.sequenceNumber.toNat = 0)
      | none => false)
    | _ => false)) : List Label → System → Bool) (labels active) (final active) = true := by decide +kernel
  generalize labels active = ls at hr hf ⊢
  generalize final active = s at hr hf ⊢
  dsimp only at hf
  rw [Bool.and_eq_true, Bool.and_eq_true, Bool.and_eq_true, List.all_eq_true, List.any_eq_true] at hf
  obtain ⟨h1, h2, ⟨t, ht, h3⟩, h4⟩ := hf
  obtain ⟨a, b, c, e⟩ := of_decide_eq_true h2
  refine ⟨hr, ?_, a, b, ⟨t, ht, of_decide_eq_true h3⟩, c, e, ?_⟩
  · intro h b hb
    have := h1 _ (mem_sent hb)
    rw [Bool.and_eq_true] at this
    obtain ⟨c, hc⟩ := Option.isSome_iff_exists.mp this.2
    exact ⟨this.1, c, isCmd_read.mpr hc⟩
  · split at h4
    · rename_i d hd
      rw [Bool.and_eq_true] at h4
      obtain ⟨h5, h6⟩ := h4
      split at h6
      · rename_i t ht
        rw [Bool.and_eq_true] at h6
        exact ⟨d, t, hd, of_decide_eq_true h5, ht, h6.1, of_decide_eq_true h6.2⟩
      · cases h6
    · cases h4

theorem overflow_ends : ∃ ls s, Run .new ls s ∧ FromStreams ls ∧ (∀ h b, Label.packet h b ∈ ls → ∃ c, IsCmd b c) ∧
    EndsIn ls .round .overflow := by
  have key : ∀ n, n < 2 ^ 32 → ∃ ls s, Alone n ls s := by
    intro n
    induction n with
    | zero => intro _; exact ⟨_, _, alone_zero⟩
    | succ n ih =>
      intro hn
      obtain ⟨ls, s, h⟩ := ih (by omega)
      obtain ⟨_, _, s', _, h', -⟩ := alone_succ h hn
      exact ⟨_, s', h'⟩
  obtain ⟨ls, s, h⟩ := key (2 ^ 32 - 1) (by decide)
  obtain ⟨t, hr, p, d, ss, rfl, hd, hs, hq, hstep⟩ := alone_step h
  rw [if_neg (by decide)] at hstep
  have := Run.step hr h.up (Step.panics (estimate := env.estimate) rfl hstep)
  have hsent : ∀ k b, Label.packet k b ∈ ls ++ [.tick t] ++ [.panics (.ranging 0 7) .overflow] →
      deliverable b = true ∧ ∃ c, IsCmd b c := by
    intro k b hb
    rcases List.mem_append.mp hb with hb | hb
    · rcases List.mem_append.mp hb with hb | hb
      · exact h.sent k b hb
      · simp at hb
    · simp at hb
  exact ⟨_, _, this, fun k b hb => deliverable_stream (hsent k b hb).1, fun k b hb => (hsent k b hb).2, _, _, rfl, rfl⟩

end Pica.Ex
