import Verif.Proofs.TestsJoint
/-! What the emulator does with the commands of the hosts of the tests. -/

set_option linter.dupNamespace false

namespace Pica.Tests
open Spec SessionState

variable {late lag t h n : Nat} {s : Test}

/-! ### Ranging tasks -/

theorem alarm_start {p' : Pica} {q : List Command} {r : Packet} {es : List Effect} {sc : Nat → List Statement}
    (hi : s.clock.sys.Inv) (ha : Alarm s.clock h none) (he : ∀ e ∈ es, ∃ d m, e = .notify d m) :
    Alarm (processed sc t s p' q (.send h r :: .effect h (.startTimer s.clock.sys.spawned 0 1000) :: es.map (.effect h))).clock h
      (some (s.clock.sys.spawned, t + 1000000)) := by
  have hT : ∀ S : System, ((es.map (Out.effect h)).foldl System.apply S).timers = S.timers := by
    clear ha
    induction es with
    | nil => exact fun _ => rfl
    | cons e es ih =>
      obtain ⟨d, m, rfl⟩ := he e List.mem_cons_self
      exact fun S => ih (fun e h => he e (List.mem_cons_of_mem _ h)) _
  have hW : ∀ w : AMap Nat (Nat × Nat), (es.map (Out.effect h)).foldl (Clock.alarm t) w = w := by
    clear ha hT
    induction es with
    | nil => exact fun _ => rfl
    | cons e es ih =>
      obtain ⟨d, m, rfl⟩ := he e List.mem_cons_self
      exact fun S => ih (fun e h => he e (List.mem_cons_of_mem _ h)) _
  have e1 : (processed sc t s p' q (.send h r :: .effect h (.startTimer s.clock.sys.spawned 0 1000) :: es.map (.effect h))).clock.sys.timers =
      s.clock.sys.timers ++ [⟨s.clock.sys.spawned, h, 0, false⟩] := hT _
  have e2 : (processed sc t s p' q (.send h r :: .effect h (.startTimer s.clock.sys.spawned 0 1000) :: es.map (.effect h))).clock.wakes =
      s.clock.wakes.insert s.clock.sys.spawned (1000000, t + 1000000) := hW _
  constructor
  · intro k hk hh i due hw
    rw [e1, List.mem_append, List.mem_singleton] at hk
    rw [e2, AMap.get?_insert] at hw
    rcases hk with hk | rfl
    · have := hi.bound k hk
      rw [if_neg (by omega)] at hw
      obtain ⟨g1, -⟩ := ha.1 k hk hh i due hw
      cases g1
    · rw [if_pos rfl] at hw
      cases hw
      exact ⟨rfl, rfl, rfl, rfl⟩
  · intro id due e
    cases e
    rw [e1, e2, AMap.get?_insert_self]
    exact ⟨List.mem_append_right _ List.mem_cons_self, rfl⟩

theorem alarm_stop {p' : Pica} {q : List Command} {r : Packet} {es : List Effect} {sc : Nat → List Statement} {k due : Nat}
    (ha : Alarm s.clock h (some (k, due))) (hd : t < due) (he : ∀ e ∈ es, ∃ d m, e = .notify d m) :
    Alarm (processed sc t s p' q (.send h r :: .effect h (.abortTimer k) :: es.map (.effect h))).clock h none := by
  have hT : ∀ S : System, ((es.map (Out.effect h)).foldl System.apply S).timers = S.timers := by
    induction es with
    | nil => exact fun _ => rfl
    | cons e es ih =>
      obtain ⟨d, m, rfl⟩ := he e List.mem_cons_self
      exact fun S => ih (fun e h => he e (List.mem_cons_of_mem _ h)) _
  have hW : ∀ w : AMap Nat (Nat × Nat), (es.map (Out.effect h)).foldl (Clock.alarm t) w = w := by
    clear hT
    induction es with
    | nil => exact fun _ => rfl
    | cons e es ih =>
      obtain ⟨d, m, rfl⟩ := he e List.mem_cons_self
      exact fun S => ih (fun e h => he e (List.mem_cons_of_mem _ h)) _
  have e1 : (processed sc t s p' q (.send h r :: .effect h (.abortTimer k) :: es.map (.effect h))).clock.sys.timers =
      s.clock.sys.timers.map (System.mark k) := hT _
  have e2 : (processed sc t s p' q (.send h r :: .effect h (.abortTimer k) :: es.map (.effect h))).clock.wakes =
      s.clock.wakes.erase k := by
    refine (hW _).trans ?_
    show Clock.alarm t s.clock.wakes (.effect h (.abortTimer k)) = _
    unfold Clock.alarm
    dsimp only
    rw [(ha.2 k due rfl).2]
    dsimp only
    rw [if_pos hd]
  constructor
  · intro x hx hh i due' hw
    rw [e1] at hx
    rw [e2, AMap.get?_erase] at hw
    split at hw
    · cases hw
    · rename_i hne
      obtain ⟨z, hz, rfl⟩ := List.mem_map.mp hx
      have hzi : (System.mark k z).id = z.id := by unfold System.mark; split <;> rfl
      have hzd : (System.mark k z).device = z.device := by unfold System.mark; split <;> rfl
      rw [hzi] at hw hne
      rw [hzd] at hh
      obtain ⟨g1, -⟩ := ha.1 z hz hh i due' hw
      exact absurd (congrArg Prod.fst (Option.some.inj g1)) hne
  · intro id due' e
    cases e

/-! ### The commands -/

theorem naps_effects (t h : Nat) (es : List Effect) : Props.napsOf h ((es.map (Out.effect h)).filterMap (Clock.nap t)) =
    es.filterMap fun | .notify d m => some (t + Clock.ms d, m) | _ => none := by
  induction es with
  | nil => rfl
  | cons e es ih =>
    cases e with
    | notify d m =>
      rw [List.map_cons, List.filterMap_cons_some (show Clock.nap t (.effect h (.notify d m)) = some (h, m, t + Clock.ms d) from rfl),
        List.filterMap_cons_some (b := (t + Clock.ms d, m)) (by rfl), ← ih]
      exact List.filterMap_cons_some (if_pos rfl)
    | _ => exact ih

theorem off_answer {y : Nat} {P : Nat → Prop} {r : Packet} {es : List Effect} (hh : h ≠ y)
    (he : ∀ e ∈ es, (∃ d m, e = .notify d m) ∨ (∃ k sid i, e = .startTimer k sid i ∧ ¬P k) ∨ ∃ k, e = .abortTimer k ∧ ¬P k) :
    ∀ o ∈ Out.send y r :: es.map (.effect y), Off h P o := by
  intro o ho
  rcases List.mem_cons.mp ho with rfl | ho
  · exact fun e => hh e.symm
  · obtain ⟨e, hm, rfl⟩ := List.mem_map.mp ho
    rcases he e hm with ⟨d, m, rfl⟩ | ⟨k, sid, i, rfl, hk⟩ | ⟨k, rfl, hk⟩
    · exact fun e => hh e.symm
    · exact ⟨fun e => hh e.symm, hk⟩
    · exact hk

/-- The device of a stage answers the command that is pending. -/
theorem Good.answer {p : Plan} {b : Nat} {g : Stage} {H : Host} (hg : Good p late lag h b g) (hlag : lag < 250000)
    (ha : At late lag s h H g) (hb : H.born = b) (hi : s.clock.sys.Inv) (hpr : s.clock.sys.pica.Reachable)
    (hlen : s.stamps.length = s.clock.sys.queue.length)
    (hin : InTime late lag t s) (hpast : ∀ a ∈ s.stamps, a ≤ t) {x : Bytes} {q : List Command} (hq : s.clock.sys.queue = .uciPacket h x :: q)
    (est : Nat → Nat → Option RangingMeasurement) (sc : Nat → List Statement) :
    ∃ (d : Device) (r : Packet) (es : List Effect), s.clock.sys.pica.step (s.clock.sys.env est) (.uciPacket h x) =
        .ok ({ s.clock.sys.pica with devices := s.clock.sys.pica.devices.insert h d }, .send h r :: es.map (.effect h)) ∧
      (∀ e ∈ es, (∃ d m, e = .notify d m) ∨ (∃ sid i, e = .startTimer s.clock.sys.spawned sid i) ∨
        ∃ k, e = .abortTimer k ∧ (⟨k, h, 0, false⟩ : Timer) ∈ s.clock.sys.timers) ∧
      ∃ st, Moves h (.at b g) st ∧ Okay p late lag h st ∧ Is late lag
        (processed sc t s { s.clock.sys.pica with devices := s.clock.sys.pica.devices.insert h d } q (.send h r :: es.map (.effect h))) h st := by
  obtain ⟨a, rr, hp⟩ := mem_of_pending hlen hq (show about (.uciPacket h x) = some h from rfl)
  have hpast := hpast a (mem_pending (by rw [hp]; exact List.mem_cons_self)).1
  rw [ha.queue] at hp
  have ht := ha.deadline hin hg.due
  have hreset : ∀ {d : Device} {c : Cmd}, d.isReset = true → Ready d c := fun h => .inl h
  have hself : ∀ d, (s.clock.sys.pica.devices.insert h d).get? h = some d := fun d => AMap.get?_insert_self _ _ _
  have hplain : ∀ {x : Statement} {l : List Statement}, Plain (x :: l) → Plain l := fun hp o n hm => hp o n (List.mem_cons_of_mem _ hm)
  cases hg with
  | reset h0 h1 hc =>
    cases hp
    have ht' : t ≤ a + lag := ht
    refine ⟨dev₁ h, .rsp (.coreDeviceReset .ok), [.notify 5 (.coreDeviceStatus .deviceStateReady)],
      answered ha.dev (.inr ⟨_, rfl⟩) hc (exec_reset h _) (by decide +kernel), ?_, .at b _,
      ⟨rfl, fun _ _ => fresh_none rfl, (by exact hplain)⟩, .resetRsp (lo := t) (by omega) (by omega), H.hear t (.rsp (.coreDeviceReset .ok)), hb, ?_⟩
    · intro e he
      rw [List.mem_singleton] at he
      exact .inl ⟨_, _, he⟩
    · exact ha.answer (tm := none) (ns := [(t + 5000, .coreDeviceStatus .deviceStateReady)]) hlen hq rfl (hself _) (n := second) rfl reads_resetRsp hin (fun _ => rfl) (by rfl)
        (naps_effects t h _) ha.timer (by show t ≤ t + 5000 + late; omega)
  | init h0 h1 hc =>
    cases hp
    have ht' : t ≤ a + lag := ht
    refine ⟨made p h, .rsp (.sessionInit .ok), [.notify 1 (.sessionStatus 0 sessionStateInit 0)],
      answered ha.dev (hreset rfl) hc (exec_init h _ p) (by decide +kernel), ?_, .at b _,
      ⟨rfl, fun _ _ => fresh_sess, (by exact hplain)⟩, .initRsp (lo := t) (by omega) (by omega), H.hear t (.rsp (.sessionInit .ok)), hb, ?_⟩
    · intro e he
      rw [List.mem_singleton] at he
      exact .inl ⟨_, _, he⟩
    · exact ha.answer (tm := none) (ns := [(t + 1000, .sessionStatus 0 sessionStateInit 0)]) hlen hq rfl (hself _) (n := second) rfl reads_initRsp hin (fun _ => rfl) (by rfl)
        (naps_effects t h _) ha.timer (by show t ≤ t + 1000 + late; omega)
  | config h0 h1 hc =>
    cases hp
    have ht' : t ≤ a + lag := ht
    refine ⟨idle p h 0 [], .rsp (.sessionSetAppConfig .ok []), [.notify 1 (.sessionStatus 0 sessionStateIdle 0)],
      answered ha.dev (hreset rfl) hc (exec_config h _ p) (by decide +kernel), ?_, .at b _,
      ⟨rfl, fun _ _ => fresh_sess, (by exact hplain)⟩, .configRsp (lo := t) (by omega) (by omega), H.hear t (.rsp (.sessionSetAppConfig .ok [])), hb, ?_⟩
    · intro e he
      rw [List.mem_singleton] at he
      exact .inl ⟨_, _, he⟩
    · exact ha.answer (tm := none) (ns := [(t + 1000, .sessionStatus 0 sessionStateIdle 0)]) hlen hq rfl (hself _) (n := second) rfl reads_configRsp hin (fun _ => rfl) (by rfl)
        (naps_effects t h _) ha.timer (by show t ≤ t + 1000 + late; omega)
  | sent h0 h1 h2 hc =>
    cases hp
    rename_i i dst
    have ht' : t ≤ a + lag := ht
    have e := piece_answered (env := s.clock.sys.env est) hpr ha.dev (p.type_of h0) hc
    rw [p.take_next i] at e
    refine ⟨idle p h 0 (p.file.take ((i + 1) * 1024)), .ntf (.sessionDataCredit 0 .creditAvailable), [], e, ?_, .at b _,
      ⟨rfl, fun _ _ => fresh_sess, (by exact hplain)⟩,
      .part (lo := t) (i := i + 1) h0 (by omega) (by rw [Nat.add_mul]; omega), H.hear t (.ntf (.sessionDataCredit 0 .creditAvailable)), hb, ?_⟩
    · intro e he
      cases he
    · refine ha.answer (tm := none) (ns := []) hlen hq rfl (hself _) (n := second) rfl reads_credit hin (fun _ => rfl) (by rfl)
        (naps_effects t h []) ha.timer ?_
      show t ≤ Stage.deadline late lag ⟨idle p h 0 (p.file.take ((i + 1) * 1024)), [], [], none, t, p.parts (i + 1) ++ p.run⟩
      rcases p.parts_run h0 with ⟨-, e⟩ | ⟨-, e⟩ <;> rw [e] <;> exact Nat.le_add_right _ _
  | start h0 h1 hc =>
    cases hp
    have ht' : t ≤ a + lag := ht
    refine ⟨busy p h 0 p.file s.clock.sys.spawned, .rsp (.sessionStart .ok),
      [.startTimer s.clock.sys.spawned 0 1000, .notify 1 (.sessionStatus 0 sessionStateActive 0),
        .notify 5 (.coreDeviceStatus .deviceStateActive)],
      answered ha.dev (hreset rfl) hc (exec_start h _ p _) (by decide +kernel), ?_, .at b _,
      ⟨rfl, fun _ _ => fresh_sess, (by exact hplain)⟩, .startRsp (lo := t) (k := s.clock.sys.spawned) (by omega) (by omega),
      H.hear t (.rsp (.sessionStart .ok)), hb, ?_⟩
    · intro e he
      simp only [List.mem_cons, List.not_mem_nil, or_false] at he
      rcases he with rfl | rfl | rfl
      · exact .inr (.inl ⟨_, _, rfl⟩)
      · exact .inl ⟨_, _, rfl⟩
      · exact .inl ⟨_, _, rfl⟩
    · refine ha.answer (tm := some (s.clock.sys.spawned, t + 1000000)) (ns := [(t + 1000, .sessionStatus 0 sessionStateActive 0), (t + 5000, .coreDeviceStatus .deviceStateActive)]) hlen hq rfl (hself _) (n := second) rfl reads_startRsp hin (fun _ => rfl) (by rfl)
        (naps_effects t h _)
        (alarm_start (es := [.notify 1 (.sessionStatus 0 sessionStateActive 0), .notify 5 (.coreDeviceStatus .deviceStateActive)])
          hi ha.timer ?_) (by show t ≤ t + 1000 + late; omega)
      intro e he
      simp only [List.mem_cons, List.not_mem_nil, or_false] at he
      rcases he with rfl | rfl <;> exact ⟨_, _, rfl⟩
  | stop hseq h0 h1 h2 hc =>
    cases hp
    rename_i k due seq
    have ht' : t ≤ a + lag := ht
    refine ⟨idle p h seq [], .rsp (.sessionStop .ok),
      [.abortTimer k, .notify 1 (.sessionStatus 0 sessionStateIdle 0), .notify 5 (.coreDeviceStatus .deviceStateReady)],
      answered ha.dev (hreset rfl) hc (exec_stop h _ k seq [] p) (by decide +kernel), ?_, .at b _,
      ⟨rfl, fun _ hf => absurd hf (not_fresh hseq), (by exact hplain)⟩, .stopRsp (lo := t) hseq (fun hl => Nat.le_trans (h0 hl) hpast) (by omega), H.hear t (.rsp (.sessionStop .ok)), hb, ?_⟩
    · intro e he
      simp only [List.mem_cons, List.not_mem_nil, or_false] at he
      rcases he with rfl | rfl | rfl
      · exact .inr (.inr ⟨_, rfl, (ha.timer.2 _ _ rfl).1⟩)
      · exact .inl ⟨_, _, rfl⟩
      · exact .inl ⟨_, _, rfl⟩
    · refine ha.answer (tm := none) (ns := [(t + 1000, .sessionStatus 0 sessionStateIdle 0), (t + 5000, .coreDeviceStatus .deviceStateReady)]) hlen hq rfl (hself _) (n := second) rfl reads_stopRsp hin (fun _ => rfl) (by rfl)
        (naps_effects t h _)
        (alarm_stop (es := [.notify 1 (.sessionStatus 0 sessionStateIdle 0), .notify 5 (.coreDeviceStatus .deviceStateReady)])
          ha.timer (by omega) ?_) (by show t ≤ t + 1000 + late; omega)
      intro e he
      simp only [List.mem_cons, List.not_mem_nil, or_false] at he
      rcases he with rfl | rfl <;> exact ⟨_, _, rfl⟩
  | deinit hseq h0 h1 hc =>
    cases hp
    rename_i seq
    have ht' : t ≤ a + lag := ht
    refine ⟨dev₁ h, .rsp (.sessionDeinit .ok), [.notify 1 (.sessionStatus 0 sessionStateDeinit 0)],
      answered ha.dev (hreset rfl) hc (exec_deinit h _ seq [] p) (by decide +kernel), ?_, .done b t,
      ⟨rfl, fun _ hf => absurd hf (not_fresh hseq)⟩, ⟨fun hl => Nat.le_trans (h0 hl) hpast, by unfold Plan.bound; omega⟩, H.hear t (.rsp (.sessionDeinit .ok)), hb, ?_⟩
    · intro e he
      rw [List.mem_singleton] at he
      exact .inl ⟨_, _, he⟩
    · have hw := ha.waits
      have hw' := Waits.arrive (t := t) (rest := []) (x := .packet (.sessionDeinitRsp 0)) (n := second) hw reads_deinitRsp hin.now
      refine ⟨?_, ?_, ha.timer, post_self ha.host, hw', Nat.le_refl _, fun _ => Nat.le_add_right _ _⟩
      · intro d hd
        have hd' : (s.clock.sys.pica.devices.insert h (dev₁ h)).get? h = some d := hd
        rw [AMap.get?_insert_self] at hd'
        cases hd'
        rfl
      · have := ha.queue
        rw [hq] at this
        intro z hz
        cases hst : s.stamps with
        | nil => rw [hst, hq] at hlen; cases hlen
        | cons b as =>
          rw [hst, pending_pop, if_pos (show about (.uciPacket h x) = some h from rfl)] at this
          have e : pending h as q = [] := (List.cons.inj this).2
          have hz' : z ∈ pending h s.stamps.tail q := hz
          rw [hst, List.tail_cons, e] at hz'
          cases hz'
  | _ => cases hp

theorem conns_sends {out : List Out} (ho : ∀ x ∈ out, ∃ k pkt, x = .send k pkt) (S : System) : out.foldl System.apply S = S := by
  induction out generalizing S with
  | nil => rfl
  | cons o out ih =>
    obtain ⟨k, p, rfl⟩ := ho o List.mem_cons_self
    exact ih (fun o h => ho o (List.mem_cons_of_mem _ h)) S

theorem wakes_sends {out : List Out} (ho : ∀ x ∈ out, ∃ k pkt, x = .send k pkt) (w : AMap Nat (Nat × Nat)) : out.foldl (Clock.alarm t) w = w := by
  induction out generalizing w with
  | nil => rfl
  | cons o out ih =>
    obtain ⟨k, p, rfl⟩ := ho o List.mem_cons_self
    exact ih (fun o h => ho o (List.mem_cons_of_mem _ h)) w

theorem naps_sends {out : List Out} (ho : ∀ x ∈ out, ∃ k pkt, x = .send k pkt) : out.filterMap (Clock.nap t) = [] := by
  rw [List.filterMap_eq_nil_iff]
  intro o hm
  obtain ⟨k, p, rfl⟩ := ho o hm
  rfl

open Classical in
/-- A round of the session of a stage. -/
theorem Good.round {p : Plan} {b : Nat} {g : Stage} {H : Host} (hg : Good p late lag h b g) (hlag : lag < 250000)
    (ha : At late lag s h H g) (hb : H.born = b) (hpr : s.clock.sys.pica.Reachable) (hlen : s.stamps.length = s.clock.sys.queue.length)
    (hin : InTime late lag t s) (hpast : ∀ a ∈ s.stamps, a ≤ t) {sid : UInt32} {q : List Command} (hq : s.clock.sys.queue = .ranging h sid :: q)
    (est : Nat → Nat → Option RangingMeasurement) (sc : Nat → List Statement)
    (hs : sid = 0 → ∃ y, s.clock.sys.pica.step (s.clock.sys.env est) (.ranging h 0) = .ok y) :
    ∃ (d : Device) (out : List Out) (seq : UInt32) (data : Bytes) (k : Nat),
      s.clock.sys.pica.step (s.clock.sys.env est) (.ranging h sid) =
        .ok ({ s.clock.sys.pica with devices := s.clock.sys.pica.devices.insert h d }, out) ∧
      (∀ x ∈ out, ∃ k pkt, x = .send k pkt) ∧ g.dev = busy p h seq data k ∧
      (∀ k', k' ≠ h → if ∃ q', s.clock.sys.pica.devices.get? k' = some q' ∧
          Gets h 0 (sess h p.type sessionStateActive seq data p.config (some k)) k' q' ∧
          ¬Unseen est h 0 (sess h p.type sessionStateActive seq data p.config (some k)) k' q' then
        Spec.sentTo k' out = [.data (parcel p data)] else Spec.sentTo k' out = []) ∧
      (Fresh g.dev → data = p.file ∧ b + 1012000 ≤ t) ∧
      ∃ g', (Plain g.rest → Plain g'.rest) ∧ Good p late lag h b g' ∧ Is late lag
        (processed sc t s { s.clock.sys.pica with devices := s.clock.sys.pica.devices.insert h d } q out) h (.at b g') := by
  obtain ⟨a, rr, hp⟩ := mem_of_pending hlen hq (show about (.ranging h sid) = some h from rfl)
  have hpast := hpast a (mem_pending (by rw [hp]; exact List.mem_cons_self)).1
  rw [ha.queue] at hp
  have ht := ha.deadline hin hg.due
  have hself : ∀ d, (s.clock.sys.pica.devices.insert h d).get? h = some d := fun d => AMap.get?_insert_self _ _ _
  have hplain : ∀ {x : Statement} {l : List Statement}, Plain (x :: l) → Plain l := fun hp o n hm => hp o n (List.mem_cons_of_mem _ hm)
  have hear : ∀ {out : List Out} {pkt : Packet}, (∀ x ∈ out, ∃ k pkt, x = .send k pkt) → Spec.sentTo h out = [pkt] →
      (out.foldl (hears sc t) s.hosts).get? h = some (H.hear t pkt) := by
    intro out pkt ho he
    rw [hears_sends ho, ha.host, he]
    rfl
  have alarm : ∀ {out : List Out} {p' : Pica} {tm : Option (Nat × Nat)}, (∀ x ∈ out, ∃ k pkt, x = .send k pkt) → Alarm s.clock h tm →
      Alarm (processed sc t s p' q out).clock h tm := by
    intro out p' tm ho hA
    unfold processed Alarm
    dsimp only
    rw [conns_sends ho, wakes_sends ho]
    exact hA
  have naps : ∀ {out : List Out}, (∀ x ∈ out, ∃ k pkt, x = .send k pkt) → Props.napsOf h (out.filterMap (Clock.nap t)) = [] := by
    intro out ho
    rw [naps_sends ho]
    rfl
  have conn : ∀ {out : List Out}, (∀ x ∈ out, ∃ k pkt, x = .send k pkt) → ∀ S : System, (out.foldl System.apply S).conns = S.conns := by
    intro out ho S
    rw [conns_sends ho]
  cases hg with
  | round₁ h0 h1 h2 h3 =>
    rename_i lo k r
    cases hp
    have ht' : t ≤ a + lag := ht
    obtain ⟨ms, out, h4, h5, hok, h6, h7, h8⟩ := round_ok hpr ha.dev (hs rfl)
    refine ⟨_, out, _, _, k, h4, h6, rfl, h8, fun _ => ⟨rfl, by omega⟩, ?_⟩
    have hw := ha.waits
    rcases middle_cons p with ⟨f, hk, e⟩ | ⟨hk, e⟩
    · refine ⟨_, ?_, .ahead (lo := lo) (k := k) (r := a) hk h0 h1, H.hear t (.ntf (.sessionInfo 0 0 0 0 ms [])), hb, ?_⟩
      · intro hpl
        have : Plain (p.middle ++ closing) := hpl
        rw [e] at this
        exact absurd List.mem_cons_self (this _ _)
      · have hw' : Waits lag s.clock.now H lo (p.middle ++ closing) := hw
        rw [e] at hw'
        exact ha.after (tm := some (k, a + 1000000)) (ns := []) hlen hq rfl (hself _) (conn h6) (hear h6 h7)
          (hw'.arriveAhead rfl (reads_info h5 hok) hin.now) (Nat.le_trans ha.lo hin.now) (naps h6) (alarm h6 ha.timer)
          (by show t ≤ a + 1000000 + lag; omega)
    · refine ⟨_, ?_, .info₁ (lo := t) (k := k) (r := a) hk h1 h2 hpast, H.hear t (.ntf (.sessionInfo 0 0 0 0 ms [])), hb, ?_⟩
      · intro hpl
        have : Plain (p.middle ++ closing) := hpl
        rw [e] at this
        exact hplain this
      · have hw' : Waits lag s.clock.now H lo (p.middle ++ closing) := hw
        rw [e] at hw'
        exact ha.after (tm := some (k, a + 1000000)) (ns := []) hlen hq rfl (hself _) (conn h6) (hear h6 h7)
          (hw'.arrive (reads_info h5 hok) hin.now) (Nat.le_refl _) (naps h6) (alarm h6 ha.timer)
          (by show t ≤ a + 1000000 + lag; omega)
  | round₂ h0 h1 h2 h3 =>
    rename_i lo k r
    cases hp
    have ht' : t ≤ a + lag := ht
    obtain ⟨ms, out, h4, h5, hok, h6, h7, h8⟩ := round_ok hpr ha.dev (hs rfl)
    have hlo : lo ≤ t := Nat.le_trans ha.lo hin.now
    refine ⟨_, out, _, _, k, h4, h6, rfl, h8, (fun hf => absurd hf (not_fresh (by decide))), _, hplain,
      .halt (lo := t) (k := k) (due := a + 1000000) (seq := 1 + 1) (by decide) (fun _ => by omega) (by rw [h0.limit]; omega) (by omega),
      H.hear t (.ntf (.sessionInfo 1 0 0 0 ms [])), hb, ?_⟩
    exact ha.after (tm := some (k, a + 1000000)) (ns := []) hlen hq rfl (hself _) (conn h6) (hear h6 h7)
      (Waits.arrive (n := 2 * second) ha.waits (reads_info h5 hok) hin.now) (Nat.le_refl _) (naps h6) (alarm h6 ha.timer)
      (by show t ≤ t + 2 * lag; omega)
  | dataRound h0 h1 h2 h3 =>
    rename_i lo k r f
    cases hp
    have ht' : t ≤ a + lag := ht
    obtain ⟨ms, out, h4, h5, hok, h6, h7, h8⟩ := round_ok hpr ha.dev (hs rfl)
    refine ⟨_, out, _, _, k, h4, h6, rfl, h8, (fun hf => ⟨(Plan.file_take h0).symm, by omega⟩), _, hplain,
      .halt (lo := t) (k := k) (due := a + 1000000) (seq := 0 + 1) (by decide) (fun _ => by omega) (by rw [Plan.limit_take h0]; omega) (by omega),
      H.hear t (.ntf (.sessionInfo 0 0 0 0 ms [])), hb, ?_⟩
    exact ha.after (tm := some (k, a + 1000000)) (ns := []) hlen hq rfl (hself _) (conn h6) (hear h6 h7)
      (Waits.arrive (n := 2 * second) ha.waits (reads_info h5 hok) hin.now) (Nat.le_refl _) (naps h6) (alarm h6 ha.timer)
      (by show t ≤ t + 2 * lag; omega)
  | _ => cases hp

end Pica.Tests
