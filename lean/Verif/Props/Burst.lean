import Verif.Proofs.Burst
import Verif.Proofs.Machine
import Verif.Proofs.SystemExamples
import Verif.Proofs.PanicWitness
import Verif.Props.Notices
import Verif.Props.Ranging
import Verif.Props.Answers
/-! C119: what one command sets off. -/

namespace Pica.Props
open Spec

/-- C119: no command puts more than one packet on the channel to a host; and only the packets of that host and rounds do. -/
theorem C119_packets (p p' : Pica) (hp : p.Reachable) (env : Env) (c : Command) (out : List Out)
    (h : p.step env c = .ok (p', out)) (x : Nat) :
    (Spec.sentTo x out).length ≤ 1 ∧
      (Spec.sentTo x out ≠ [] → (∃ b, c = .uciPacket x b) ∨ ∃ y sid, c = .ranging y sid) := by
  obtain ⟨tr, hr⟩ := hp
  have hi := Pica.run_inv hr Pica.pinv_new
  have quiet : (∀ y ∈ out, ∀ q, y ≠ .send x q) → (Spec.sentTo x out).length ≤ 1 ∧
      (Spec.sentTo x out ≠ [] → (∃ b, c = .uciPacket x b) ∨ ∃ y sid, c = .ranging y sid) := fun hq => by
    rw [sentTo_eq_nil hq]
    exact ⟨Nat.zero_le _, fun hn => absurd rfl hn⟩
  cases c with
  | connect =>
    cases h
    refine quiet fun y hy q => ?_
    rcases List.mem_append.mp hy with hy | hy
    · obtain ⟨z, -, rfl⟩ := List.mem_map.mp hy; simp
    · cases List.mem_singleton.mp hy; simp
  | disconnect k =>
    change Except.ok (p.disconnect k) = _ at h
    unfold Pica.disconnect at h
    split at h
    · cases h
      refine quiet fun y hy q => ?_
      rcases List.mem_cons.mp hy with rfl | hy
      · simp
      · obtain ⟨z, -, rfl⟩ := List.mem_map.mp hy; simp
    · cases h
      exact quiet fun y hy => absurd hy (by simp)
  | ranging k sid =>
    obtain ⟨d, s, ms, o, -, -, -, hsent, -, hself, hout⟩ := round_ok hi h
    refine ⟨?_, fun _ => .inr ⟨k, sid, rfl⟩⟩
    have ho : (Spec.sentTo x o).length ≤ 1 := by
      have := hsent x
      split at this
      · obtain ⟨mac, -, e⟩ := this
        rw [e]
        exact Nat.le_refl _
      · rw [this]; exact Nat.zero_le _
    rcases hout with ⟨-, rfl, -⟩ | ⟨-, rfl, -⟩
    · rw [Pica.sentTo_append, sentTo_send]
      split
      · rename_i e
        subst e
        rw [hself]
        exact Nat.le_refl _
      · rw [List.append_nil]; exact ho
    · exact ho
  | stopRanging mac sid =>
    cases h
    refine quiet fun y hy q => ?_
    obtain ⟨e, -, he⟩ := List.mem_flatMap.mp hy
    obtain ⟨z, -, rfl⟩ := List.mem_map.mp he
    simp
  | uciPacket k b =>
    change p.uciPacket env k b = _ at h
    unfold Pica.uciPacket at h
    cases hg : p.devices.get? k with
    | none =>
      rw [hg] at h; cases h
      exact quiet fun y hy => absurd hy (by simp)
    | some d =>
      rw [hg] at h
      cases hr : d.receivePacket env.tid b with
      | error z => simp only [hr] at h; cases h
      | ok z =>
        obtain ⟨d', r, e⟩ := z
        simp only [hr] at h
        cases h
        rw [Pica.sentTo_append, sentTo_map, List.append_nil]
        cases r with
        | none => exact ⟨Nat.zero_le _, fun hn => absurd rfl hn⟩
        | some q =>
          show (Spec.sentTo x [Out.send k q]).length ≤ 1 ∧ (Spec.sentTo x [Out.send k q] ≠ [] → _)
          rw [sentTo_send]
          split
          · rename_i hk
            exact ⟨Nat.le_refl _, fun _ => .inl ⟨b, by rw [hk]⟩⟩
          · exact ⟨Nat.zero_le _, fun hn => absurd rfl hn⟩
  | createAnchor mac =>
    change p.createAnchor mac = _ at h
    unfold Pica.createAnchor at h
    split at h
    · cases h
      exact quiet fun y hy q => by cases List.mem_singleton.mp hy; simp
    · split at h
      · cases h
      · cases h
        exact quiet fun y hy q => by cases List.mem_singleton.mp hy; simp
  | destroyAnchor mac =>
    change Except.ok (p.destroyAnchor mac) = _ at h
    unfold Pica.destroyAnchor at h
    split at h
    · cases h
      exact quiet fun y hy q => by cases List.mem_singleton.mp hy; simp
    · cases h
      exact quiet fun y hy q => by cases List.mem_singleton.mp hy; simp

/-- C119: a command schedules at most one notification more for a host than it has sessions, so 256 at most; it starts at most one
ranging task, and tasks that send at most 255 * 255 in-band stops, and these only if it is a packet of that host. -/
theorem C119_tasks (p p' : Pica) (hp : p.Reachable) (env : Env) (c : Command) (out : List Out)
    (h : p.step env c = .ok (p', out)) (x : Nat) :
    notices (effectsOf x out) ≤ sessionsOf p x + 1 ∧ notices (effectsOf x out) ≤ 256 ∧
    (started (effectsOf x out)).length ≤ 1 ∧ stopsDue (effectsOf x out) ≤ 255 * 255 ∧
    ((∀ b, c ≠ .uciPacket x b) → started (effectsOf x out) = [] ∧ stopsDue (effectsOf x out) = 0) := by
  obtain ⟨tr, hr⟩ := hp
  have hi := Pica.run_inv hr Pica.pinv_new
  obtain ⟨-, h2, h3, h4, h5⟩ := step_burst hi h x
  refine ⟨h2, ?_, h3, h4, h5⟩
  have : sessionsOf p x ≤ 255 := by
    cases hg : p.devices.get? x with
    | none => rw [sessionsOf_none hg]; omega
    | some d =>
      rw [sessionsOf_some hg]
      exact (hi.dev x d hg).2.2.2.bound
  omega

/-- C119: in a history, a host is scheduled at most two notifications for each of its packets and for each in-band stop, and one
more, whatever the others do; each of its sessions takes one from that. -/
theorem C119_notices (tr : List Pica.Event) (p : Pica) (hr : Pica.Run .new tr p) (x : Nat) :
    notices (historyOf x tr) + sessionsOf p x ≤ 1 + 2 * (packetsFrom x tr + inBandStops tr) := by
  suffices H : notices (historyOf x tr) + sessionsOf p x ≤
      (if x < p.counter then 1 else 0) + 2 * (packetsFrom x tr + inBandStops tr) by split at H <;> omega
  generalize hq : Pica.new = q at hr
  induction hr with
  | nil => subst hq; exact Nat.zero_le _
  | @cmd q r tr env c out hrun hs ih =>
    subst hq
    have hi := Pica.run_inv hrun Pica.pinv_new
    obtain ⟨h1, -⟩ := step_burst hi hs x
    have hcount := Pica.step_counter hs
    have e1 : notices (historyOf x (tr ++ [⟨env, c, out⟩])) = notices (historyOf x tr) + notices (effectsOf x out) := by
      unfold historyOf
      rw [List.flatMap_append, notices_append, List.flatMap_cons, List.flatMap_nil, List.append_nil]
    have e2 : packetsFrom x (tr ++ [⟨env, c, out⟩]) = packetsFrom x tr + packetsFrom x [⟨env, c, out⟩] := List.countP_append ..
    have e3 : inBandStops (tr ++ [⟨env, c, out⟩]) = inBandStops tr + inBandStops [⟨env, c, out⟩] := List.countP_append ..
    have hb : allowance q.counter x c + (if x < q.counter then 1 else 0) ≤ (if x < r.counter then 1 else 0) +
        2 * (packetsFrom x [⟨env, c, out⟩] + inBandStops [⟨env, c, out⟩]) := by
      have h01 : (if x < q.counter then 1 else 0) ≤ (if x < r.counter then 1 else 0) := by
        split
        · rw [if_pos (by omega)]
        · exact Nat.zero_le _
      cases c with
      | uciPacket y b =>
        unfold allowance
        dsimp only
        split
        · rename_i e
          have : packetsFrom x [⟨env, .uciPacket y b, out⟩] = 1 := by simp [packetsFrom, e]
          omega
        · omega
      | stopRanging m sid =>
        have : inBandStops [⟨env, .stopRanging m sid, out⟩] = 1 := rfl
        show 2 + _ ≤ _
        omega
      | connect =>
        unfold allowance
        dsimp only
        split
        · rename_i e
          have : r.counter = q.counter + 1 := by cases hs; rfl
          rw [if_neg (by omega), if_pos (by omega)]
          omega
        · omega
      | _ => show 0 + _ ≤ _; omega
    omega
  | @reorder q r tr hrun ho ih =>
    subst hq
    have hi := Pica.run_inv hrun Pica.pinv_new
    obtain ⟨hc, -, -, hd⟩ := Pica.reorder_dev hi ho
    have : sessionsOf r x = sessionsOf q x := by
      rcases hd x with e | ⟨d, l, h1, h2, h3⟩
      · unfold sessionsOf; rw [e]
      · rw [sessionsOf_some h1, sessionsOf_some h3]; exact h2.length_eq
    rw [this, hc]
    exact ih

/-- C119: in a history, a host is sent at once at most one packet for each of its own packets and for each round of any session. -/
theorem C119_sends (tr : List Pica.Event) (p : Pica) (hr : Pica.Run .new tr p) (x : Nat) :
    (tr.flatMap fun ev => Spec.sentTo x ev.out).length ≤ packetsFrom x tr + roundsIn tr := by
  generalize hq : Pica.new = q at hr
  induction hr with
  | nil => exact Nat.zero_le _
  | @cmd q r tr env c out hrun hs ih =>
    subst hq
    obtain ⟨h1, h2⟩ := C119_packets q r ⟨tr, hrun⟩ env c out hs x
    have e2 : packetsFrom x (tr ++ [⟨env, c, out⟩]) = packetsFrom x tr + packetsFrom x [⟨env, c, out⟩] := List.countP_append ..
    have e3 : roundsIn (tr ++ [⟨env, c, out⟩]) = roundsIn tr + roundsIn [⟨env, c, out⟩] := List.countP_append ..
    rw [List.flatMap_append, List.length_append, List.flatMap_cons, List.flatMap_nil, List.append_nil]
    show _ + (Spec.sentTo x out).length ≤ _
    have : (Spec.sentTo x out).length ≤ packetsFrom x [⟨env, c, out⟩] + roundsIn [⟨env, c, out⟩] := by
      by_cases hn : Spec.sentTo x out = []
      · rw [hn]; exact Nat.zero_le _
      · rcases h2 hn with ⟨b, rfl⟩ | ⟨y, sid, rfl⟩
        · have : packetsFrom x [⟨env, .uciPacket x b, out⟩] = 1 := by simp [packetsFrom]
          omega
        · have : roundsIn [⟨env, .ranging y sid, out⟩] = 1 := rfl
          omega
    omega
  | reorder _ _ ih => exact ih

theorem sent_split (h : Nat) (ls : List System.Label) : (ls.flatMap (sentTo h)).length =
    ((Spec.processed ls).flatMap fun ev => Spec.sentTo h ev.out).length + (arrived h ls).length := by
  induction ls with
  | nil => rfl
  | cons x ls ih =>
    rw [List.flatMap_cons, List.length_append, ih]
    cases x with
    | process ev =>
      have e : arrived h (.process ev :: ls) = arrived h ls := rfl
      rw [e]
      change _ = ((ev :: Spec.processed ls).flatMap fun ev => Spec.sentTo h ev.out).length + _
      rw [List.flatMap_cons, List.length_append, Nat.add_assoc]
      rfl
    | notifies k n =>
      have e : Spec.processed (.notifies k n :: ls) = Spec.processed ls := rfl
      rw [e]
      change (if k = h then [Packet.ntf n] else []).length + _ = _
      by_cases hk : k = h
      · have : arrived h (.notifies k n :: ls) = n :: arrived h ls := by simp [arrived, hk]
        rw [this, if_pos hk, List.length_cons, List.length_cons, List.length_nil]
        omega
      · have : arrived h (.notifies k n :: ls) = arrived h ls := by simp [arrived, hk]
        rw [this, if_neg hk, List.length_nil]
        omega
    | _ => exact Nat.zero_add _

/-- C119: in every schedule, all that is on the way to a host or still to come without a further command is at most three messages
for each packet the host has sent, one for each round, two for each in-band stop, and one. -/
theorem C119_schedule (ls : List System.Label) (s : System) (hr : System.Run .new ls s) (h : Nat) :
    (ls.flatMap (sentTo h)).length + (waiting h s).length ≤
      1 + 3 * (received h ls).length + roundsIn (Spec.processed ls) + 2 * inBandStops (Spec.processed ls) := by
  have h1 := C119_notices _ _ (run_processed hr) h
  have h2 := C119_sends _ _ (run_processed hr) h
  have h3 := (C75_once ls s hr h).length_eq
  rw [List.length_append] at h3
  have h4 : (scheduled h ls).length = notices (historyOf h (Spec.processed ls)) := by
    unfold scheduled
    generalize historyOf h (Spec.processed ls) = es
    induction es with
    | nil => rfl
    | cons x es ih =>
      cases x with
      | notify t n =>
        have : notices (.notify t n :: es) = notices es + 1 := List.countP_cons_of_pos rfl
        rw [this, ← ih]
        rfl
      | _ => exact ih
  have h5 : packetsFrom h (Spec.processed ls) = (Spec.heard h ls).length := by
    clear hr h1 h2 h3 h4
    induction ls with
    | nil => rfl
    | cons x ls ih =>
      cases x with
      | process ev =>
        change packetsFrom h (ev :: Spec.processed ls) = _
        have e : packetsFrom h (ev :: Spec.processed ls) = packetsFrom h [ev] + packetsFrom h (Spec.processed ls) :=
          List.countP_append (l₁ := [ev]) ..
        rw [e, ih]
        obtain ⟨env, c, out⟩ := ev
        cases c with
        | uciPacket k b =>
          by_cases hk : k = h
          · simp [packetsFrom, Spec.heard, hk, Nat.add_comm]
          · simp [packetsFrom, Spec.heard, hk]
        | _ => exact Nat.zero_add _
      | _ => exact ih
  have h6 := (C74_answers ls s hr h).2.length_le
  have h7 := sent_split h ls
  omega

/-- C119: in every schedule, the in-band stops, with those in the queue and those that tasks have still to send, are at most
255 * 255 for each packet that any host has sent and the emulator has processed. -/
theorem C119_stops (ls : List System.Label) (s : System) (hr : System.Run .new ls s) :
    inBandStops (Spec.processed ls) + s.queue.countP (fun c => c matches .stopRanging _ _) + (s.stops.map fun x => x.2.2).sum ≤
      255 * 255 * packetsOfAll (Spec.processed ls) := by
  suffices H : inBandStops (Spec.processed ls) + stopsAhead s ≤ 255 * 255 * packetsOfAll (Spec.processed ls) by
    rw [Nat.add_assoc]
    exact H
  generalize hn : System.new = n at hr
  induction hr with
  | nil => subst hn; exact Nat.le_refl _
  | @step t u ls l hrun _ hst ih =>
    subst hn
    have hp : Spec.processed (ls ++ [l]) = Spec.processed ls ++ Spec.processed [l] := List.filterMap_append ..
    have e1 : inBandStops (Spec.processed (ls ++ [l])) = inBandStops (Spec.processed ls) + inBandStops (Spec.processed [l]) := by
      rw [hp]; exact List.countP_append ..
    have e2 : packetsOfAll (Spec.processed (ls ++ [l])) = packetsOfAll (Spec.processed ls) + packetsOfAll (Spec.processed [l]) := by
      rw [hp]; exact List.countP_append ..
    rw [e1, e2]
    have hq : ∀ (c : Command), (∀ m i, c ≠ .stopRanging m i) → ∀ (v : System), v.queue = t.queue ++ [c] → v.stops = t.stops →
        stopsAhead v = stopsAhead t := by
      intro c hc v h1 h2
      unfold stopsAhead
      rw [h1, h2, List.countP_append]
      cases c with
      | stopRanging m i => exact absurd rfl (hc m i)
      | _ => rfl
    have quiet : stopsAhead u = stopsAhead t → Spec.processed [l] = [] →
        inBandStops (Spec.processed ls) + inBandStops (Spec.processed [l]) + stopsAhead u ≤
          255 * 255 * (packetsOfAll (Spec.processed ls) + packetsOfAll (Spec.processed [l])) := by
      intro h1 h2
      rw [h1, h2]
      exact ih
    cases hst with
    | request he _ => exact quiet (hq _ (by rintro m i rfl; exact he) _ rfl rfl) rfl
    | packet _ _ => exact quiet (hq _ (fun _ _ => by simp) _ rfl rfl) rfl
    | closes _ => exact quiet rfl rfl
    | fails _ => exact quiet rfl rfl
    | leaves _ _ => exact quiet (hq _ (fun _ _ => by simp) _ rfl rfl) rfl
    | tick _ _ => exact quiet (hq _ (fun _ _ => by simp) _ rfl rfl) rfl
    | dies _ _ => exact quiet rfl rfl
    | @inBand m x k hk _ =>
      refine quiet ?_ rfl
      have := ((List.perm_cons_erase hk).map fun x => x.2.2).sum_nat
      unfold stopsAhead
      dsimp only
      rw [List.countP_append, this]
      simp only [List.map_cons, List.sum_cons, List.countP_cons, List.countP_nil]
      simp only [if_true]
      omega
    | notifies _ => exact quiet rfl rfl
    | @process est c q p out hc hs =>
      have hi := Pica.run_inv (run_processed hrun) Pica.pinv_new
      have h1 := step_stops hi hs
      rw [applyAll_ahead]
      have h2 : inBandStops [⟨t.env est, c, out⟩] + stopsAhead { t with pica := p, queue := q, spawned := t.spawned + 1 } =
          stopsAhead t := by
        unfold stopsAhead
        rw [hc]
        dsimp only
        rw [List.countP_cons]
        cases c with
        | stopRanging m i =>
          have : inBandStops [⟨t.env est, .stopRanging m i, out⟩] = 1 := rfl
          rw [this]
          simp only [if_true]
          omega
        | _ => exact Nat.zero_add _
      change inBandStops (Spec.processed ls) + inBandStops [⟨t.env est, c, out⟩] + _ ≤
        255 * 255 * (packetsOfAll (Spec.processed ls) + packetsOfAll [⟨t.env est, c, out⟩])
      rw [Nat.mul_add]
      omega
    | panics hc _ =>
      change inBandStops (Spec.processed ls) + 0 + _ ≤ 255 * 255 * (packetsOfAll (Spec.processed ls) + 0)
      refine Nat.le_trans ?_ ih
      have : ∀ (c : Command) (q : List Command), t.queue = c :: q → stopsAhead { t with queue := q, stopped := true } ≤ stopsAhead t := by
        intro c q hq
        unfold stopsAhead
        rw [hq]
        dsimp only
        rw [List.countP_cons]
        omega
      have := this _ _ hc
      omega
    | shuffle _ => exact quiet rfl rfl

/-- A controller with two sessions, one of them ACTIVE, is reset: one packet and three notifications. -/
example : ∃ p p' out, p.Reachable ∧ p.step Ex.env (.uciPacket 0 (Ex.cmd 0 0 [0])) = .ok (p', out) ∧ sessionsOf p 0 = 2 ∧
    (Spec.sentTo 0 out).length = 1 ∧ notices (effectsOf 0 out) = 3 := by
  obtain ⟨⟨p, tr⟩, hp, hf⟩ := Ex.exists_ok (x := Ex.play .new Ex.twoActive)
    (f := fun x => (sessionsOf x.1 0, (x.1.step Ex.env (.uciPacket 0 (Ex.cmd 0 0 [0]))).toOption.map fun y =>
      ((Spec.sentTo 0 y.2).length, notices (effectsOf 0 y.2))))
    (b := (2, some (1, 3))) (by decide +kernel)
  have h1 := congrArg Prod.fst hf
  have h2 := congrArg Prod.snd hf
  obtain ⟨⟨p', out⟩, hs, hc⟩ := Option.map_eq_some_iff.mp h2
  refine ⟨p, p', out, ⟨tr, Ex.play_run hp⟩, ?_, h1, congrArg Prod.fst hc, congrArg Prod.snd hc⟩
  cases hx : p.step Ex.env (.uciPacket 0 (Ex.cmd 0 0 [0])) with
  | error z => rw [hx] at hs; cases hs
  | ok z => rw [hx] at hs; cases hs; rfl

/-- Two devices with ACTIVE sessions, a round and an in-band stop of the second: what was set off, and the bounds. -/
example : ∃ tr p, Pica.Run .new tr p ∧
    (notices (historyOf 1 tr), sessionsOf p 1, packetsFrom 1 tr, inBandStops tr) = (8, 1, 4, 1) ∧
    ((tr.flatMap fun ev => Spec.sentTo 0 ev.out).length, packetsFrom 0 tr, roundsIn tr) = (7, 6, 1) := by
  obtain ⟨⟨p, tr⟩, hp, hf⟩ := Ex.exists_ok
    (x := Ex.play .new (Ex.twoActive ++ [(Ex.env, .ranging 0 7), (Ex.env, .stopRanging (.short ⟨[0, 0xb1], rfl⟩) 7)]))
    (f := fun x => ((notices (historyOf 1 x.2), sessionsOf x.1 1, packetsFrom 1 x.2, inBandStops x.2),
      ((x.2.flatMap fun ev => Spec.sentTo 0 ev.out).length, packetsFrom 0 x.2, roundsIn x.2)))
    (b := ((8, 1, 4, 1), (7, 6, 1))) (by decide +kernel)
  exact ⟨tr, p, Ex.play_run hp, congrArg Prod.fst hf, congrArg Prod.snd hf⟩

/-- A schedule with a controller that is ACTIVE: four messages and six that are still to come, of at most thirteen. -/
example : ∃ ls s, System.Run .new ls s ∧ (ls.flatMap (sentTo 0)).length + (waiting 0 s).length = 10 ∧ (received 0 ls).length = 4 := by
  exact ⟨Ex.labels Ex.active, Ex.final Ex.active, Ex.final_run (by decide +kernel), by decide +kernel, by decide +kernel⟩

/-- A controller removes its controlee: one in-band stop is to be sent, after five packets. -/
example : ∃ ls s, System.Run .new ls s ∧ (s.stops.map fun x => x.2.2).sum = 1 ∧ packetsOfAll (Spec.processed ls) = 5 := by
  exact ⟨Ex.labels (Ex.active ++ Ex.send 0 (Ex.removeOne 7 0x00 0xb1)), Ex.final (Ex.active ++ Ex.send 0 (Ex.removeOne 7 0x00 0xb1)),
    Ex.final_run (by decide +kernel), by decide +kernel, by decide +kernel⟩

/-- A controller with eight controlees, an attempt count of 255 and no ranging at all removes them: one packet that sets off 2040
in-band stops. -/
example : ∃ (p p' : Pica) (out : List Out) (b : Bytes), p.Reachable ∧ p.step Ex.env (.uciPacket 0 b) = .ok (p', out) ∧ b.length = 58 ∧
    stopsDue (effectsOf 0 out) = 2040 := by
  let as := [(Ex.env, Command.connect), Ex.pkt 0 Ex.reset, Ex.pkt 0 (Ex.sessionInit 7 1), Ex.pkt 0 (Ex.setApp 7 9
    [0x00, 1, 1, 0x01, 1, 2, 0x03, 1, 1, 0x05, 1, 8, 0x06, 2, 0x00, 0xa0, 0x07, 16, 0, 0, 1, 0, 2, 0, 3, 0, 4, 0, 5, 0, 6, 0, 7, 0,
     0x11, 1, 1, 0x22, 1, 1, 0x2f, 1, 255])]
  let b := Ex.cmd 1 7 ([7, 0, 0, 0, 1, 8] ++ (List.range 8).flatMap fun i => [UInt8.ofNat i, 0, 0, 0, 0, 0])
  obtain ⟨⟨p, tr⟩, hp, hf⟩ := Ex.exists_ok (x := Ex.play .new as)
    (f := fun x => (x.1.step Ex.env (.uciPacket 0 b)).toOption.map fun y => stopsDue (effectsOf 0 y.2))
    (b := some 2040) (by decide +kernel)
  obtain ⟨⟨p', out⟩, hs, hc⟩ := Option.map_eq_some_iff.mp hf
  refine ⟨p, p', out, b, ⟨tr, Ex.play_run hp⟩, ?_, by decide +kernel, hc⟩
  cases hx : p.step Ex.env (.uciPacket 0 b) with
  | error z => rw [hx] at hs; cases hs
  | ok z => rw [hx] at hs; cases hs; rfl

theorem roundsIn_append (a b : List Pica.Event) : roundsIn (a ++ b) = roundsIn a + roundsIn b := List.countP_append ..

theorem inBandStops_append (a b : List Pica.Event) : inBandStops (a ++ b) = inBandStops a + inBandStops b := List.countP_append ..

/-- C119: the rounds in the bound on what a host is sent are needed: after four packets of its own, and with no in-band stop, a host
alone can be sent any number of messages below 2^32, one for each round. -/
theorem C119_flood (n : Nat) (hn : n < 2 ^ 32) : ∃ ls s, System.Run .new ls s ∧ s.stopped = false ∧ (received 0 ls).length = 4 ∧
    inBandStops (Spec.processed ls) = 0 ∧ roundsIn (Spec.processed ls) = n ∧
    (ls.flatMap (sentTo 0)).length + (waiting 0 s).length = n + 10 := by
  suffices H : ∃ ls s, Ex.Alone n ls s ∧ (received 0 ls).length = 4 ∧ inBandStops (Spec.processed ls) = 0 ∧
      roundsIn (Spec.processed ls) = n ∧ (ls.flatMap (sentTo 0)).length + (waiting 0 s).length = n + 10 by
    obtain ⟨ls, s, ha, h⟩ := H
    exact ⟨ls, s, ha.run, ha.up, h⟩
  induction n with
  | zero =>
    exact ⟨_, _, Ex.alone_zero, by decide +kernel, by decide +kernel, by decide +kernel, by decide +kernel⟩
  | succ n ih =>
    obtain ⟨ls, s, ha, h1, h2, h3, h4⟩ := ih (by omega)
    obtain ⟨t, ⟨env, c, out⟩, s', r, ha', hw, hc, ho⟩ := Ex.alone_succ ha hn
    subst hc ho
    have e : Spec.processed (ls ++ [.tick t] ++ [.process ⟨env, .ranging 0 7, [.send 0 (.ntf r)]⟩]) =
        Spec.processed ls ++ [⟨env, .ranging 0 7, [.send 0 (.ntf r)]⟩] := by
      unfold Spec.processed
      rw [List.append_assoc, List.filterMap_append]
      rfl
    refine ⟨_, s', ha', ?_, ?_, ?_, ?_⟩
    · unfold received at h1 ⊢
      rw [List.append_assoc, List.filterMap_append]
      simpa using h1
    · rw [e, inBandStops_append, h2]; rfl
    · rw [e, roundsIn_append, h3]; rfl
    · have : waiting 0 s' = waiting 0 s := by unfold waiting; rw [hw]
      rw [this, List.append_assoc, List.flatMap_append, List.length_append]
      change _ + 1 + _ = _
      omega

/-- The largest of these: 2^32 - 1 rounds, told by 4294967305 messages. -/
example : ∃ ls s, System.Run .new ls s ∧ (received 0 ls).length = 4 ∧ (ls.flatMap (sentTo 0)).length + (waiting 0 s).length = 4294967305 := by
  obtain ⟨ls, s, h1, -, h2, -, -, h3⟩ := C119_flood (2 ^ 32 - 1) (by decide)
  exact ⟨ls, s, h1, h2, h3⟩

/-- The steps that lead to two devices in the ACTIVE session 7, the first of which is told nothing of its rounds. -/
def quietPair : List Ex.Act :=
  [.request .connect, .process] ++ Ex.send 0 Ex.reset ++ Ex.send 0 (Ex.sessionInit 7 1) ++
    Ex.send 0 (Ex.setApp 7 9 (Ex.controller ++ [0x0e, 1, 0])) ++ Ex.send 0 (Ex.start 7) ++
  [.request .connect, .process] ++ Ex.send 1 Ex.reset ++ Ex.send 1 (Ex.sessionInit 7 1) ++
    Ex.send 1 (Ex.setApp 7 8 Ex.controlee) ++ Ex.send 1 (Ex.start 7)

/-- The state after these. -/
def quietState : System := Ex.final quietPair

theorem quiet_round (k : Nat) : quietState.pica.step ({ quietState with spawned := k }.env Ex.env.estimate) (.ranging 0 7) =
    .ok (quietState.pica, [.send 1 (.data ⟨7, .ok, 0xa000, 1, []⟩)]) := by
  have e : quietState.pica.step ({ quietState with spawned := k }.env Ex.env.estimate) (.ranging 0 7) =
      quietState.pica.step (quietState.env Ex.env.estimate) (.ranging 0 7) := rfl
  obtain ⟨y, hy, hb⟩ := Ex.exists_ok (x := quietState.pica.step (quietState.env Ex.env.estimate) (.ranging 0 7))
    (f := fun y => (y.1, match y.2 with | [.send h (.data m)] => some (h, m) | _ => none))
    (b := (quietState.pica, some (1, ⟨7, .ok, 0xa000, 1, []⟩))) (by decide +kernel)
  rw [e, hy]
  obtain ⟨p, out⟩ := y
  rw [Prod.mk.injEq] at hb
  obtain ⟨rfl, hb⟩ := hb
  dsimp only at hb
  split at hb
  · rw [Option.some.injEq, Prod.mk.injEq] at hb
    obtain ⟨rfl, rfl⟩ := hb
    rfl
  · cases hb

/-- C119: the data are sent in every round, also when there are none, and no count limits that: after four packets of its own and
four of its peer, a host can be sent any number of messages. -/
theorem C119_endless (n : Nat) : ∃ ls s, System.Run .new ls s ∧ s.stopped = false ∧ (received 1 ls).length = 4 ∧
    packetsOfAll (Spec.processed ls) = 8 ∧ (ls.flatMap (sentTo 1)).length = n + 4 := by
  suffices H : ∃ ls k, System.Run .new ls { quietState with spawned := k } ∧ (received 1 ls).length = 4 ∧
      packetsOfAll (Spec.processed ls) = 8 ∧ (ls.flatMap (sentTo 1)).length = n + 4 by
    obtain ⟨ls, k, h1, h2⟩ := H
    exact ⟨ls, _, h1, show quietState.stopped = false by decide +kernel, h2⟩
  induction n with
  | zero =>
    exact ⟨Ex.labels quietPair, quietState.spawned, Ex.final_run (by decide +kernel), by decide +kernel, by decide +kernel,
      by decide +kernel⟩
  | succ n ih =>
    obtain ⟨ls, k, hr, h1, h2, h3⟩ := ih
    have hq : quietState.queue = [] := by decide +kernel
    have ht : ∃ t ∈ quietState.timers, t.device = 0 ∧ t.session = 7 := by decide +kernel
    have hu : quietState.stopped = false := by decide +kernel
    obtain ⟨t, ht, e1, e2⟩ := ht
    have r1 := System.Run.step hr hu (System.Step.tick ht (by unfold System.Room; rw [hq]; decide))
    have r2 := System.Run.step r1 hu (System.Step.process (estimate := Ex.env.estimate) (c := .ranging 0 7) (q := [])
      (by rw [hq, e1, e2]; rfl) (quiet_round k))
    have e3 : { quietState with queue := [], spawned := k + 1 } = { quietState with spawned := k + 1 } := by rw [← hq]
    refine ⟨_, k + 1, by rw [← e3]; exact r2, ?_, ?_, ?_⟩
    · unfold received at h1 ⊢
      rw [List.append_assoc, List.filterMap_append]
      simpa using h1
    · have e : ∀ ev, Spec.processed (ls ++ [.tick t] ++ [.process ev]) = Spec.processed ls ++ [ev] := fun ev => by
        unfold Spec.processed
        rw [List.append_assoc, List.filterMap_append]
        rfl
      rw [e]
      unfold packetsOfAll at h2 ⊢
      rw [List.countP_append, h2]
      rfl
    · rw [List.append_assoc, List.flatMap_append, List.length_append, h3]
      change _ + 1 = _
      omega

/-- A million messages after eight packets. -/
example : ∃ ls s, System.Run .new ls s ∧ packetsOfAll (Spec.processed ls) = 8 ∧ 1000000 ≤ (ls.flatMap (sentTo 1)).length := by
  obtain ⟨ls, s, h1, -, -, h2, h3⟩ := C119_endless 1000000
  exact ⟨ls, s, h1, h2, by omega⟩

/-- The reports that a session may still send. -/
def reportsLeft : Option (UInt32 × Bytes × SessionType) → Nat
  | some (n, _, _) => 2 ^ 32 - 1 - n.toNat
  | none => 0

open Classical in
/-- C119: the reports are bounded: at most 2^32 - 1 each time the session is created. -/
theorem C119_reports (tr : List Pica.Event) (p : Pica) (hr : Pica.Run .new tr p) (h : Nat) (sid : UInt32) :
    (infoNumbers h sid tr).length ≤ (2 ^ 32 - 1) * creations h sid tr := by
  suffices H : (infoNumbers h sid tr).length + reportsLeft (bookOf (p.devices.get? h) sid) ≤ (2 ^ 32 - 1) * creations h sid tr by omega
  generalize hq : Pica.new = q at hr
  induction hr with
  | nil => subst hq; exact Nat.le_refl _
  | @reorder q r tr hrun hro ih =>
    subst hq
    rw [book_reorder (Pica.reachable_inv ⟨tr, hrun⟩) hro]
    exact ih
  | @cmd q r tr env c out hrun hs ih =>
    subst hq
    have hstep := book_step h sid (Pica.reachable_inv ⟨tr, hrun⟩) hs
    have e : creations h sid (tr ++ [⟨env, c, out⟩]) = creations h sid tr + if Creates h sid ⟨env, c, out⟩ then 1 else 0 := by
      unfold creations
      rw [List.countP_append, List.countP_singleton]
      simp only [decide_eq_true_eq]
    rw [infoNumbers_append, List.length_append, e, Nat.mul_add]
    generalize bookOf (q.devices.get? h) sid = o at hstep ih
    generalize bookOf (r.devices.get? h) sid = o' at hstep ⊢
    cases hstep with
    | creates _ _ hc hi _ =>
      rw [hi, if_pos hc]
      change _ + 0 + (2 ^ 32 - 1 - 0) ≤ _
      omega
    | ends _ _ hi =>
      rw [hi]
      change _ + 0 + 0 ≤ _
      omega
    | silent n b ty _ _ _ hi =>
      rw [hi]
      change _ + reportsLeft (some (n, b, ty)) ≤ _
      exact Nat.le_add_right_of_le ih
    | info n b ty _ _ _ hi hlt =>
      rw [hi]
      have hn : (n + 1).toNat = n.toNat + 1 := by
        rw [UInt32.toNat_add]
        exact Nat.mod_eq_of_lt hlt
      change _ + 1 + (2 ^ 32 - 1 - (n + 1).toNat) ≤ _
      change _ + (2 ^ 32 - 1 - n.toNat) ≤ _ at ih
      rw [hn]
      omega
    | queue n b c ty _ _ _ hi _ =>
      rw [hi]
      change _ + reportsLeft (some (n, b, ty)) ≤ _
      exact Nat.le_add_right_of_le ih
    | same _ _ _ _ hi _ =>
      rw [hi]
      exact Nat.le_add_right_of_le ih

/-- A session of two rounds, created once. -/
example : ∃ tr p, Pica.Run .new tr p ∧ infoNumbers 0 7 tr = [0, 1] ∧ 1 ≤ creations 0 7 tr := by
  obtain ⟨⟨p, tr⟩, hp, hf⟩ := Ex.exists_ok (x := Ex.play .new (Ex.oneActive ++ [(Ex.env, .ranging 0 7), (Ex.env, .ranging 0 7)]))
    (f := fun x => infoNumbers 0 7 x.2) (b := [0, 1]) (by decide +kernel)
  have hr := Ex.play_run hp
  refine ⟨tr, p, hr, hf, ?_⟩
  have h1 := C119_reports tr p hr 0 7
  have h2 : (infoNumbers 0 7 tr).length = 2 := congrArg List.length hf
  rcases Nat.eq_zero_or_pos (creations 0 7 tr) with h | h
  · rw [h] at h1; omega
  · exact h

end Pica.Props
