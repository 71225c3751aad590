import Verif.Proofs.Influence
import Verif.Proofs.Examples
/-! What hosts can do to each other. -/

namespace Pica.Props
open Spec Influence

/-- C114: a host is told the same by two emulators, whatever the other hosts, the anchors and the positions are, if its
device is alike in both and the same commands concern it: its own packets, the rounds of its sessions, the in-band stops
and its end. Only measurements and data may differ. Its device is alike in the end, too. -/
theorem C114_view {p p' q q' : Pica} {tr ur : List Pica.Event} {h k : Nat} (hp : p.Reachable) (hq : q.Reachable)
    (hc : h < p.counter) (kc : k < q.counter) (ha : BothAlike (p.devices.get? h) (q.devices.get? k))
    (hr : Pica.Run p tr p') (hu : Pica.Run q ur q')
    (he : (tr.filterMap fun ev => heard h ev.command) = ur.filterMap fun ev => heard k ev.command) :
    List.Forall₂ SameTold (view h tr) (view k ur) ∧ BothAlike (p'.devices.get? h) (q'.devices.get? k) :=
  drun_alike ha (run_drun (Pica.reachable_inv hp) hc hr) (run_drun (Pica.reachable_inv hq) kc hu)
    (by rw [view_heard, view_heard, he])

/-- C114: this holds for any two hosts from their connections on. -/
theorem C114_fresh {p p₁ p' q q₁ q' : Pica} {tr ur : List Pica.Event} {env env' : Env} {o o' : List Out} (hp : p.Reachable)
    (hq : q.Reachable) (h₁ : p.step env .connect = .ok (p₁, o)) (k₁ : q.step env' .connect = .ok (q₁, o'))
    (hr : Pica.Run p₁ tr p') (hu : Pica.Run q₁ ur q')
    (he : (tr.filterMap fun ev => heard p.counter ev.command) = ur.filterMap fun ev => heard q.counter ev.command) :
    List.Forall₂ SameTold (view p.counter tr) (view q.counter ur) ∧
      BothAlike (p'.devices.get? p.counter) (q'.devices.get? q.counter) := by
  refine C114_view (hp.step h₁) (hq.step k₁) ?_ ?_ ?_ hr hu he
  · unfold Pica.step at h₁
    cases h₁
    exact Nat.lt_succ_self _
  · unfold Pica.step at k₁
    cases k₁
    exact Nat.lt_succ_self _
  · unfold Pica.step at h₁ k₁
    cases h₁
    cases k₁
    show BothAlike (AMap.get? (AMap.insert _ _ _) _) (AMap.get? (AMap.insert _ _ _) _)
    rw [AMap.get?_insert_self, AMap.get?_insert_self]
    exact ⟨rfl, rfl, rfl, rfl, rfl, fun _ => rfl⟩

/-- C114: a command that does not concern a host leaves its device as it is, sets off nothing for it and sends it nothing
but data. -/
theorem C114_unheard {p p' : Pica} (hp : p.Reachable) {env : Env} {c : Command} {out : List Out} {h : Nat} (hc : h < p.counter)
    (hs : p.step env c = .ok (p', out)) (hn : heard h c = none) :
    p'.devices.get? h = p.devices.get? h ∧ effectsOf h out = [] ∧ ∀ x ∈ sentTo h out, ∃ m, x = .data m := by
  rcases step_heard (Pica.reachable_inv hp) hs hc with ⟨-, h1, h2, h3⟩ | ⟨x, hx, -⟩
  · refine ⟨h1, h3, fun x hx => ?_⟩
    rw [List.filterMap_eq_nil_iff] at h2
    have := h2 x hx
    unfold plain at this
    split at this
    · exact ⟨_, rfl⟩
    · cases this
    · cases this
  · rw [hn] at hx
    cases hx

/-- C114: nor can the others decide whether a packet of the host ends the emulator, and in which way. -/
theorem C114_panic {p q : Pica} {h k : Nat} (hp : p.Reachable) (hq : q.Reachable)
    (ha : BothAlike (p.devices.get? h) (q.devices.get? k)) (env env' : Env) (b : Bytes) (x : Panic) :
    p.step env (.uciPacket h b) = .error x ↔ q.step env' (.uciPacket k b) = .error x := by
  have hi := Pica.reachable_inv hp
  have ki := Pica.reachable_inv hq
  show p.uciPacket env h b = _ ↔ q.uciPacket env' k b = _
  unfold Pica.uciPacket
  cases e : p.devices.get? h with
  | none =>
    cases e' : q.devices.get? k with
    | none => constructor <;> intro y <;> cases y
    | some d' => rw [e, e'] at ha; exact ha.elim
  | some d =>
    cases e' : q.devices.get? k with
    | none => rw [e, e'] at ha; exact ha.elim
    | some d' =>
      rw [e, e'] at ha
      have := receive_alike ha (hi.dev _ _ e).2.2.2.nodup (ki.dev _ _ e').2.2.2.nodup env.tid env'.tid b
      dsimp only
      revert this
      generalize d.receivePacket env.tid b = u
      generalize d'.receivePacket env'.tid b = v
      rintro (y | _)
      · exact Iff.rfl
      · constructor <;> intro y <;> cases y

/-! ### Examples -/

namespace Meddling
open Ex

/-- The final state of commands played in a state. -/
def last (p : Pica) (cs : List (Env × Command)) : Pica := ((play p cs).toOption.map Prod.fst).getD p

/-- Their history. -/
def events (p : Pica) (cs : List (Env × Command)) : List Pica.Event := ((play p cs).toOption.map Prod.snd).getD []

theorem run_last {p : Pica} {cs : List (Env × Command)} (h : (play p cs).isOk = true) : Pica.Run p (events p cs) (last p cs) := by
  unfold last events
  cases hp : play p cs with
  | error x => rw [hp] at h; cases h
  | ok y => exact play_run hp

/-- A host that starts a session and has a round and an in-band stop. -/
def mine (t h : Nat) : List (Env × Command) :=
  [pkt h reset, pkt h (sessionInit 7 1), pkt h (setApp 7 8 controlee), pktT t h (start 7), (env, .ranging h 7),
    (env, .stopRanging (.short ⟨[0, 0xb1], rfl⟩) 7), (env, .disconnect h)]

/-- The same with others in between. -/
def crowded (t h : Nat) : List (Env × Command) :=
  [(env, .connect), pkt h reset, pkt h (sessionInit 7 1), pkt 4 reset, (env, .ranging 0 7), pkt h (setApp 7 8 controlee),
    pkt 0 (stop 7), pktT t h (start 7), (env, .ranging h 7), (env, .stopRanging (.short ⟨[0, 0xb1], rfl⟩) 7),
    (env, .disconnect 4), (env, .disconnect h)]

end Meddling

open Ex Meddling in
/-- C114, example: a host by itself, and the same host among others with another handle. -/
example : ∃ p₁ p' q₁ q' tr ur o o', (after twoActive).Reachable ∧ Pica.new.step env .connect = .ok (p₁, o) ∧
    (after twoActive).step env .connect = .ok (q₁, o') ∧ Pica.Run p₁ tr p' ∧ Pica.Run q₁ ur q' ∧
    Pica.new.counter = 0 ∧ (after twoActive).counter = 3 ∧
    (tr.filterMap fun ev => heard 0 ev.command) = (ur.filterMap fun ev => heard 3 ev.command) ∧
    (view 0 tr).length = 7 ∧ ur.length = 12 ∧
    ((view 0 tr).map fun t => (t.packets.length, t.effects.length)) = [(1, 1), (1, 1), (1, 1), (1, 3), (1, 0), (0, 3), (0, 1)] := by
  refine ⟨Pica.new.addDevice.1, _, (after twoActive).addDevice.1, _, _, _, _, _, after_reachable _ twoActive_ok, rfl, rfl,
    run_last (cs := mine 50 0) ?_, run_last (cs := crowded 60 3) ?_, rfl, ?_⟩
  all_goals decide +kernel

open Ex in
/-- C114, example: a round of another host, and an anchor, in the state with two hosts that are ranging. -/
example : (after twoActive).Reachable ∧ 1 < (after twoActive).counter ∧ ((after twoActive).step env (.ranging 0 7)).isOk = true ∧
    heard 1 (.ranging 0 7) = none ∧ heard 1 (.createAnchor (.short ⟨[0, 0xb1], rfl⟩)) = none ∧
    heard 1 (.ranging 1 7) = some (.round 7) := by
  refine ⟨after_reachable _ twoActive_ok, ?_⟩
  decide +kernel

open Ex in
/-- C114, example: two hosts with devices that are alike, and a packet that ends the emulator. -/
example : (after [(env, .connect)]).Reachable ∧ (after (twoActive ++ [(env, .connect)])).Reachable ∧
    BothAlike ((after [(env, .connect)]).devices.get? 0) ((after (twoActive ++ [(env, .connect)])).devices.get? 3) ∧
    ((after [(env, .connect)]).devices.get? 0).isSome = true ∧
    ((after [(env, .connect)]).step env (.uciPacket 0 [])).isOk = false := by
  refine ⟨after_reachable _ (by decide +kernel), after_reachable _ (by decide +kernel), ?_, by decide +kernel, by decide +kernel⟩
  have h1 : (after [(env, .connect)]).devices.get? 0 = some (Device.new 0 (Pica.deviceMac 0)).init.1 := by with_unfolding_all rfl
  have h2 : (after (twoActive ++ [(env, .connect)])).devices.get? 3 = some (Device.new 3 (Pica.deviceMac 3)).init.1 := by
    with_unfolding_all rfl
  rw [h1, h2]
  exact ⟨rfl, rfl, rfl, rfl, rfl, fun _ => rfl⟩

open Ex Meddling in
/-- C114: measurements do tell of others. An anchor that someone creates shows in the round of a host. -/
theorem C114_measured : ∃ p p' q' tr ur, p.Reachable ∧ Pica.Run p tr p' ∧ Pica.Run p ur q' ∧
    (tr.filterMap fun ev => heard 0 ev.command) = (ur.filterMap fun ev => heard 0 ev.command) ∧
    (tr.flatMap fun ev => sentTo 0 ev.out) ≠ ur.flatMap fun ev => sentTo 0 ev.out := by
  refine ⟨after oneActive, _, _, _, _, after_reachable _ oneActive_ok, run_last (cs := [(env, .ranging 0 7)]) ?_,
    run_last (cs := [(env, .createAnchor (.short ⟨[0, 0xb1], rfl⟩)), (env, .ranging 0 7)]) ?_, ?_⟩
  all_goals decide +kernel

open Ex Meddling in
/-- C114: an in-band stop lets one host end the ranging of another. The packet of host 0 asks for it, and it stops host 1. -/
theorem C114_stopped : ∃ (p p₁ p₂ : Pica) (o o₁ : List Out) (mac : MacAddress) (n : UInt8) (b : Bytes), p.Reachable ∧
    p.step env (.uciPacket 0 b) = .ok (p₁, o) ∧ .stopRanging mac 7 n ∈ effectsOf 0 o ∧
    p₁.step env (.stopRanging mac 7) = .ok (p₂, o₁) ∧
    stateAt (p₁.devices.get? 1) 7 = .sessionStateActive ∧ stateAt (p₂.devices.get? 1) 7 = .sessionStateIdle := by
  obtain ⟨⟨p₁, o⟩, h, hf⟩ := exists_ok (x := (after twoActive).step env (.uciPacket 0 (removeOne 7 0 0xb1)))
    (f := fun y => (decide (Effect.stopRanging (.short ⟨[0, 0xb1], rfl⟩) 7 1 ∈ effectsOf 0 y.2),
      decide (stateAt (y.1.devices.get? 1) 7 = .sessionStateActive),
      decide (stateAt ((y.1.stopControleeRanging (.short ⟨[0, 0xb1], rfl⟩) 7).1.devices.get? 1) 7 = .sessionStateIdle)))
    (b := (true, true, true)) (by decide +kernel)
  simp only [Prod.mk.injEq, decide_eq_true_eq] at hf
  exact ⟨_, _, _, _, _, _, _, _, after_reachable _ twoActive_ok, h, hf.1, rfl, hf.2.1, hf.2.2⟩

end Pica.Props
