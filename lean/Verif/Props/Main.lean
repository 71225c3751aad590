import Verif.Model.Main
import Verif.Props.Ranging
import Verif.Props.Site
/-! C82: the default program. -/

namespace Pica.Props
open Pica.Spec Pica.System SessionState

theorem main_system {ls : List Label} {s : System} (h : Main.Run .new ls s) : System.Run .new ls s := by
  induction h with
  | nil => exact .nil
  | step _ hs hst ih =>
    refine .step ih hs ?_
    cases hst with
    | connect h => exact h
    | process h => exact h
    | panics h h' => exact .panics h h'
    | task _ _ _ h => exact h

/-- A command that is not about an anchor. -/
def NoAnchor : Command → Prop
  | .createAnchor _ | .destroyAnchor _ => False
  | _ => True

theorem main_inv {ls : List Label} {s : System} (h : Main.Run .new ls s) : s.pica.anchors = [] ∧ ∀ c ∈ s.queue, NoAnchor c := by
  induction h with
  | nil => exact ⟨rfl, fun c hc => by cases hc⟩
  | @step t u ls l hr _ hst ih =>
    obtain ⟨ih1, ih2⟩ := ih
    have put : ∀ c, NoAnchor c → ∀ x ∈ t.queue ++ [c], NoAnchor x := by
      intro c hc x hx
      rcases List.mem_append.mp hx with hx | hx
      · exact ih2 x hx
      · rw [List.mem_singleton.mp hx]; exact hc
    cases hst with
    | connect h => cases h; exact ⟨ih1, put _ trivial⟩
    | @process _ c out h =>
      cases h with
      | @process _ _ q p _ hq hp =>
        obtain ⟨f1, f2, -⟩ := applyAll_frame out { t with pica := p, queue := q, spawned := t.spawned + 1 }
        rw [f1, f2]
        refine ⟨?_, fun x hx => ih2 x (by rw [hq]; exact List.mem_cons_of_mem _ hx)⟩
        have hc := ih2 c (by rw [hq]; exact List.mem_cons_self ..)
        cases Pica.step_anc hp with
        | same _ _ _ _ h => exact h.trans ih1
        | known | create | unknown | destroy => exact absurd hc id
    | panics hq hp => exact ⟨ih1, fun x hx => ih2 x (by rw [hq]; exact List.mem_cons_of_mem _ hx)⟩
    | task h1 h2 h3 h =>
      cases h with
      | request => exact absurd rfl (h1 _)
      | process => exact absurd rfl (h2 _)
      | panics => exact absurd rfl (h3 _ _)
      | packet => exact ⟨ih1, put _ trivial⟩
      | closes | fails | dies | notifies => exact ⟨ih1, ih2⟩
      | leaves => exact ⟨ih1, put _ trivial⟩
      | tick => exact ⟨ih1, put _ trivial⟩
      | inBand => exact ⟨ih1, put _ trivial⟩
      | shuffle h => 
        refine ⟨?_, ih2⟩
        cases h with
        | devices => exact ih1
        | sessions => exact ih1
        | anchors hp =>
          rw [ih1] at hp
          exact hp.eq_nil

/-- C82: there are no anchors. -/
theorem C82_anchors (ls : List Label) (s : System) (h : Main.Run .new ls s) : s.pica.anchors = [] := (main_inv h).1

theorem main_round {s t : System} {env : Env} {h : Nat} {sid : UInt32} {out : List Out}
    (hst : Main.Step s (.process ⟨env, .ranging h sid, out⟩) t) :
    env.estimate = Main.estimate ∧ s.pica.step env (.ranging h sid) = .ok (t.pica, out) := by
  cases hst with
  | process hsys =>
    cases hsys with
    | process hq hp =>
      refine ⟨rfl, ?_⟩
      rw [(applyAll_frame out _).1]
      exact hp
  | task _ h2 => exact absurd rfl (h2 _)

/-- C82: a round with notifications reports exactly the other devices it ranges with, each once, at distance and angles zero. -/
theorem C82_round (ls : List Label) (s t : System) (hr : Main.Run .new ls s) (env : Env) (h : Nat) (sid : UInt32) (out : List Out)
    (hst : Main.Step s (.process ⟨env, .ranging h sid, out⟩) t) (d : Device) (ss : Session)
    (hd : s.pica.devices.get? h = some d) (hs : d.sessions.get? sid = some ss) (hn : View.of ss.appConfig 0x0e ≠ some [0]) :
    ∃ ks ms, sentTo h out = [.ntf (.sessionInfo ss.sequenceNumber sid 0 0 ms [])] ∧ ks.Nodup ∧
      (∀ k, k ∈ ks ↔ ∃ m, RangesWith s.pica h sid ss k m) ∧
      List.Forall₂ (fun k x => k ≠ h ∧ (∃ a, RangesWith s.pica h sid ss k (.short a) ∧ u16le x.macAddress = a.1) ∧
        (x.status, x.nlos, x.distance, x.aoaAzimuth, x.aoaElevation, x.aoaDestinationAzimuth, x.aoaDestinationElevation) =
          (.ok, 0, 0, 0, 0, 0, 0)) ks ms := by
  obtain ⟨he, hp⟩ := main_round hst
  have hreach := pica_reachable ⟨ls, main_system hr⟩
  have hm := C33_measurements s.pica t.pica hreach env h d sid ss out hd hs hp
  rw [if_neg hn] at hm
  obtain ⟨ms, hsent, hc⟩ := hm
  have hone := C33_once s.pica hreach env.estimate h sid ss
  have hanc : ss.appConfig.dstMacAddress.filterMap (anchorPeer env.estimate s.pica.anchors h) = [] := by
    rw [C82_anchors ls s hr, List.filterMap_eq_nil_iff]
    intro m _
    rfl
  rw [hanc, List.nil_append] at hone
  have hpeer := C33_peers s.pica hreach env.estimate h sid ss
  have hnone : ∀ m : MacAddress, (s.pica.anchors.get? m).map Anchor.handle = none := by
    intro m; rw [C82_anchors ls s hr]; rfl
  refine ⟨(peers s.pica env.estimate h sid ss).map Peer.handle, ms, hsent, by rw [hone.2]; exact hone.1, ?_, ?_⟩
  · intro k
    rw [List.mem_map]
    constructor
    · rintro ⟨e, he', rfl⟩
      exact ⟨e.address, ((hpeer e).mp he').2.2⟩
    · rintro ⟨m, hm⟩
      refine ⟨⟨k, m, ⟨0, 0, 0⟩, ⟨0, 0, 0⟩⟩, (hpeer _).mpr ⟨by rw [he]; rfl, by rw [he]; rfl, hm⟩, rfl⟩
  · have hall : ∀ e ∈ peers s.pica env.estimate h sid ss, e.there = ⟨0, 0, 0⟩ ∧ e.back = ⟨0, 0, 0⟩ ∧ e.handle ≠ h ∧
        RangesWith s.pica h sid ss e.handle e.address := by
      intro e he'
      obtain ⟨h1, h2, h3⟩ := (hpeer e).mp he'
      rw [he] at h1 h2
      refine ⟨(Option.some.inj h1).symm, (Option.some.inj h2).symm, ?_, h3⟩
      rcases h3 with h3 | h3
      · rw [hnone] at h3; exact absurd h3.2 (by simp)
      · exact h3.1
    clear hone hpeer hsent
    generalize peers s.pica env.estimate h sid ss = ps at hc hall
    induction hc with
    | nil => exact .nil
    | @cons e x ps ms hx _ ih =>
      refine .cons ?_ (ih fun e he => hall e (List.mem_cons_of_mem _ he))
      obtain ⟨g1, g2, g3, g4⟩ := hall e (List.mem_cons_self ..)
      obtain ⟨⟨a, ha, hm⟩, c1, c2, c3, c4, c5, c6, c7, -⟩ := hx
      refine ⟨g3, ⟨a, ha ▸ g4, hm⟩, ?_⟩
      have zero : ∀ y : UInt16, y.toInt16 = 0 → y = 0 := fun y hy => by
        have := congrArg Int16.toUInt16 hy
        rwa [UInt16.toUInt16_toInt16] at this
      have zero' : ∀ y : UInt16, y.toInt16.toInt = 0 → y = 0 := fun y hy => zero y (Int16.toInt_inj.mp hy)
      rw [g1] at c3 c4 c5
      rw [g2] at c6 c7
      rw [c1, c2, c3, zero _ c4, zero' _ c5, zero _ c6, zero' _ c7]

open Classical in
/-- C82: a round sends the queued data once to every other device that gets them, without the exception of C36. -/
theorem C82_data (ls : List Label) (s t : System) (hr : Main.Run .new ls s) (env : Env) (h : Nat) (sid : UInt32) (out : List Out)
    (hst : Main.Step s (.process ⟨env, .ranging h sid, out⟩) t) (d : Device) (ss : Session)
    (hd : s.pica.devices.get? h = some d) (hs : d.sessions.get? sid = some ss) (k : Nat) (hk : k ≠ h) :
    if ∃ q, s.pica.devices.get? k = some q ∧ Gets h sid ss k q then
      ∃ mac, ss.appConfig.deviceMacAddress = some mac ∧ sentTo k out = [.data ⟨sid, .ok, mac.toU64, 1, ss.data⟩]
    else sentTo k out = [] := by
  obtain ⟨he, hp⟩ := main_round hst
  have hx := (C36_round_partial s.pica t.pica (pica_reachable ⟨ls, main_system hr⟩) env h d sid ss out hd hs hp).1 k hk
  have hu : ∀ q, ¬Unseen env.estimate h sid ss k q := by
    rintro q ⟨u, -, -, -, hb⟩
    rw [he] at hb
    cases hb
  simpa only [hu, not_false_eq_true, and_true] using hx

namespace MainEx

/-- The steps of the scheduler of the examples, with the estimator of this program. -/
def act (s : System) : Ex.Act → Option (Label × System)
  | .process =>
    match s.queue with
    | [] => none
    | c :: q =>
      match s.pica.step (s.env Main.estimate) c with
      | .ok (p, out) =>
        some (.process ⟨s.env Main.estimate, c, out⟩,
          out.foldl apply { s with pica := p, queue := q, spawned := s.spawned + 1 })
      | .error _ => none
  | .request c => if c = .connect then Ex.act s (.request .connect) else none
  | .tick i => Ex.act s (.tick i)
  | .packet h b => Ex.act s (.packet h b)
  | _ => none

theorem act_step {s u : System} {a : Ex.Act} {l : Label} (h : act s a = some (l, u)) : Main.Step s l u := by
  cases a with
  | process =>
    unfold act at h
    dsimp only at h
    split at h
    · cases h
    · rename_i hq
      split at h
      · rename_i hp; cases h; exact .process (.process hq hp)
      · cases h
  | request c =>
    unfold act at h
    dsimp only at h
    split at h
    · have hst := Ex.act_step h
      unfold Ex.act at h
      dsimp only at h
      split at h
      · cases h; exact .connect hst
      · cases h
    · cases h
  | tick i =>
    change Ex.act s (.tick i) = _ at h
    have hst := Ex.act_step h
    have hl : ∃ t, l = .tick t := by
      unfold Ex.act at h
      dsimp only at h
      split at h
      · split at h <;> cases h; exact ⟨_, rfl⟩
      · cases h
    obtain ⟨t, rfl⟩ := hl
    exact .task (by simp) (by simp) (by simp) hst
  | packet k b =>
    change Ex.act s (.packet k b) = _ at h
    have hst := Ex.act_step h
    have hl : l = .packet k b := by
      unfold Ex.act at h
      dsimp only at h
      split at h <;> cases h; rfl
    subst hl
    exact .task (by simp) (by simp) (by simp) hst
  | _ => cases h

def play (s : System) : List Ex.Act → Option System
  | [] => some s
  | a :: as => if s.stopped then none else (act s a).bind fun x => play x.2 as

theorem play_run {n s t : System} {ls : List Label} (hr : Main.Run n ls s) {as : List Ex.Act} (h : play s as = some t) :
    ∃ ls, Main.Run n ls t := by
  induction as generalizing s ls with
  | nil => cases h; exact ⟨ls, hr⟩
  | cons a as ih =>
    unfold play at h
    split at h
    · cases h
    · rename_i hs
      rw [Option.bind_eq_some_iff] at h
      obtain ⟨⟨l, u⟩, ha, h⟩ := h
      exact ih (.step hr (by simpa using hs) (act_step ha)) h

end MainEx

/-- Two hosts range with each other; the first one has data for the second. -/
example : ∃ ls s t env out d ss, Main.Run .new ls s ∧ Main.Step s (.process ⟨env, .ranging 0 7, out⟩) t ∧
    s.pica.devices.get? 0 = some d ∧ d.sessions.get? 7 = some ss ∧ View.of ss.appConfig 0x0e ≠ some [0] ∧
    (sentTo 0 out).length = 1 ∧ (sentTo 1 out).length = 1 := by
  let as : List Ex.Act := Ex.active ++ [.request .connect, .process] ++ Ex.send 1 Ex.reset ++ Ex.send 1 (Ex.sessionInit 7 1) ++
    Ex.send 1 (Ex.setApp 7 8 Ex.controlee) ++ Ex.send 1 (Ex.start 7) ++ Ex.send 0 sendData ++ [.tick 0]
  have key : ((MainEx.play .new as).bind fun s => (MainEx.act s .process).bind fun x =>
      match x.1 with
      | .process ⟨_, .ranging 0 7, out⟩ =>
        (s.pica.devices.get? 0).bind fun d => (d.sessions.get? 7).map fun ss =>
          !s.stopped && decide (View.of ss.appConfig 0x0e ≠ some [0] ∧ (sentTo 0 out).length = 1 ∧ (sentTo 1 out).length = 1)
      | _ => none) = some true := by decide +kernel
  rw [Option.bind_eq_some_iff] at key
  obtain ⟨s, hs, key⟩ := key
  rw [Option.bind_eq_some_iff] at key
  obtain ⟨⟨l, t⟩, hl, key⟩ := key
  obtain ⟨ls, hr⟩ := MainEx.play_run .nil hs
  dsimp only at key
  split at key
  · rename_i env out
    rw [Option.bind_eq_some_iff] at key
    obtain ⟨d, hd, key⟩ := key
    rw [Option.map_eq_some_iff] at key
    obtain ⟨ss, hss, key⟩ := key
    simp only [Bool.and_eq_true, decide_eq_true_eq] at key
    exact ⟨ls, s, t, env, out, d, ss, hr, MainEx.act_step hl, hd, hss, key.2⟩
  · cases key

end Pica.Props
