import Verif.Proofs.Site
import Verif.Proofs.SiteExamples
import Verif.Props.Ranging
import Verif.Props.Position
import Verif.Props.System
/-! C51, C61: the registry of the web server and the emulator. -/

namespace Pica.Props
open Pica.Spec Pica.Site

/-- C51: if no successful handler is dropped, if the answers about one anchor are seen in their order and as long as
no handler has panicked, the registry is what the emulator has, except for what is under way. -/
theorem C51_partial (measure : Measure) {ls : List Site.Label} {s : Site} (h : TidyRun measure ls s)
    (hp : s.web.poisoned = false) (ha : Arrived s) (n : Nat) (c : Category) (m : MacAddress) :
    Registered s.web n c m ↔ Present s.sys.pica n c m := by
  have hi := (tidy_inv h).web hp
  rw [← hi.agree n c m]
  have he : evs s n = [] := by unfold evs; rw [ha.1]; rfl
  have hb : ans s n = [] := by
    unfold ans
    rw [List.filterMap_eq_nil_iff]
    rintro ⟨a, r⟩ hx
    cases r with
    | error => rfl
    | ok k => exact absurd hx (ha.2 a k)
  unfold due Registered
  rw [he, hb]
  show _ ↔ tag (s.web.devices.get? n) = _
  cases hg : s.web.devices.get? n with
  | none => exact ⟨fun ⟨p, h⟩ => (by cases h), fun h => (by cases h)⟩
  | some i =>
    obtain ⟨c', m', p'⟩ := i
    constructor
    · rintro ⟨p, h⟩; cases h; rfl
    · intro h; cases h; exact ⟨p', rfl⟩

/-- The address used below. -/
def someMac : MacAddress := .short ⟨[7, 7], rfl⟩

/-- A device and an anchor are registered, the device has been placed, and another anchor was destroyed. -/
example (measure : Measure) : ∃ ls s, TidyRun measure ls s ∧ s.web.poisoned = false ∧ Arrived s ∧
    s.web.devices.length = 2 := by
  obtain ⟨ls, s, hr, hf⟩ := Ex.exists_tidy (measure := measure) (as := [
    .system (.request .connect), .ask ⟨someMac, some .default⟩, .process, .process, .event,
    .position (.short ⟨[0, 0], rfl⟩) ⟨1, 2, 3, 4, 5, 6⟩, .answer 0, .ask ⟨.short ⟨[8, 8], rfl⟩, some .default⟩, .process, .answer 0,
    .ask ⟨.short ⟨[8, 8], rfl⟩, none⟩, .process, .answer 0])
    (f := fun s => !s.web.poisoned && s.events.isEmpty && s.answers.isEmpty && decide (s.web.devices.length = 2)) rfl
  simp only [Bool.and_eq_true, Bool.not_eq_true', List.isEmpty_iff, decide_eq_true_eq] at hf
  obtain ⟨⟨⟨h1, h2⟩, h3⟩, h4⟩ := hf
  exact ⟨ls, s, hr, h1, ⟨h2, by rw [h3]; simp⟩, h4⟩

/-- C51 does not hold without these conditions: an anchor is destroyed before the handler of the request that made it has
seen its answer, and stays in the registry for ever. -/
theorem C51_false_order (measure : Measure) : ∃ ls s, Site.Run measure .new ls s ∧ s.web.poisoned = false ∧ s.ended = false ∧
    s.events = [] ∧ s.answers = [] ∧ s.sys.queue = [] ∧ Registered s.web 0 .anchor someMac ∧
    ¬Present s.sys.pica 0 .anchor someMac := by
  obtain ⟨ls, s, hr, hf⟩ := Ex.exists_moves (measure := measure) (as := [
    .ask ⟨someMac, some .default⟩, .process, .ask ⟨someMac, none⟩, .process, .answer 1, .answer 0])
    (f := fun s => decide (s.web.poisoned = false ∧ s.ended = false ∧ s.events = [] ∧ s.answers.length = 0 ∧
      s.sys.queue.length = 0 ∧ s.web.devices.get? 0 = some ⟨.anchor, someMac, .default⟩ ∧
      s.sys.pica.anchors.get? someMac = none)) rfl
  simp only [decide_eq_true_eq, List.length_eq_zero_iff] at hf
  obtain ⟨h1, h2, h3, h4, h5, h6, h7⟩ := hf
  refine ⟨ls, s, hr, h1, h2, h3, h4, h5, ⟨_, h6⟩, ?_⟩
  rintro ⟨a, ha, -⟩
  rw [h7] at ha
  cases ha

/-- C51 does not hold without these conditions: the client of the request for an anchor goes away, and the registry never
hears of the anchor. -/
theorem C51_false_dropped (measure : Measure) : ∃ ls s, Site.Run measure .new ls s ∧ s.web.poisoned = false ∧
    s.ended = false ∧ s.events = [] ∧ s.answers = [] ∧ s.sys.queue = [] ∧ s.web.devices = [] ∧
    Present s.sys.pica 0 .anchor someMac := by
  obtain ⟨ls, s, hr, hf⟩ := Ex.exists_moves (measure := measure) (as := [.ask ⟨someMac, some .default⟩, .process, .drops 0])
    (f := fun s => decide (s.web.poisoned = false ∧ s.ended = false ∧ s.events = [] ∧ s.answers.length = 0 ∧
      s.sys.queue.length = 0 ∧ s.web.devices = [] ∧ s.sys.pica.anchors.get? someMac = some ⟨0, someMac⟩)) rfl
  simp only [decide_eq_true_eq, List.length_eq_zero_iff] at hf
  obtain ⟨h1, h2, h3, h4, h5, h6, h7⟩ := hf
  exact ⟨ls, s, hr, h1, h2, h3, h4, h5, h6, _, h7, rfl⟩

/-! ### C61 -/

/-- The emulator in the program runs by the rules of `Verif/Model/System.lean`. -/
theorem site_system {measure : Measure} {ls : List Site.Label} {s : Site} (h : Site.Run measure .new ls s) :
    s.sys.Reachable := by
  generalize hn : Site.new = n at h
  induction h with
  | nil => subst hn; exact ⟨[], .nil⟩
  | @step t u ls l hr he hst hs ih =>
    obtain ⟨ks, ih⟩ := ih
    cases hs with
    | system _ h => exact ⟨_, .step ih hst h⟩
    | ask h => exact ⟨_, .step ih hst h⟩
    | process h => rw [(hear_frame _ _).1]; exact ⟨_, .step ih hst h⟩
    | panics => exact ⟨ks, ih⟩
    | event => exact ⟨ks, ih⟩
    | lags => exact ⟨ks, ih⟩
    | answer => exact ⟨ks, ih⟩
    | drops => exact ⟨ks, ih⟩
    | position => exact ⟨ks, ih⟩
    | shuffle => exact ⟨ks, ih⟩

theorem forall₂_left {α β : Type} {R : α → β → Prop} {l : List α} {m : List β} (h : List.Forall₂ R l m) {a : α} (ha : a ∈ l) :
    ∃ b ∈ m, R a b := by
  induction h with
  | nil => cases ha
  | cons hr _ ih =>
    rcases List.mem_cons.mp ha with rfl | ha
    · exact ⟨_, List.mem_cons_self .., hr⟩
    · obtain ⟨b, hb, h⟩ := ih ha
      exact ⟨b, List.mem_cons_of_mem _ hb, h⟩

theorem forall₂_right {α β : Type} {R : α → β → Prop} {l : List α} {m : List β} (h : List.Forall₂ R l m) {b : β} (hb : b ∈ m) :
    ∃ a ∈ l, R a b := by
  induction h with
  | nil => cases hb
  | cons hr _ ih =>
    rcases List.mem_cons.mp hb with rfl | hb
    · exact ⟨_, List.mem_cons_self .., hr⟩
    · obtain ⟨a, ha, h⟩ := ih hb
      exact ⟨a, List.mem_cons_of_mem _ ha, h⟩

/-- C61: in every history of the program, a round of a session reports to its host the distances of the positions given to
the web server: each measurement is one of a peer the session ranges with, and each such peer both of whose positions are
registered is measured. -/
theorem C61_range (A : Arith) (rotate : Rotate) {ls : List Site.Label} {s t : Site} (h : Site.Run (A.compute rotate) .new ls s)
    (hw : s.web.poisoned = false) {env : Env} {n : Nat} {sid : UInt32} {out : List Out}
    (hst : Site.Step (A.compute rotate) s (.process ⟨env, .ranging n sid, out⟩) t) {d : Device} {ss : Session}
    (hd : s.sys.pica.devices.get? n = some d) (hs : d.sessions.get? sid = some ss)
    (hn : View.of ss.appConfig 0x0e ≠ some [0]) :
    ∃ ms, sentTo n out = [.ntf (.sessionInfo ss.sequenceNumber sid 0 0 ms [])] ∧
      (∀ x ∈ ms, ∃ k m a b, RangesWith s.sys.pica n sid ss k m ∧ Placed s.web n k a b ∧ Ranges x m a b) ∧
      ∀ k m a b, RangesWith s.sys.pica n sid ss k m → Placed s.web n k a b → ∃ x ∈ ms, Ranges x m a b := by
  have hreach := pica_reachable (site_system h)
  have hstep : env = s.sys.env (s.web.estimate (A.compute rotate)) ∧ ∃ p, s.sys.pica.step env (.ranging n sid) = .ok (p, out) := by
    cases hst with
    | process hsys =>
      refine ⟨rfl, ?_⟩
      generalize s.sys.env (s.web.estimate (A.compute rotate)) = e at hsys
      cases hsys with
      | process _ hp => exact ⟨_, hp⟩
  obtain ⟨rfl, p, hstep⟩ := hstep
  have hc := C33_measurements _ _ hreach _ n d sid ss out hd hs hstep
  rw [if_neg hn] at hc
  obtain ⟨ms, hsent, hf⟩ := hc
  have hest : ∀ l r v, s.web.estimate (A.compute rotate) l r = some v ↔
      ∃ a b, Placed s.web l r a b ∧ A.compute rotate a b = .ok v := by
    intro l r v
    unfold Web.estimate
    rw [hw]
    simp only [Bool.false_eq_true, if_false, bind, Option.bind_eq_some_iff]
    constructor
    · rintro ⟨i, hi, j, hj, hv⟩
      refine ⟨i.position, j.position, ⟨⟨i, hi, rfl⟩, j, hj, rfl⟩, ?_⟩
      cases hx : A.compute rotate i.position j.position with
      | error => rw [hx] at hv; cases hv
      | ok z => rw [hx] at hv; cases hv; rfl
    · rintro ⟨a, b, ⟨⟨i, hi, rfl⟩, j, hj, rfl⟩, hv⟩
      exact ⟨i, hi, j, hj, by rw [hv]; rfl⟩
  have hrange : ∀ a b v, A.compute rotate a b = .ok v →
      |(v.range.toNat : ℝ) + 1 / 2 - min (Spec.dist a b) 65535| ≤ 6 / 10 := by
    intro a b v hv
    obtain ⟨m, hm, hr⟩ := C58_range A rotate a b
    rw [hm] at hv
    cases hv
    exact hr
  refine ⟨ms, hsent, ?_, ?_⟩
  · intro x hx
    obtain ⟨e, he, hcar⟩ := forall₂_right hf hx
    obtain ⟨h1, -, h3⟩ := (C33_peers _ hreach _ n sid ss e).mp he
    obtain ⟨a, b, hpl, hv⟩ := (hest _ _ _).mp h1
    exact ⟨e.handle, e.address, a, b, h3, hpl, hcar.1, by rw [hcar.2.2.2.1]; exact hrange a b _ hv⟩
  · intro k m a b hrw hpl
    obtain ⟨v, v', hv, hv', -⟩ := C53_symmetric A rotate a b
    have he : (⟨k, m, v, v'⟩ : Peer) ∈ peers s.sys.pica (s.web.estimate (A.compute rotate)) n sid ss :=
      (C33_peers _ hreach _ n sid ss _).mpr
        ⟨(hest _ _ _).mpr ⟨a, b, hpl, hv⟩, (hest _ _ _).mpr ⟨b, a, ⟨hpl.2, hpl.1⟩, hv'⟩, hrw⟩
    obtain ⟨x, hx, hcar⟩ := forall₂_left hf he
    exact ⟨x, hx, hcar.1, by rw [hcar.2.2.2.1]; exact hrange a b _ hv⟩

/-- A device ranges with an anchor 30 units above it. -/
def oneRound : List Ex.Move :=
  [.system (.request .connect), .process, .event, .ask ⟨.short ⟨[0, 0xb1], rfl⟩, some ⟨0, 30, 0, 0, 0, 0⟩⟩, .process, .answer 0,
    .system (.packet 0 Ex.reset), .process, .system (.packet 0 (Ex.sessionInit 7 1)), .process,
    .system (.packet 0 (Ex.setApp 7 8 Ex.controller)), .process, .system (.packet 0 (Ex.start 7)), .process,
    .system (.tick 0)]

/-- C61: a round of this device meets the hypotheses, and it has a peer with a position. -/
example (A : Arith) (rotate : Rotate) : ∃ ls s t env out d ss, Site.Run (A.compute rotate) .new ls s ∧ s.web.poisoned = false ∧
    Site.Step (A.compute rotate) s (.process ⟨env, .ranging 0 7, out⟩) t ∧ s.sys.pica.devices.get? 0 = some d ∧
    d.sessions.get? 7 = some ss ∧ View.of ss.appConfig 0x0e ≠ some [0] ∧
    RangesWith s.sys.pica 0 7 ss 1 (.short ⟨[0, 0xb1], rfl⟩) ∧ Placed s.web 0 1 .default ⟨0, 30, 0, 0, 0, 0⟩ := by
  obtain ⟨ls, s, hr, hf⟩ := Ex.exists_moves (measure := A.compute rotate) (as := oneRound)
    (f := fun s => (match s.sys.queue with | [.ranging 0 7] => true | _ => false) &&
      decide (s.web.poisoned = false ∧ s.web.devices.get? 0 = some ⟨.uci, .short ⟨[0, 0], rfl⟩, .default⟩ ∧
        s.web.devices.get? 1 = some ⟨.anchor, .short ⟨[0, 0xb1], rfl⟩, ⟨0, 30, 0, 0, 0, 0⟩⟩ ∧
        AMap.keys s.sys.pica.devices = [0] ∧ s.sys.alive 0 = true ∧
        s.sys.pica.anchors.get? (.short ⟨[0, 0xb1], rfl⟩) = some ⟨1, .short ⟨[0, 0xb1], rfl⟩⟩) &&
      ((s.sys.pica.devices.get? 0).bind fun d => (d.sessions.get? 7).map fun ss =>
        decide (View.of ss.appConfig 0x0e ≠ some [0] ∧ ss.appConfig.dstMacAddress = [.short ⟨[0, 0xb1], rfl⟩] ∧
          ss.sequenceNumber = 0)) == some true) (by with_unfolding_all rfl)
  rw [Bool.and_eq_true, Bool.and_eq_true, decide_eq_true_eq] at hf
  obtain ⟨⟨hq, h1, h2, h3, h4, h5, h6⟩, h7⟩ := hf
  obtain ⟨d, ss, hd, hs, h7⟩ := Ex.find (eq_of_beq h7)
  obtain ⟨g1, g2, g3⟩ := of_decide_eq_true h7
  have hq : s.sys.queue = [.ranging 0 7] := by
    split at hq
    · assumption
    · cases hq
  have hreach := pica_reachable (site_system hr)
  have only : ∀ k q, s.sys.pica.devices.get? k = some q → k = 0 := by
    intro k q hk
    have : k ∈ AMap.keys s.sys.pica.devices := List.mem_map_of_mem (f := Prod.fst) (AMap.mem_of_get? hk)
    rw [h4] at this
    simpa using this
  have hpeers : ∀ est, ∀ e ∈ peers s.sys.pica est 0 7 ss, e.address = .short ⟨[0, 0xb1], rfl⟩ := by
    intro est e he
    rcases ((C33_peers _ hreach _ 0 7 ss e).mp he).2.2 with ⟨hm, -⟩ | ⟨hk, q, t, hq, -⟩
    · rw [g2] at hm; simpa using hm
    · exact absurd (only _ _ hq) hk
  have hlen : ∀ est, (peers s.sys.pica est 0 7 ss).length ≤ 255 := by
    intro est
    have a := List.length_filterMap_le (anchorPeer est s.sys.pica.anchors 0) ss.appConfig.dstMacAddress
    have b := List.length_filterMap_le (fun e => devicePeer est 0 7 ss e.1 e.2) s.sys.pica.devices
    have c : s.sys.pica.devices.length = 1 := by
      have := congrArg List.length h4
      simpa [AMap.keys] using this
    rw [g2] at a
    unfold peers
    rw [List.length_append, g2]
    simp only [List.length_cons, List.length_nil] at a
    omega
  obtain ⟨⟨p, out⟩, hstep⟩ := (C57_round_survives _ hreach (s.sys.env (s.web.estimate (A.compute rotate))) 0 d 7 ss hd hs).mpr
    ⟨fun e he => ⟨_, hpeers _ e he⟩, fun k q hk hg => absurd (only _ _ hk) hg.1, fun _ => ⟨hlen _, h5, by rw [g3]; decide⟩⟩
  exact ⟨ls, s, _, _, out, d, ss, hr, h1, .process (.process hq hstep), hd, hs, g1, .inl ⟨by rw [g2]; simp, by rw [h6]; rfl⟩,
    ⟨_, h2, rfl⟩, _, h3, rfl⟩

end Pica.Props
