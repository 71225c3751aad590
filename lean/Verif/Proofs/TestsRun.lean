import Verif.Proofs.TestsAnswer
import Verif.Proofs.Careful
/-! The runs of the tests. -/

set_option linter.dupNamespace false

namespace Pica.Tests
open Spec SessionState

variable {late lag gap t h n : Nat} {plan : Nat → Plan} {s u : Test} {σ : Nat → Status}

/-- What holds throughout the runs with at most `n` connections. -/
structure Going (plan : Nat → Plan) (late lag gap n : Nat) (s : Test) : Prop where
  reach : s.clock.sys.Reachable
  up : s.clock.sys.stopped = false
  len : s.stamps.length = s.clock.sys.queue.length
  past : ∀ a ∈ s.stamps, a ≤ s.clock.now
  joint : Joint plan late lag gap s
  fresh : ∀ h, s.clock.sys.pica.counter ≤ h → s.hosts.get? h = none
  stops : s.clock.sys.stops = []
  plain : ∀ m sid, Command.stopRanging m sid ∉ s.clock.sys.queue
  few : s.clock.sys.pica.devices.length + s.clock.sys.queue.count .connect ≤ n

theorem Going.holds (hg : Going plan late lag gap n s) (h : Nat) : Holds plan late lag s h := hg.joint.holds h

/-- What the emulator does with the command `c`. -/
structure Outcome (plan : Nat → Plan) (late lag gap n t : Nat) (s : Test) (q : List Command) (p' : Pica) (out : List Out) : Prop where
  joint : Joint plan late lag gap (processed (scripts plan) t s p' q out)
  plain : ∀ o ∈ out, ∀ x m sid k, o ≠ .effect x (.stopRanging m sid k)
  few : p'.devices.length + q.count .connect ≤ n
  fresh : ∀ h, p'.counter ≤ h → (out.foldl (hears (scripts plan) t) s.hosts).get? h = none

/-- The hosts connect as the data transfer test wants it: the controller first, the controlee no more than `gap` later, and nobody else. -/
def Entry (gap : Nat) (plan : Nat → Plan) (u : Test) : Prop :=
  (∀ h, (plan h).kind = .range) ∨
  ((∀ h, 2 ≤ h → u.hosts.get? h = none) ∧
    ∀ H₁, u.hosts.get? 1 = some H₁ → ∃ H₀, u.hosts.get? 0 = some H₀ ∧ H₁.born ≤ H₀.born + gap)

/-- The estimator sees the two hosts of the data transfer test. -/
def Sees (plan : Nat → Plan) (est : Nat → Nat → Option RangingMeasurement) : Prop :=
  (∀ h, (plan h).kind = .range) ∨ est 0 1 ≠ none ∧ est 1 0 ≠ none

/-! ### Rounds -/

/-- What happens to the controlee in a round of the controller. -/
theorem Pair.heard {f : Bytes} (hp : Pair late lag gap plan f) (hlate : late < 4000) (hs : States plan late lag s σ) (hl : Link gap σ)
    (hin : InTime late lag u.clock.now s) (hn : Near 1 s u) {b : Nat} {g : Stage} (h0 : σ 0 = .at b g) {data : Bytes}
    (hd : data.length ≤ 65535) (hf : Fresh g.dev → data = f ∧ b + 1012000 ≤ u.clock.now)
    (hsent : u.hosts.get? 1 = s.hosts.get? 1 ∨
      u.hosts.get? 1 = (s.hosts.get? 1).map fun H => H.hear u.clock.now (.data (parcel (plan 0) data)))
    (hmust : (∃ b g seq k, σ 1 = .at b g ∧ g.dev = busy (plan 1) 1 seq [] k) →
      u.hosts.get? 1 = (s.hosts.get? 1).map fun H => H.hear u.clock.now (.data (parcel (plan 0) data))) :
    ∃ st, Is late lag u 1 st ∧ Okay (plan 1) late lag 1 st ∧ (st ≠ .blank → σ 1 ≠ .blank) ∧ st.born = (σ 1).born ∧
      ∀ b g, st = .at b g → Plain g.rest := by
  have hi := hs.is 1
  have ho := hs.okay 1
  have must : ∀ {pkt : Packet}, u.hosts.get? 1 = ((s.hosts.get? 1).map fun H => H.hear u.clock.now pkt) →
      ∀ H, s.hosts.get? 1 = some H → u.hosts.get? 1 = some (H.hear u.clock.now pkt) := by
    intro pkt e H hH
    rw [e, hH]
    rfl
  have keep : (∀ b g, σ 1 = .at b g → Plain g.rest) → ∃ st, Is late lag u 1 st ∧ Okay (plan 1) late lag 1 st ∧
      (st ≠ .blank → σ 1 ≠ .blank) ∧ st.born = (σ 1).born ∧ ∀ b g, st = .at b g → Plain g.rest := by
    intro hpl
    refine ⟨σ 1, ?_, ho, id, rfl, hpl⟩
    by_cases hb : σ 1 = .blank
    · rcases hsent with hsame | hheard
      · exact hi.same ⟨hn, hsame⟩ ho.due hin
      · rw [hb] at hi ⊢
        have e : s.hosts.get? 1 = none := Blank.host hi
        refine Is.same hi ⟨hn, ?_⟩ (by nofun) hin
        rw [hheard, e]
        rfl
    · rcases hsent with hsame | hheard
      · exact hi.same ⟨hn, hsame⟩ ho.due hin
      · exact hi.spare hn (fun b g e => ⟨ho.due b g e, hpl b g e⟩) hin hd (must hheard) hb
  cases hσ : σ 1 with
  | blank => rw [hσ] at keep; exact keep (by nofun)
  | done b₁ lo => rw [hσ] at keep; exact keep (by nofun)
  | «at» b₁ g₁ =>
    by_cases hpl : Plain g₁.rest
    · rw [hσ] at keep
      refine keep fun b' g' e => ?_
      cases e
      exact hpl
    · obtain ⟨b₀, g₀, e1, e2⟩ := hl.data b₁ g₁ hσ hpl
      rw [h0] at e1
      cases e1
      obtain ⟨rfl, ht⟩ := hf e2
      obtain ⟨b₀', b₁', e3, e4, e5, e6⟩ := hl.order (by rw [hσ]; nofun)
      rw [hσ] at e4
      rw [h0] at e3
      cases e3
      cases e4
      have hgood : Good (plan 1) late lag 1 b₁ g₁ := by rw [hσ] at ho; exact ho
      rw [hσ] at hi
      obtain ⟨H, rfl, ha⟩ := hi
      have hg0 : Good (plan 0) late lag 0 b g := by have := hs.okay 0; rw [h0] at this; exact this
      have hi0 := hs.is 0
      rw [h0] at hi0
      obtain ⟨H₀, -, ha0⟩ := hi0
      have hsoon := hg0.soon hlate e2 (ha0.deadline hin hg0.due) hp.leads
      rw [hp.slack] at hsoon
      have hgap := hp.gap
      have hquick := hp.quick
      have hdl := ha.deadline hin hgood.due
      have hlo : g₁.lo ≤ u.clock.now := Nat.le_trans ha.lo hin.now
      have hr := reads_parcel (p := plan 0) (p' := plan 1) hp.mac hp.size
      rcases hgood.early hlate hp.take hpl hdl with h1 | ⟨lo, k, a, h1, h2, h3, rfl⟩ | ⟨lo, k, r, h1, h2, h3, rfl⟩ | ⟨lo, k, r, h1, h2, rfl⟩
      · omega
      · have hdl' : u.clock.now ≤ a + 1000000 + lag := hdl
        have hlo' : lo ≤ u.clock.now := hlo
        have hheard := must (hmust ⟨_, _, _, _, hσ, rfl⟩)
        refine ⟨.at H.born _, ⟨H.hear _ _, rfl, ha.data hn rfl hr hin hheard hdl'⟩, ?_, (fun _ => nofun), rfl, ?_⟩
        · exact .data hp.take h2 h1 (by show a ≤ u.clock.now; omega)
        · intro b' g' e
          cases e
          exact .cons rfl plain_closing
      · have hdl' : u.clock.now ≤ r + lag := hdl
        have hheard := must (hmust ⟨_, _, _, _, hσ, rfl⟩)
        refine ⟨.at H.born _, ⟨H.hear _ _, rfl, ha.data hn rfl hr hin hheard hdl'⟩, ?_, (fun _ => nofun), rfl, ?_⟩
        · exact .dataRound hp.take h2 h3 (by show r ≤ u.clock.now + 1000000 + lag; omega)
        · intro b' g' e
          cases e
          exact .cons rfl plain_closing
      · have hheard := must (hmust ⟨_, _, _, _, hσ, rfl⟩)
        refine ⟨.at H.born _, ⟨H.hear _ _, rfl, ha.data hn rfl hr hin hheard (Nat.le_add_right _ _)⟩, ?_, (fun _ => nofun), rfl, ?_⟩
        · refine .halt (by decide) (fun hl => absurd hp.take (hl _)) ?_ (by show u.clock.now + 3 * lag < r + 1000000; omega)
          rw [Plan.limit_take hp.take]
          show u.clock.now ≤ _
          omega
        · intro b' g' e
          cases e
          exact plain_closing

/-- A round does not panic. -/
theorem Going.round (hg : Going plan late lag gap n s) (hn : n ≤ 247) {g : Stage} {H : Host} {p : Plan} {b : Nat} (hgd : Good p late lag h b g)
    (ha : At late lag s h H g) {a : Nat} (hq : g.queue = [(a, .ranging h 0)]) (est : Nat → Nat → Option RangingMeasurement) :
    ∃ y, s.clock.sys.pica.step (s.clock.sys.env est) (.ranging h 0) = .ok y := by
  have hs : ∃ y, g.dev.sessions.get? 0 = some y := by
    cases hgd with
    | round₁ => exact ⟨_, rfl⟩
    | round₂ => exact ⟨_, rfl⟩
    | dataRound => exact ⟨_, rfl⟩
    | _ => cases hq
  obtain ⟨y, hy⟩ := hs
  have hfew := hg.few
  refine Fine.round (Props.pica_reachable hg.reach) (hg.joint.fine (by omega)) _ ha.dev hy (decide_eq_true ha.conn) ?_
  intro k d z hd hz hst
  rcases hg.holds k with hb | ⟨H', ⟨g', h1, h2⟩ | ⟨lo, -, hf⟩⟩
  · rw [hb.dev] at hd; cases hd
  · exact decide_eq_true h2.conn
  · rw [hf.dev d hd] at hz; cases hz

/-- A host is there before it does anything. -/
theorem Good.from {p : Plan} {b : Nat} {g : Stage} (hg : Good p late lag h b g) (hp : p.Leads) : b ≤ g.lo := by
  cases hg <;> first
    | exact Nat.le_refl _
    | (dsimp only; omega)
    | (rename_i e _ _; exact absurd e (hp _))
    | (rename_i e _ _ _; exact absurd e (hp _))
    | (have := (show p.Leads → _ by assumption) hp; dsimp only; omega)

/-- A command about an anchor concerns no host. -/
theorem Going.anchors (hg : Going plan late lag gap n s) (hin : InTime late lag t s) {c : Command} {q : List Command}
    (hq : s.clock.sys.queue = c :: q) (hc : about c = none) {p' : Pica} {r : Except PicaCommandError Nat}
    (hd : p'.devices = s.clock.sys.pica.devices) (hn : s.clock.sys.pica.counter ≤ p'.counter)
    (hf : s.clock.sys.pica.devices.length + q.count .connect ≤ n) : Outcome plan late lag gap n t s q p' [.anchorReply r] where
  joint := hg.joint.same hin fun h => same_processed hg.len hq (by rw [hd]) (by rw [hc]; simp)
    (by intro o ho; rw [List.mem_singleton.mp ho]; trivial)
  plain := by
    intro o ho x m sid k e
    rw [e] at ho
    cases List.mem_singleton.mp ho
  few := by rw [hd]; exact hf
  fresh h hh := hg.fresh h (Nat.le_trans hn hh)

/-- What the emulator does with the next command. -/
theorem Going.process (hg : Going plan late lag gap n s) (hn : n ≤ 247) (hlate : late < 4000) (hlag : lag < 250000) (hin : InTime late lag t s) {c : Command}
    {q : List Command} (hq : s.clock.sys.queue = c :: q) (est : Nat → Nat → Option RangingMeasurement) :
    ∃ p' out, s.clock.sys.pica.step (s.clock.sys.env est) c = .ok (p', out) ∧
      (Sees plan est → Entry gap plan (processed (scripts plan) t s p' q out) → Outcome plan late lag gap n t s q p' out) := by
  have hi := System.reachable_inv hg.reach
  have hpr := Props.pica_reachable hg.reach
  have hsome : ∀ {h : Nat} {H : Host}, s.hosts.get? h = some H → h < s.clock.sys.pica.counter := by
    intro h H hH
    by_contra hc
    rw [hg.fresh h (by omega)] at hH
    cases hH
  have hcount : c ≠ .connect → q.count .connect = s.clock.sys.queue.count .connect := by
    intro hc
    rw [hq, List.count_cons_of_ne hc]
  have hdevs : ∀ {h : Nat} {d d' : Device}, s.clock.sys.pica.devices.get? h = some d →
      (s.clock.sys.pica.devices.insert h d').length = s.clock.sys.pica.devices.length := by
    intro h d d' hd
    rw [AMap.length_insert, hd]; rfl
  have hfew := hg.few
  have hpast : ∀ a ∈ s.stamps, a ≤ t := fun a ha => Nat.le_trans (hg.past a ha) hin.now
  obtain ⟨σ, hs, hl⟩ := hg.joint
  cases c with
  | uciPacket y x =>
    obtain ⟨a, r, hp⟩ := mem_of_pending hg.len hq (show about (.uciPacket y x) = some y from rfl)
    rcases hs.at y with ⟨-, hb⟩ | ⟨H, g, hσ, h1, h2⟩ | ⟨H, lo, hσ, -, hf⟩
    · rw [hb.queue] at hp; cases hp
    · obtain ⟨d, r, es, e1, e2, st, e3, e4, e5⟩ := h1.answer hlag h2 rfl hi hpr hg.len hin hpast hq est (scripts plan)
      have hoff : ∀ h, h ≠ y → ∀ o ∈ Out.send y r :: es.map (.effect y),
          Off h (fun id => ∃ k ∈ s.clock.sys.timers, k.device = h ∧ k.id = id) o := by
        intro h hh
        refine off_answer hh fun e he => ?_
        rcases e2 e he with h3 | ⟨sid, i, h3⟩ | ⟨k, h3, h4⟩
        · exact .inl h3
        · refine .inr (.inl ⟨_, _, _, h3, ?_⟩)
          rintro ⟨k, hk, -, h5⟩
          have := hi.bound k hk
          omega
        · refine .inr (.inr ⟨_, h3, ?_⟩)
          rintro ⟨k', hk, h5, h6⟩
          have := System.unique hi.ids hk h4 h6
          rw [this] at h5
          exact hh h5.symm
      refine ⟨_, _, e1, fun _ _ => ⟨hs.move hl hin (fun h hh => same_processed hg.len hq (AMap.get?_insert_of_ne hh)
        (fun e => hh (Option.some.inj e).symm) (hoff h hh)) e5 e4 (by rw [hσ]; exact e3), ?_, ?_, ?_⟩⟩
      · intro o ho x m sid k e
        subst e
        rcases List.mem_cons.mp ho with e | ho
        · cases e
        · obtain ⟨e, he, h3⟩ := List.mem_map.mp ho
          cases h3
          rcases e2 _ he with ⟨_, _, h3⟩ | ⟨_, _, h3⟩ | ⟨_, h3, -⟩ <;> cases h3
      · show (s.clock.sys.pica.devices.insert y d).length + _ ≤ n
        rw [hdevs h2.dev, hcount (by simp)]
        exact hfew
      · intro h hh
        have hh' : s.clock.sys.pica.counter ≤ h := hh
        have := hsome h2.host
        rw [off_hosts (hoff h (by omega))]
        exact hg.fresh h hh'
    · have := hf.queue (a, .uciPacket y x) (by rw [hp]; exact List.mem_cons_self)
      cases this
  | ranging y sid =>
    obtain ⟨a, r, hp⟩ := mem_of_pending hg.len hq (show about (.ranging y sid) = some y from rfl)
    rcases hs.at y with ⟨-, hb⟩ | ⟨H, g, hσ, h1, h2⟩ | ⟨H, lo, hσ, -, hf⟩
    · rw [hb.queue] at hp; cases hp
    · have hp' := hp
      rw [h2.queue] at hp'
      have hr : sid = 0 → ∃ z, s.clock.sys.pica.step (s.clock.sys.env est) (.ranging y 0) = .ok z := by
        rintro rfl
        refine hg.round hn h1 h2 (a := a) ?_ est
        cases h1 <;> first | (cases hp'; done) | (cases hp'; rfl)
      obtain ⟨d, out, seq, data, k, e1, e2, e3, e4, e5, g', e6, e7, e8⟩ := h1.round hlag h2 rfl hpr hg.len hin hpast hq est (scripts plan) hr
      have hnear : ∀ h, h ≠ y → Near h s (processed (scripts plan) t s { s.clock.sys.pica with devices := s.clock.sys.pica.devices.insert y d } q out) := by
        intro h hh
        refine near_processed hg.len hq (AMap.get?_insert_of_ne hh) (fun e => hh (Option.some.inj e).symm) fun o ho => ?_
        obtain ⟨k, pkt, rfl⟩ := e2 o ho
        trivial
      have hsame : ∀ h, h ≠ y → Spec.sentTo h out = [] → Same h s (processed (scripts plan) t s { s.clock.sys.pica with devices := s.clock.sys.pica.devices.insert y d } q out) := by
        intro h hh he
        refine ⟨hnear h hh, ?_⟩
        show (out.foldl (hears (scripts plan) t) s.hosts).get? h = _
        rw [hears_sends e2, he]
        cases s.hosts.get? h <;> rfl
      refine ⟨_, _, e1, fun hsee _ => ⟨?_, ?_, ?_, ?_⟩⟩
      · rcases hl with hr | ⟨f, hpair, hlk⟩
        · refine ⟨_, hs.update hin (fun h hh => hsame h hh ?_) e8 e7, .inl hr⟩
          have := e4 h hh
          rw [if_neg] at this
          · exact this
          · rintro ⟨q', -, ⟨-, ⟨-, hty, -⟩, -⟩, -⟩
            have hty' : (plan y).type = .firaRangingAndInBandDataSession := hty
            unfold Plan.type at hty'
            rw [hr y] at hty'
            cases hty'
        · have hy2 : y = 0 ∨ y = 1 := by
            by_contra hne
            have := hlk.two y (by omega)
            rw [hσ] at this
            cases this
          rcases hy2 with rfl | rfl
          · have hfile : data.length ≤ 65535 := by
              refine ((hg.joint.fine (by omega)).sess 0 g.dev 0 _ h2.dev (by rw [e3]; rfl)).2.1
            have hsee' : bothWays est 0 1 ≠ none := by
              rcases hsee with hr | ⟨s1, s2⟩
              · have := hr 0
                rw [hpair.give] at this
                cases this
              · unfold bothWays
                cases h01 : est 0 1 with
                | none => exact absurd h01 s1
                | some l =>
                  cases h10 : est 1 0 with
                  | none => exact absurd h10 s2
                  | some r => simp
            have hhost : ∀ {pkts}, Spec.sentTo 1 out = pkts →
                (out.foldl (hears (scripts plan) t) s.hosts).get? 1 = (s.hosts.get? 1).map fun H => pkts.foldl (fun H p => H.hear t p) H := by
              intro pkts he
              rw [hears_sends e2, he]
            have h4 := e4 1 (by decide)
            obtain ⟨st, s1, s2, s3, s4, s5⟩ := hpair.heard hlate hs hlk
              (u := processed (scripts plan) t s { s.clock.sys.pica with devices := s.clock.sys.pica.devices.insert 0 d } q out)
              hin (hnear 1 (by decide)) hσ hfile (fun hf => by
                obtain ⟨k1, k2⟩ := e5 hf
                refine ⟨?_, k2⟩
                rw [k1]
                unfold Plan.file
                rw [hpair.give]) (by
                split at h4
                · exact .inr (hhost h4)
                · exact .inl (hsame 1 (by decide) h4).host) (by
                rintro ⟨b₁, g₁, seq₁, k₁, hσ₁, hd₁⟩
                rw [if_pos] at h4
                · exact hhost h4
                · have hi1 := hs.is 1
                  rw [hσ₁] at hi1
                  obtain ⟨H₁, -, ha₁⟩ := hi1
                  refine ⟨g₁.dev, ha₁.dev, ⟨by decide, ⟨rfl, ?_, ?_⟩, _, by rw [hd₁]; rfl, rfl, ?_, ?_⟩, ?_⟩
                  · show (plan 0).type = _
                    unfold Plan.type
                    rw [hpair.give]
                  · show some (if (plan 0).boss then DeviceRole.initiator else DeviceRole.responder) = _
                    rw [hpair.boss]
                    rfl
                  · show (plan 1).type = _
                    unfold Plan.type
                    rw [hpair.take]
                  · show some (if (plan 1).boss then DeviceRole.initiator else DeviceRole.responder) = _
                    rw [hpair.minion]
                    rfl
                  · rintro ⟨_, -, -, -, hbw⟩
                    exact hsee' hbw)
            refine ⟨Function.update (Function.update σ 0 (.at H.born g')) 1 st, ⟨?_, ?_⟩, .inr ⟨f, hpair, ⟨?_, ?_, ?_⟩⟩⟩
            · intro h
              by_cases h1 : h = 1
              · subst h1; rw [Function.update_self]; exact s1
              · rw [Function.update_of_ne h1]
                by_cases h0 : h = 0
                · subst h0; rw [Function.update_self]; exact e8
                · rw [Function.update_of_ne h0]
                  refine (hs.is h).same (hsame h h0 ?_) (hs.okay h).due hin
                  have hbl := hs.is h
                  rw [hlk.two h (by omega)] at hbl
                  have := e4 h h0
                  rw [if_neg] at this
                  · exact this
                  · rintro ⟨q', hq', -⟩
                    rw [Blank.dev hbl] at hq'
                    cases hq'
            · intro h
              by_cases h1 : h = 1
              · subst h1; rw [Function.update_self]; exact s2
              · rw [Function.update_of_ne h1]
                by_cases h0 : h = 0
                · subst h0; rw [Function.update_self]; exact e7
                · rw [Function.update_of_ne h0]
                  exact hs.okay h
            · intro h hh
              rw [Function.update_of_ne (by omega), Function.update_of_ne (by omega)]
              exact hlk.two h hh
            · intro hne
              rw [Function.update_self] at hne ⊢
              rw [Function.update_of_ne (by decide), Function.update_self, s4]
              have := hlk.order (s3 hne)
              rw [hσ] at this
              exact this
            · intro b₁ g₁ h3 h4
              rw [Function.update_self] at h3
              exact absurd (s5 b₁ g₁ h3) h4
          · refine hs.move (.inr ⟨f, hpair, hlk⟩) hin (fun h hh => hsame h hh ?_) e8 e7 (by rw [hσ]; exact ⟨rfl, (fun e => by cases e), e6⟩)
            have := e4 h hh
            rw [if_neg] at this
            · exact this
            · rintro ⟨q', -, ⟨-, ⟨-, -, hro⟩, -⟩, -⟩
              have hro' : some (if (plan 1).boss then DeviceRole.initiator else DeviceRole.responder) = some .initiator := hro
              rw [hpair.minion] at hro'
              cases hro'
      · intro o ho x m sid k e
        obtain ⟨k', pkt, h3⟩ := e2 o ho
        rw [h3] at e
        cases e
      · show (s.clock.sys.pica.devices.insert y d).length + _ ≤ n
        rw [hdevs h2.dev, hcount (by simp)]
        exact hfew
      · intro h hh
        have hh' : s.clock.sys.pica.counter ≤ h := hh
        rw [hears_sends e2, hg.fresh h hh']
        rfl
    · have := hf.queue (a, .ranging y sid) (by rw [hp]; exact List.mem_cons_self)
      cases this
  | disconnect y =>
    obtain ⟨a, r, hp⟩ := mem_of_pending hg.len hq (show about (.disconnect y) = some y from rfl)
    rcases hs.at y with ⟨-, hb⟩ | ⟨H, g, hσ, h1, h2⟩ | ⟨H, lo, hσ, hbd, hf⟩
    · rw [hb.queue] at hp; cases hp
    · rw [h2.queue] at hp
      cases h1 <;> cases hp
    · have hlen := hg.len
      have hpend : ∀ z ∈ pending y s.stamps.tail q, z.2 = .disconnect y := by
        intro z hz
        refine hf.queue z ?_
        rw [hq]
        cases hst : s.stamps with
        | nil => rw [hst, hq] at hlen; cases hlen
        | cons b as =>
          rw [pending_pop]
          rw [hst] at hz
          exact List.mem_append_right _ hz
      have hout : ∃ p' out, s.clock.sys.pica.disconnect y = (p', out) ∧ (∀ o ∈ out, ∃ m, o = .event (.disconnected y m)) ∧
          p'.devices = s.clock.sys.pica.devices.erase y ∧ p'.counter = s.clock.sys.pica.counter := by
        unfold Pica.disconnect
        cases hd : s.clock.sys.pica.devices.get? y with
        | none =>
          refine ⟨_, _, rfl, by simp, ?_, rfl⟩
          exact (AMap.erase_absent hd).symm
        | some d =>
          refine ⟨_, _, rfl, ?_, rfl, rfl⟩
          intro o ho
          have e : d.dropSessions = [] := by unfold Device.dropSessions; rw [hf.dev d hd]; rfl
          rw [e] at ho
          exact ⟨_, List.mem_singleton.mp ho⟩
      obtain ⟨p', out, e1, e2, e3, e4⟩ := hout
      have hoff : ∀ h, ∀ o ∈ out, Off h (fun id => ∃ k ∈ s.clock.sys.timers, k.device = h ∧ k.id = id) o := by
        intro h o ho
        obtain ⟨m, rfl⟩ := e2 o ho
        trivial
      obtain ⟨f1, f2, -, -⟩ := System.applyAll_frame out { s.clock.sys with pica := p', queue := q, spawned := s.clock.sys.spawned + 1 }
      refine ⟨p', out, congrArg Except.ok e1, fun _ _ => ⟨hs.move (y := y) (st := .done H.born lo) hl hin (fun h hh => same_processed hg.len hq ?_
        (fun e => hh (Option.some.inj e).symm) (hoff h)) ⟨H, rfl, ?_⟩ hbd (by rw [hσ]; exact rfl), ?_, ?_, ?_⟩⟩
      · rw [e3, AMap.get?_erase, if_neg (fun e => hh e.symm)]
      · obtain ⟨g1, g2, g3⟩ := hf.later hin
        have ht := off_timers (fun o ho => (hoff y o ho).still) (S := { s.clock.sys with pica := p', queue := q, spawned := s.clock.sys.spawned + 1 })
          (fun k hk hd => ⟨k, hk, hd, rfl⟩)
        refine ⟨?_, ?_, ⟨?_, by intro _ _ e; cases e⟩, ?_, g1, g2, g3⟩
        · intro d hd
          have hd' : (out.foldl System.apply _).pica.devices.get? y = some d := hd
          rw [f1] at hd'
          change p'.devices.get? y = some d at hd'
          rw [e3, AMap.get?_erase, if_pos rfl] at hd'
          cases hd'
        · intro z hz
          have hz' : z ∈ pending y s.stamps.tail (out.foldl System.apply _).queue := hz
          rw [f2] at hz'
          exact hpend z hz'
        · intro k hk hd i due hw
          have hk' := (ht k hd).mp hk
          have hw' : (out.foldl (Clock.alarm t) s.clock.wakes).get? k.id = some (i, due) := hw
          rw [off_wakes (fun o ho => (hoff y o ho).still) ⟨k, hk', hd, rfl⟩] at hw'
          exact hf.timer.1 k hk' hd i due hw'
        · show (out.foldl (hears (scripts plan) t) s.hosts).get? y = _
          rw [off_hosts (hoff y)]
          exact hf.host
      · intro o ho x m sid k e
        obtain ⟨m', h3⟩ := e2 o ho
        rw [e] at h3
        cases h3
      · rw [e3, hcount (by simp)]
        have := AMap.length_erase_le s.clock.sys.pica.devices y
        omega
      · intro h hh
        rw [off_hosts (hoff h)]
        exact hg.fresh h (by rw [← e4]; exact hh)
  | connect =>
    have hb : Blank s s.clock.sys.pica.counter := by
      rcases hg.holds s.clock.sys.pica.counter with hb | ⟨H, ⟨g, h1, h2⟩ | ⟨lo, -, hf⟩⟩
      · exact hb
      · exact absurd (hsome h2.host) (Nat.lt_irrefl _)
      · exact absurd (hsome hf.host) (Nat.lt_irrefl _)
    have hfr := hb
    revert hfr
    generalize hy : s.clock.sys.pica.counter = y at hb
    intro hfr
    have hlen := hg.len
    have e1 : s.clock.sys.pica.step (s.clock.sys.env est) .connect =
        .ok ({ s.clock.sys.pica with counter := y + 1, devices := s.clock.sys.pica.devices.insert y (dev₀ y) },
          [.effect y (.notify 5 (.coreDeviceStatus .deviceStateReady)), .event (.connected y (Pica.deviceMac y))]) := by
      rw [← hy]; rfl
    have hoff : ∀ h, h ≠ y → ∀ o ∈ [Out.effect y (.notify 5 (.coreDeviceStatus .deviceStateReady)), .event (.connected y (Pica.deviceMac y))],
        Off h (fun id => ∃ k ∈ s.clock.sys.timers, k.device = h ∧ k.id = id) o := by
      intro h hh o ho
      rcases List.mem_pair.mp ho with rfl | rfl <;> exact fun e => hh e.symm
    have hat : At late lag (processed (scripts plan) t s
        { s.clock.sys.pica with counter := y + 1, devices := s.clock.sys.pica.devices.insert y (dev₀ y) } q
        [.effect y (.notify 5 (.coreDeviceStatus .deviceStateReady)), .event (.connected y (Pica.deviceMac y))]) y
        ⟨t, (plan y).script, t, t, [], [], false⟩
        ⟨dev₀ y, [], [(t + 5000, .coreDeviceStatus .deviceStateReady)], none, t, (plan y).first.drop 0 ++ ((plan y).parts 0 ++ (plan y).run)⟩ := by
      refine ⟨AMap.get?_insert_self _ _ _, ?_, ?_, ⟨?_, by intro _ _ e; cases e⟩, AMap.get?_insert_self _ _ _, AMap.get?_insert_self _ _ _,
        ⟨rfl, ⟨t, Nat.le_refl _, fun _ => Nat.le_refl _, Nat.le_refl _, .done (fun _ => rfl) (fun _ _ _ => rfl), fun _ => Nat.le_add_right _ _⟩, fun _ => Nat.le_refl _⟩, Nat.le_refl _, ?_⟩
      · show pending y s.stamps.tail q = []
        have := hb.queue
        rw [hq] at this
        cases hst : s.stamps with
        | nil => rw [hst, hq] at hlen; cases hlen
        | cons b as =>
          rw [hst, pending_pop] at this
          exact (List.append_eq_nil_iff.mp this).2
      · show (Props.napsOf y (s.clock.naps ++ _)).Perm _
        unfold Props.napsOf
        rw [List.filterMap_append, show s.clock.naps.filterMap _ = [] from hb.naps, List.nil_append]
        refine List.Perm.of_eq ?_
        exact naps_effects t y [.notify 5 (.coreDeviceStatus .deviceStateReady)]
      · intro k hk hh
        exact absurd hh (hb.timer k hk)
      · show t ≤ t + 5000 + late
        omega
    have hsame : ∀ h, h ≠ y → Same h s (processed (scripts plan) t s
        { s.clock.sys.pica with counter := y + 1, devices := s.clock.sys.pica.devices.insert y (dev₀ y) } q
        [.effect y (.notify 5 (.coreDeviceStatus .deviceStateReady)), .event (.connected y (Pica.deviceMac y))]) :=
      fun h hh => same_processed hg.len hq (AMap.get?_insert_of_ne hh) (by nofun) (hoff h hh)
    have hst := hs.update (st := .at t _) hin hsame ⟨_, rfl, hat⟩ .connected
    refine ⟨_, _, e1, fun _ hent => ⟨⟨_, hst, ?_⟩, ?_, ?_, ?_⟩⟩
    · rcases hl with hr | ⟨f, hpair, hlk⟩
      · exact .inl hr
      · refine .inr ⟨f, hpair, ?_⟩
        rcases hent with hr | ⟨hent2, hent1⟩
        · have := hr 0
          rw [hpair.give] at this
          cases this
        · match y, hy, hb, hsame, hat, hent1, hent2 with
          | 0, hy, hb, _, _, _, _ =>
            have h1 : σ 1 = .blank := by
              rcases hs.at 1 with ⟨e, -⟩ | ⟨H, g, -, -, h2⟩ | ⟨H, lo, -, -, hf⟩
              · exact e
              · have := hsome h2.host; omega
              · have := hsome hf.host; omega
            refine ⟨?_, ?_, ?_⟩
            · intro h hh
              rw [Function.update_of_ne (by omega)]
              exact hlk.two h hh
            · intro hne
              rw [Function.update_of_ne (by decide)] at hne
              exact absurd h1 hne
            · intro b g hne
              rw [Function.update_of_ne (by decide), h1] at hne
              cases hne
          | 1, hy, hb, hsame, hat, hent1, _ =>
            obtain ⟨H₀, hH₀, hgap⟩ := hent1 _ hat.host
            rw [(hsame 0 (by decide)).host] at hH₀
            have hgap' : t ≤ H₀.born + gap := hgap
            have hpg := hpair.gap
            have key : ∃ g₀, σ 0 = .at H₀.born g₀ ∧ Fresh g₀.dev ∧ H₀.born ≤ t := by
              rcases hs.at 0 with ⟨-, hb⟩ | ⟨H, g, e, h1, h2⟩ | ⟨H, lo, -, hbd, hf⟩
              · rw [hb.host] at hH₀; cases hH₀
              · rw [h2.host] at hH₀
                cases hH₀
                have hlo := Nat.le_trans h2.lo hin.now
                refine ⟨g, e, ?_, Nat.le_trans (h1.from hpair.leads) hlo⟩
                by_contra hnf
                have := h1.after hpair.leads hnf
                omega
              · rw [hf.host] at hH₀
                cases hH₀
                have hlo := Nat.le_trans hf.lo hin.now
                have := hbd.1 hpair.leads
                omega
            obtain ⟨g₀, k1, k2, k3⟩ := key
            refine ⟨?_, ?_, ?_⟩
            · intro h hh
              rw [Function.update_of_ne (by omega)]
              exact hlk.two h hh
            · intro _
              rw [Function.update_self, Function.update_of_ne (by decide), k1]
              exact ⟨_, _, rfl, rfl, k3, hgap'⟩
            · intro _ _ _ _
              rw [Function.update_of_ne (by decide)]
              exact ⟨_, _, k1, k2⟩
          | y + 2, _, _, _, hat, _, hent2 =>
            have := hent2 (y + 2) (by omega)
            rw [hat.host] at this
            cases this
    · intro o ho x m sid k e
      subst e
      rcases List.mem_pair.mp ho with e | e <;> cases e
    · show (s.clock.sys.pica.devices.insert y (dev₀ y)).length + _ ≤ n
      rw [AMap.length_insert, hb.dev]
      rw [hq, List.count_cons_self] at hfew
      show s.clock.sys.pica.devices.length + 1 + _ ≤ n
      omega
    · intro h hh
      have hh' : y + 1 ≤ h := hh
      rw [off_hosts (hoff h (by omega))]
      exact hg.fresh h (by omega)
  | stopRanging m sid => exact absurd (by rw [hq]; exact List.mem_cons_self) (hg.plain m sid)
  | createAnchor m =>
    have hout : ∃ p' r, s.clock.sys.pica.createAnchor m = .ok (p', [.anchorReply r]) ∧ p'.devices = s.clock.sys.pica.devices ∧
        s.clock.sys.pica.counter ≤ p'.counter := by
      unfold Pica.createAnchor
      split
      · exact ⟨_, _, rfl, rfl, Nat.le_refl _⟩
      · rename_i h1
        split
        · rename_i h2
          exact absurd (by unfold Pica.macKnown; rw [h2]; rfl) h1
        · exact ⟨_, _, rfl, rfl, Nat.le_succ _⟩
    obtain ⟨p', r, e1, e2, e3⟩ := hout
    exact ⟨p', _, e1, fun _ _ => hg.anchors hin hq rfl e2 e3 (by rw [hcount (by simp)]; exact hfew)⟩
  | destroyAnchor m =>
    have hout : ∃ p' r, s.clock.sys.pica.destroyAnchor m = (p', [.anchorReply r]) ∧ p'.devices = s.clock.sys.pica.devices ∧
        s.clock.sys.pica.counter ≤ p'.counter := by
      unfold Pica.destroyAnchor
      split <;> exact ⟨_, _, rfl, rfl, Nat.le_refl _⟩
    obtain ⟨p', r, e1, e2, e3⟩ := hout
    exact ⟨p', _, congrArg Except.ok e1, fun _ _ => hg.anchors hin hq rfl e2 e3 (by rw [hcount (by simp)]; exact hfew)⟩

/-! ### The steps -/

/-- The number of connections a step asks for. -/
def Label.connects : Label → Nat
  | .emulator (.request .connect) => 1
  | _ => 0

/-- The steps that do not process a command, as far as the commands are concerned. -/
theorem Going.keep (hg : Going plan late lag gap n s) {l : System.Label} (hs : System.Step s.clock.sys l u.clock.sys)
    (hup : u.clock.sys.stopped = false) (hlen : u.stamps.length = u.clock.sys.queue.length)
    (hpast : ∀ a ∈ u.stamps, a ≤ u.clock.now) (hjoint : Joint plan late lag gap u)
    (hcnt : u.clock.sys.pica.counter = s.clock.sys.pica.counter) (hhosts : ∀ h, s.clock.sys.pica.counter ≤ h → u.hosts.get? h = none)
    (hst : u.clock.sys.stops = s.clock.sys.stops) (hplain : ∀ m sid, Command.stopRanging m sid ∉ u.clock.sys.queue) {n' : Nat}
    (hfew : u.clock.sys.pica.devices.length + u.clock.sys.queue.count .connect ≤ n') : Going plan late lag gap n' u := by
  obtain ⟨ls, hr⟩ := hg.reach
  exact ⟨⟨_, .step hr hg.up hs⟩, hup, hlen, hpast, hjoint, by rw [hcnt]; exact hhosts, by rw [hst]; exact hg.stops, hplain, hfew⟩

theorem push_plain {q : List Command} {c : Command} (h : ∀ m sid, Command.stopRanging m sid ∉ q) (hc : ∀ m sid, c ≠ .stopRanging m sid)
    (m : MacAddress) (sid : UInt32) : Command.stopRanging m sid ∉ q ++ [c] := by
  intro hm
  rcases List.mem_append.mp hm with hm | hm
  · exact h m sid hm
  · exact hc m sid (List.mem_singleton.mp hm).symm

theorem push_past {st : List Nat} {a t : Nat} (h : ∀ x ∈ st, x ≤ a) (ht : a ≤ t) : ∀ x ∈ st ++ [t], x ≤ t := by
  intro x hx
  rcases List.mem_append.mp hx with hx | hx
  · exact Nat.le_trans (h x hx) ht
  · rw [List.mem_singleton.mp hx]

theorem push_count {q : List Command} {c : Command} (hc : c ≠ .connect) : (q ++ [c]).count .connect = q.count .connect := by
  rw [List.count_append, List.count_cons_of_ne hc, List.count_nil, Nat.add_zero]

/-- A command about another host is put in the queue. -/
theorem same_push {c : Command} (hlen : s.stamps.length = s.clock.sys.queue.length) (hc : about c ≠ some h)
    (hq : u.clock.sys.queue = s.clock.sys.queue ++ [c]) (hst : u.stamps = s.stamps ++ [t]) :
    pending h u.stamps u.clock.sys.queue = pending h s.stamps s.clock.sys.queue := by
  rw [hq, hst, pending_push hlen, if_neg hc, List.append_nil]

/-- Nothing but the clock, the queue and other hosts has changed. -/
theorem same_hosts (hsys : ∃ q conns, u.clock.sys = { s.clock.sys with queue := q, conns := conns } ∧
      conns.get? h = s.clock.sys.conns.get? h)
    (hq : pending h u.stamps u.clock.sys.queue = pending h s.stamps s.clock.sys.queue)
    (hn : u.clock.naps = s.clock.naps) (hw : u.clock.wakes = s.clock.wakes) (hho : u.hosts.get? h = s.hosts.get? h) : Same h s u := by
  obtain ⟨q, conns, e, hc⟩ := hsys
  refine ⟨⟨by rw [e], hq, by rw [hn], ?_, ?_, ?_, by rw [e]; exact hc⟩, hho⟩
  · intro k hk _; rw [e] at hk; exact hk
  · intro id hk; rw [e]; exact hk
  · intro k _ _; rw [hw]

/-- A step keeps it. -/
theorem Going.step (hg : Going plan late lag gap n s) (hlate : late < 4000) (hlag : lag < 250000) {l : Label} {u : Test}
    (hn : n + l.connects ≤ 247) (hin : InTime late lag t s) (hs : Step (scripts plan) t s l u) (hent : Entry gap plan u)
    (hsee : ∀ ev, l = .emulator (.process ev) → Sees plan ev.env.estimate) :
    Going plan late lag gap (n + l.connects) u := by
  obtain ⟨σ, hst, hlk⟩ := hg.joint
  have hi := System.reachable_inv hg.reach
  have hsome : ∀ {h : Nat} {H : Host}, s.hosts.get? h = some H → h < s.clock.sys.pica.counter := by
    intro h H hH
    by_contra hc
    rw [hg.fresh h (by omega)] at hH
    cases hH
  have hpast : ∀ a ∈ s.stamps, a ≤ t := fun a ha => Nat.le_trans (hg.past a ha) hin.now
  have hlen := hg.len
  have hpush : (s.stamps ++ [t]).length = s.stamps.length + 1 := by simp
  have hfew := hg.few
  cases hs with
  | emulator hf hc =>
    rename_i l u
    cases hc with
    | plain hp hs =>
      cases hs with
      | @request c hx hroom =>
        have hab : about c = none := by cases c <;> first | rfl | exact hx.elim
        have hst' : ∀ m sid, c ≠ .stopRanging m sid := by rintro m sid rfl; exact hx
        refine Going.keep (u := ⟨{ s.clock with sys := { s.clock.sys with queue := s.clock.sys.queue ++ [c] }, now := t }, s.stamps ++ [t], s.hosts⟩) hg (.request hx hroom) hg.up (by simp [hlen]) (push_past hg.past hin.now) (hg.joint.same hin fun h => ?_) rfl hg.fresh rfl
          (push_plain hg.plain hst') ?_
        · exact same_hosts ⟨_, _, rfl, rfl⟩ (same_push hlen (by rw [hab]; simp) rfl rfl) rfl rfl rfl
        · show _ + (s.clock.sys.queue ++ [c]).count .connect ≤ _
          by_cases hcc : c = .connect
          · subst hcc
            rw [List.count_append]
            show s.clock.sys.pica.devices.length + (_ + 1) ≤ n + 1
            omega
          · rw [push_count hcc]
            exact Nat.le_trans hfew (Nat.le_add_right _ _)
      | packet => exact hf.elim
      | fails => exact hf.elim
      | @closes y hc =>
        obtain ⟨H, hH, htodo⟩ := hf
        refine Going.keep (u := ⟨{ s.clock with sys := { s.clock.sys with conns := s.clock.sys.conns.insert y .closing }, now := t }, s.stamps, s.hosts⟩) hg (.closes hc) hg.up hlen hpast ?_ rfl hg.fresh rfl hg.plain hfew
        rcases hst.at y with ⟨-, hb⟩ | ⟨H', g, -, h1, h2⟩ | ⟨H', lo, hσ, hbd, hf⟩
        · rw [hb.host] at hH; cases hH
        · rw [h2.host] at hH
          cases hH
          obtain ⟨_, -, -, -, hlv, -⟩ := h2.waits.late
          rw [htodo] at hlv
          exact absurd hlv.none h1.open
        · refine hst.move (y := y) (st := .done H'.born lo) hlk hin (fun h hh => same_hosts ⟨_, _, rfl, AMap.get?_insert_of_ne hh⟩ rfl rfl rfl rfl)
            ⟨H', rfl, hf.dev, hf.queue, hf.timer, hf.host, (hf.later hin).1, (hf.later hin).2.1, (hf.later hin).2.2⟩ hbd (by rw [hσ]; exact rfl)
      | @leaves y hc hroom =>
        refine Going.keep (u := ⟨{ s.clock with sys := { s.clock.sys with conns := s.clock.sys.conns.erase y, queue := s.clock.sys.queue ++ [.disconnect y] }, now := t }, s.stamps ++ [t], s.hosts⟩) hg (.leaves hc hroom) hg.up (by simp [hlen]) (push_past hg.past hin.now) ?_ rfl hg.fresh rfl
          (push_plain hg.plain (by simp)) (by
            show _ + (s.clock.sys.queue ++ [Command.disconnect y]).count .connect ≤ _
            rw [push_count (by simp)]
            exact hfew)
        rcases hst.at y with ⟨-, hb⟩ | ⟨H', g, -, h1, h2⟩ | ⟨H', lo, hσ, hbd, hf⟩
        · rw [hb.conn] at hc; cases hc
        · rw [h2.conn] at hc; cases hc
        · refine hst.move (y := y) (st := .done H'.born lo) hlk hin (fun h hh => same_hosts ⟨_, _, rfl, AMap.get?_erase_of_ne hh⟩
              (same_push (c := .disconnect y) hlen (fun e => hh (Option.some.inj e).symm) rfl rfl) rfl rfl rfl)
            ⟨H', rfl, hf.dev, ?_, hf.timer, hf.host, (hf.later hin).1, (hf.later hin).2.1, (hf.later hin).2.2⟩ hbd (by rw [hσ]; exact rfl)
          intro x hx
          have hx' : x ∈ pending y (s.stamps ++ [t]) (s.clock.sys.queue ++ [.disconnect y]) := hx
          rw [pending_push hlen, if_pos (show about (.disconnect y) = some y from rfl)] at hx'
          rcases List.mem_append.mp hx' with hx' | hx'
          · exact hf.queue x hx'
          · rw [List.mem_singleton.mp hx']
      | tick => exact hp.elim
      | notifies => exact hp.elim
      | process => exact hp.elim
      | @dies k hk hab =>
        refine Going.keep (u := ⟨{ s.clock with sys := { s.clock.sys with timers := s.clock.sys.timers.erase k }, now := t }, s.stamps, s.hosts⟩) hg (.dies hk hab) hg.up hlen hpast (hg.joint.same hin fun h => ?_) rfl hg.fresh rfl hg.plain hfew
        refine ⟨⟨rfl, rfl, .refl _, fun z hz _ => List.mem_of_mem_erase hz, fun id hz => ?_, fun _ _ _ => rfl, rfl⟩, rfl⟩
        refine (List.mem_erase_of_ne ?_).mpr hz
        rintro rfl
        cases hab
      | inBand hm => rw [hg.stops] at hm; cases hm
      | @panics est c q x hq hx =>
        obtain ⟨p', out, h1, -⟩ := hg.process (Nat.le_trans (Nat.le_add_right _ _) hn) hlate hlag hin hq est
        rw [hx] at h1
        cases h1
      | @shuffle p hr =>
        obtain ⟨h1, -, -, h2⟩ := Pica.reorder_dev hi.pica hr
        have hlenp : p.devices.length = s.clock.sys.pica.devices.length := by
          cases hr with
          | devices h => exact h.length_eq
          | anchors => rfl
          | sessions hd _ => show (AMap.insert _ _ _).length = _; rw [AMap.length_insert, hd]; rfl
        refine Going.keep (u := ⟨{ s.clock with sys := { s.clock.sys with pica := p }, now := t }, s.stamps, s.hosts⟩) hg (.shuffle hr) hg.up hlen hpast (hg.joint.same hin fun h => ?_) h1 hg.fresh rfl hg.plain (by
          show p.devices.length + _ ≤ _
          rw [hlenp]; exact hfew)
        refine ⟨⟨?_, rfl, .refl _, fun z hz _ => hz, fun id hz => hz, fun _ _ _ => rfl, rfl⟩, rfl⟩
        rcases h2 h with e | ⟨d, l, h3, h4, h5⟩
        · exact e
        · refine h5.trans (Eq.trans ?_ h3.symm)
          have : l = d.sessions := by
            rcases hg.joint.sessions h3 with e | ⟨st, seq, data, cfg, k, e, -⟩
            · rw [e] at h4 ⊢; exact h4.eq_nil
            · rw [e] at h4 ⊢; exact List.perm_singleton.mp h4
          rw [this]
    | @notifies y m due l u hp hdue hs =>
      cases hs with
      | notifies hl =>
        rename_i l'
        have hsame : ∀ h, h ≠ y → Same h s ⟨{ s.clock with sys := { s.clock.sys with ntfs := l' }, now := t, naps := l }, s.stamps, post t y (.ntf m) s.hosts⟩ := by
          intro h hh
          refine ⟨⟨rfl, rfl, ?_, fun z hz _ => hz, fun id hz => hz, fun _ _ _ => rfl, rfl⟩, post_ne (fun e => hh e.symm)⟩
          have := hp.filterMap fun x : Nat × Ntf × Nat => if x.1 = h then some (x.2.2, x.2.1) else none
          rw [List.filterMap_cons, show (if y = h then some (due, m) else none) = none from if_neg fun e => hh e.symm] at this
          exact this.symm
        have hH : ∃ H, s.hosts.get? y = some H := by
          rcases hg.holds y with hb | ⟨H, ⟨g, h1, h2⟩ | ⟨lo, -, hf⟩⟩
          · have := napsOf_cons hp
            rw [hb.naps] at this
            cases this.symm.eq_nil
          · exact ⟨H, h2.host⟩
          · exact ⟨H, hf.host⟩
        obtain ⟨H₀, hH⟩ := hH
        refine Going.keep (u := ⟨{ s.clock with sys := { s.clock.sys with ntfs := l' }, now := t, naps := l }, s.stamps, post t y (.ntf m) s.hosts⟩) hg (.notifies hl) hg.up hlen hpast ?_ rfl ?_ rfl hg.plain hfew
        · rcases hst.at y with ⟨-, hb⟩ | ⟨H, g, hσ, h1, h2⟩ | ⟨H, lo, hσ, hbd, hf⟩
          · rw [hb.host] at hH; cases hH
          · have hd := h2.deadline hin h1.due
            obtain ⟨x, m', ns, rest, g1, g2, g3, g4, g5⟩ := h1.note hlate (h2.naps.symm.trans (napsOf_cons hp)) hdue hd (Nat.le_trans h2.lo hin.now)
            refine hst.move (y := y) (st := .at H.born _) hlk hin hsame ⟨H.hear t (.ntf m), rfl, h2.note g1 g2 g3 hin.now ⟨_, rfl⟩ g5⟩ g4 ?_
            rw [hσ]
            refine ⟨rfl, fun _ => id, fun hpl o n hm => hpl o n ?_⟩
            rw [g2]
            exact List.mem_cons_of_mem _ hm
          · obtain ⟨e1, e2, e3⟩ := hf.later hin
            exact hst.move (y := y) (st := .done H.born lo) hlk hin hsame ⟨H.hear t (.ntf m), rfl, hf.dev, hf.queue, hf.timer, post_self hf.host,
              hf.waits.spare (.inl rfl) hin.now, e2, e3⟩ hbd (by rw [hσ]; exact rfl)
        · intro h hh
          have := hsome hH
          show (post t y (.ntf m) s.hosts).get? h = none
          rw [post_ne (by omega)]
          exact hg.fresh h hh
    | @tick k i due u hw hdue hs =>
      cases hs with
      | tick hk hroom =>
        refine Going.keep (u := ⟨{ s.clock with sys := { s.clock.sys with queue := s.clock.sys.queue ++ [.ranging k.device k.session] }, now := t, wakes := if k.aborted then s.clock.wakes.erase k.id else s.clock.wakes.insert k.id (i, t + i) }, s.stamps ++ [t], s.hosts⟩) hg (.tick hk hroom) hg.up (by simp [hlen]) (push_past hg.past hin.now) ?_ rfl hg.fresh rfl
          (push_plain hg.plain (by simp)) (by
            show _ + (s.clock.sys.queue ++ [Command.ranging k.device k.session]).count .connect ≤ _
            rw [push_count (by simp)]
            exact hfew)
        have hsame : ∀ h, h ≠ k.device → Same h s ⟨{ s.clock with sys := { s.clock.sys with queue := s.clock.sys.queue ++ [.ranging k.device k.session] }, now := t, wakes := if k.aborted then s.clock.wakes.erase k.id else s.clock.wakes.insert k.id (i, t + i) }, s.stamps ++ [t], s.hosts⟩ := by
          intro h hh
          refine ⟨⟨rfl, same_push (c := .ranging k.device k.session) hlen (fun e => hh (Option.some.inj e).symm) rfl rfl, .refl _, fun z hz _ => hz, fun id hz => hz,
            fun z hz hzd => ?_, rfl⟩, rfl⟩
          have hne : z.id ≠ k.id := by
            intro e
            rw [System.unique hi.ids hz hk e] at hzd
            exact hh hzd.symm
          show AMap.get? (if k.aborted then _ else _) _ = _
          split
          · exact AMap.get?_erase_of_ne hne
          · exact AMap.get?_insert_of_ne hne
        rcases hst.at k.device with ⟨-, hb⟩ | ⟨H, g, hσ, h1, h2⟩ | ⟨H, lo, hσ, hbd, hf⟩
        · exact absurd rfl (hb.timer k hk)
        · have hd := h2.deadline hin h1.due
          obtain ⟨e1, -⟩ := h2.timer.1 k hk rfl i due hw
          obtain ⟨g1, g2⟩ := h1.tick hlate hlag e1 hdue hd (hst.soon hlk hlate hin hσ)
          exact hst.move (y := k.device) (st := .at H.born _) hlk hin hsame ⟨H, rfl, (h2.tick hlen hk rfl hw g1 hin).2⟩ g2
            (by rw [hσ]; exact ⟨rfl, fun _ => id, id⟩)
        · obtain ⟨e1, -⟩ := hf.timer.1 k hk rfl i due hw
          cases e1
    | process hs =>
      cases hs with
      | @process est c q p out hq hx =>
        obtain ⟨p', out', h1, h2⟩ := hg.process (Nat.le_trans (Nat.le_add_right _ _) hn) hlate hlag hin hq est
        rw [hx] at h1
        obtain ⟨rfl, rfl⟩ := Prod.mk.inj (Except.ok.inj h1)
        have h2 := h2 (hsee _ rfl) hent
        obtain ⟨f1, f2, f3, f4⟩ := System.applyAll_frame out { s.clock.sys with pica := p, queue := q, spawned := s.clock.sys.spawned + 1 }
        obtain ⟨ls, hr⟩ := hg.reach
        refine ⟨⟨_, .step hr hg.up (.process hq hx)⟩, ?_, ?_, ?_, h2.joint, ?_, ?_, ?_, ?_⟩
        · show (out.foldl System.apply _).stopped = false
          rw [f4]; exact hg.up
        · show s.stamps.tail.length = (out.foldl System.apply _).queue.length
          rw [f2, List.length_tail, hlen, hq]; rfl
        · intro a ha
          exact hpast a (List.mem_of_mem_tail ha)
        · intro h hh
          have hh' : (out.foldl System.apply _).pica.counter ≤ h := hh
          rw [f1] at hh'
          exact h2.fresh h hh'
        · show (out.foldl System.apply _).stops = []
          rw [off_stops h2.plain]; exact hg.stops
        · intro m sid
          show _ ∉ (out.foldl System.apply _).queue
          rw [f2]
          intro hm
          exact hg.plain m sid (by rw [hq]; exact List.mem_cons_of_mem _ hm)
        · show (out.foldl System.apply _).pica.devices.length + (out.foldl System.apply _).queue.count .connect ≤ n
          rw [f1, f2]
          exact h2.few
  | @sends y H c todo b u hH hok htodo hctl hc =>
    cases hc with
    | plain hp hs =>
      cases hs with
      | packet hcn hroom =>
        refine Going.keep (u := ⟨{ s.clock with sys := { s.clock.sys with queue := s.clock.sys.queue ++ [.uciPacket y b] }, now := t },
            s.stamps ++ [t], s.hosts.insert y { H with todo := todo, since := t, able := t }⟩) hg (.packet hcn hroom) hg.up (by simp [hlen])
          (push_past hg.past hin.now) ?_ rfl ?_ rfl (push_plain hg.plain (by simp)) (by
            show _ + (s.clock.sys.queue ++ [Command.uciPacket y b]).count .connect ≤ _
            rw [push_count (by simp)]
            exact hfew)
        · rcases hst.at y with ⟨-, hb⟩ | ⟨H', g, hσ, h1, h2⟩ | ⟨H', lo, -, -, hf⟩
          · rw [hb.host] at hH; cases hH
          · rw [h2.host] at hH
            cases hH
            have hd := h2.deadline hin h1.due
            obtain ⟨e1, -⟩ := h2.waits.send (t := t) htodo
            obtain ⟨g1, x, g3, g4⟩ := h1.send e1 hd (Nat.le_trans h2.lo hin.now)
            rw [hctl] at g3
            cases g3
            refine hst.move (y := y) (st := .at H.born _) hlk hin (fun h hh => same_hosts ⟨_, _, rfl, rfl⟩
              (same_push (c := .uciPacket y b) hlen (fun e => hh (Option.some.inj e).symm) rfl rfl) rfl rfl (AMap.get?_insert_of_ne hh))
              ⟨{ H with todo := todo, since := t, able := t }, rfl, h2.sends hlen g1 htodo e1⟩ g4 ?_
            rw [hσ]
            refine ⟨rfl, fun _ => id, fun hpl o n hm => hpl o n ?_⟩
            rw [e1]
            exact List.mem_cons_of_mem _ hm
          · rw [hf.host] at hH
            cases hH
            cases (hf.waits.send (t := t) htodo).1
        · intro h hh
          have := hsome hH
          show (s.hosts.insert y _).get? h = none
          rw [AMap.get?_insert_of_ne (by omega)]
          exact hg.fresh h hh
  | @raises y H c todo hH hok htodo hctl =>
    exfalso
    rcases hg.holds y with hb | ⟨H', ⟨g, h1, h2⟩ | ⟨lo, -, hf⟩⟩
    · rw [hb.host] at hH; cases hH
    · rw [h2.host] at hH
      cases hH
      have hd := h2.deadline hin h1.due
      obtain ⟨e1, -⟩ := h2.waits.send (t := t) htodo
      obtain ⟨g1, x, g3, g4⟩ := h1.send e1 hd (Nat.le_trans h2.lo hin.now)
      rw [hctl] at g3
      cases g3
    · rw [hf.host] at hH
      cases hH
      cases (hf.waits.send (t := t) htodo).1
  | @gets y H x timeout a b todo rest hH hok htodo hib =>
    have key : accepts x b = true ∧ Joint plan late lag gap
        ⟨{ s.clock with now := t }, s.stamps, s.hosts.insert y { H.take x rest with todo := todo, since := t, able := max H.able a }⟩ := by
      have hsame : ∀ G h, h ≠ y → Same h s ⟨{ s.clock with now := t }, s.stamps, s.hosts.insert y G⟩ :=
        fun G h hh => same_hosts ⟨_, _, rfl, rfl⟩ rfl rfl rfl (AMap.get?_insert_of_ne hh)
      have hborn : (H.take x rest).born = H.born := by unfold Host.take; split <;> rfl
      rcases hst.at y with ⟨-, hb⟩ | ⟨H', g, hσ, h1, h2⟩ | ⟨H', lo, hσ, hbd, hf⟩
      · rw [hb.host] at hH; cases hH
      · rw [h2.host] at hH
        cases hH
        obtain ⟨g1, g2⟩ := h2.gets htodo hib hin (h2.deadline hin h1.due)
        exact ⟨g1, hst.move (y := y) (st := .at H.born g) hlk hin (hsame _) ⟨{ H.take x rest with todo := todo, since := t, able := max H.able a }, hborn, g2⟩ h1 (by rw [hσ]; exact ⟨rfl, fun _ => id, id⟩)⟩
      · rw [hf.host] at hH
        cases hH
        have hqk := (hin.hosts y H hf.host hok).2 x timeout todo htodo (a, b) rest hib
        obtain ⟨e1, e2, e3⟩ := hf.later hin
        obtain ⟨g1, g2⟩ := hf.waits.get htodo hib e2 hin.now hqk
        refine ⟨g1, hst.move (y := y) (st := .done H.born lo) hlk hin (hsame _) ⟨{ H.take x rest with todo := todo, since := t, able := max H.able a }, hborn, hf.dev, hf.queue, hf.timer, AMap.get?_insert_self _ _ _, g2, e2,
          fun _ => e3 (by rw [htodo]; simp)⟩ hbd (by rw [hσ]; exact rfl)⟩
    rw [if_pos key.1]
    refine ⟨hg.reach, hg.up, hlen, hpast, key.2, ?_, hg.stops, hg.plain, hfew⟩
    intro h hh
    have := hsome hH
    have hh' : s.clock.sys.pica.counter ≤ h := hh
    show (s.hosts.insert y _).get? h = none
    rw [AMap.get?_insert_of_ne (by omega)]
    exact hg.fresh h hh
  | @times y H x timeout todo hH hok htodo hib htime =>
    exfalso
    rcases hst.at y with ⟨-, hb⟩ | ⟨H', g, hσ, h1, h2⟩ | ⟨H', lo, -, -, hf⟩
    · rw [hb.host] at hH; cases hH
    · rw [h2.host] at hH
      cases hH
      obtain ⟨⟨r, e1⟩, e2⟩ := h2.waits.empty htodo hib
      have := h1.patient hlate hlag e1 (h2.deadline hin h1.due) (hst.soon hlk hlate hin hσ)
      omega
    · rw [hf.host] at hH
      cases hH
      obtain ⟨⟨r, e1⟩, -⟩ := hf.waits.empty htodo hib
      cases e1

/-! ### The runs -/

/-- Nothing has happened yet. -/
theorem going_new (hl : Links late lag gap plan fun _ => .blank) : Going plan late lag gap 0 .new where
  reach := ⟨[], .nil⟩
  up := rfl
  len := rfl
  past := by intro a ha; cases ha
  joint := ⟨fun _ => .blank, ⟨fun h => ⟨rfl, rfl, rfl, (by intro k hk; cases hk), rfl, rfl⟩, fun h => trivial⟩, hl⟩
  fresh _ _ := rfl
  stops := rfl
  plain _ _ := by intro h; cases h
  few := Nat.le_refl _

/-- The number of connections asked for in a run. -/
def connects (ls : List (Nat × Label)) : Nat := (ls.map fun x => x.2.connects).sum

/-- When the host `h` connected. -/
def bornAt (hosts : AMap Nat Host) (h : Nat) : Option Nat := (hosts.get? h).map Host.born

/-- Only hosts with a number not yet given connect between `s` and `u`. -/
def Later (s u : Test) : Prop :=
  s.clock.sys.pica.counter ≤ u.clock.sys.pica.counter ∧ ∀ h, h < s.clock.sys.pica.counter → bornAt u.hosts h = bornAt s.hosts h

theorem Later.trans {v : Test} (h1 : Later s u) (h2 : Later u v) : Later s v :=
  ⟨Nat.le_trans h1.1 h2.1, fun h hh => (h2.2 h (Nat.lt_of_lt_of_le hh h1.1)).trans (h1.2 h hh)⟩

/-- Numbers not yet given have no host. -/
def Known (s : Test) : Prop := ∀ h, s.clock.sys.pica.counter ≤ h → s.hosts.get? h = none

theorem born_insert {hosts : AMap Nat Host} {y : Nat} {H G : Host} (hH : hosts.get? y = some H) (hG : G.born = H.born) (h : Nat) :
    bornAt (hosts.insert y G) h = bornAt hosts h := by
  unfold bornAt
  rw [AMap.get?_insert]
  split
  · rename_i e
    subst e
    rw [hH]
    exact congrArg some hG
  · rfl

theorem born_post {hosts : AMap Nat Host} {y : Nat} {p : Packet} (h : Nat) : bornAt (post t y p hosts) h = bornAt hosts h := by
  unfold post
  split
  · rename_i H hH
    exact born_insert (H := H) hH (by exact rfl) h
  · rfl

theorem born_hears {sc : Nat → List Statement} (out : List Out) {hosts : AMap Nat Host} (ho : ∀ k m, .event (.connected k m) ∈ out → k ≠ h) :
    bornAt (out.foldl (hears sc t) hosts) h = bornAt hosts h := by
  induction out generalizing hosts with
  | nil => rfl
  | cons o out ih =>
    rw [List.foldl_cons, ih fun k m hm => ho k m (List.mem_cons_of_mem _ hm)]
    cases o with
    | send y p => exact born_post h
    | event e =>
      cases e with
      | connected y m =>
        unfold bornAt
        show ((hosts.insert y _).get? h).map _ = _
        rw [AMap.get?_insert_of_ne fun e => ho y m List.mem_cons_self e.symm]
      | disconnected => rfl
    | _ => rfl

theorem known_of (hk : Known s) (hc : s.clock.sys.pica.counter ≤ u.clock.sys.pica.counter)
    (hb : ∀ h, u.clock.sys.pica.counter ≤ h → bornAt u.hosts h = bornAt s.hosts h) : Known u := by
  intro h hh
  have h1 := hb h hh
  unfold bornAt at h1
  rw [hk h (Nat.le_trans hc hh)] at h1
  cases hu : u.hosts.get? h with
  | none => rfl
  | some H => rw [hu] at h1; cases h1

theorem step_later {sc : Nat → List Statement} {l : Label} (hk : Known s) (hs : Step sc t s l u) : Later s u ∧ Known u := by
  have key : s.clock.sys.pica.counter ≤ u.clock.sys.pica.counter →
      (∀ h, h < s.clock.sys.pica.counter ∨ u.clock.sys.pica.counter ≤ h → bornAt u.hosts h = bornAt s.hosts h) → Later s u ∧ Known u :=
    fun h1 h2 => ⟨⟨h1, fun h hh => h2 h (.inl hh)⟩, known_of hk h1 fun h hh => h2 h (.inr hh)⟩
  have same : ∀ {l : System.Label} {c : Clock}, Clock.Step t s.clock l c → (∀ ev, l ≠ .process ev) → c.sys.pica.counter = s.clock.sys.pica.counter := by
    intro l c hc hl
    cases hc with
    | plain hp hc =>
      cases hc with
      | shuffle hr => cases hr <;> rfl
      | process => exact absurd rfl (hl _)
      | _ => rfl
    | notifies _ _ hc => cases hc; rfl
    | tick _ _ hc => cases hc; rfl
    | process hc => exact absurd rfl (hl _)
  cases hs with
  | @emulator l c hf hc =>
    by_cases hl : ∃ ev, l = .process ev
    · obtain ⟨ev, rfl⟩ := hl
      cases hc with
      | plain hp => exact hp.elim
      | process hc =>
        cases hc with
        | @process est c q p' out hq hx =>
          have hcnt : s.clock.sys.pica.counter ≤ p'.counter := Pica.step_counter hx
          refine key ?_ fun h hh => ?_
          · show _ ≤ (System.pica _).counter
            rw [(System.applyAll_frame _ _).1]
            exact hcnt
          · refine born_hears (hosts := s.hosts) out fun k m hm e => ?_
            obtain ⟨rfl, rfl⟩ := step_connected hx hm
            subst e
            rcases hh with hh | hh
            · exact Nat.lt_irrefl _ hh
            · have hh' : (System.pica _).counter ≤ s.clock.sys.pica.counter := hh
              rw [(System.applyAll_frame _ _).1] at hh'
              cases hx
              exact absurd hh' (Nat.not_succ_le_self _)
    · refine key (Nat.le_of_eq (same hc fun ev e => hl ⟨ev, e⟩).symm) fun h _ => ?_
      show bornAt (after sc t s.hosts l) h = _
      unfold after
      split
      · exact absurd ⟨_, rfl⟩ hl
      · exact born_post h
      · rfl
  | @sends y H c todo b u hH hok htodo hctl hc =>
    exact key (Nat.le_of_eq (same hc (by intro _ e; cases e)).symm) fun h _ => born_insert (H := H) hH (by exact rfl) h
  | @raises y H c todo hH hok htodo hctl => exact key (Nat.le_refl _) fun h _ => born_insert (H := H) hH (by exact rfl) h
  | @gets y H x timeout a b todo rest hH hok htodo hib =>
    refine key (Nat.le_refl _) fun h _ => born_insert hH ?_ h
    split
    · show (H.take x rest).born = _
      unfold Host.take
      split <;> rfl
    · rfl
  | @times y H x timeout todo hH hok htodo hib htime => exact key (Nat.le_refl _) fun h _ => born_insert (H := H) hH (by exact rfl) h

theorem run_known {sc : Nat → List Statement} {ls : List (Nat × Label)} (hr : Run sc late lag ls s) : Known s := by
  induction hr with
  | nil => exact fun _ _ => rfl
  | step _ _ _ hs ih => exact (step_later ih hs).2

theorem Entry.before (he : Entry gap plan u) (hl : Later s u) (hk : Known s) : Entry gap plan s := by
  rcases he with he | ⟨h2, h1⟩
  · exact .inl he
  · have hlt : ∀ {h H}, s.hosts.get? h = some H → h < s.clock.sys.pica.counter := by
      intro h H hH
      by_contra hn
      rw [hk h (by omega)] at hH
      cases hH
    have hu : ∀ {h H}, s.hosts.get? h = some H → ∃ H', u.hosts.get? h = some H' ∧ H'.born = H.born := by
      intro h H hH
      have h3 := hl.2 h (hlt hH)
      unfold bornAt at h3
      rw [hH] at h3
      obtain ⟨H', e1, e2⟩ := Option.map_eq_some_iff.mp h3
      exact ⟨H', e1, e2⟩
    refine .inr ⟨fun h hh => ?_, fun H₁ hH₁ => ?_⟩
    · cases hs : s.hosts.get? h with
      | none => rfl
      | some H =>
        obtain ⟨H', e, -⟩ := hu hs
        rw [h2 h hh] at e
        cases e
    · obtain ⟨H₁', e1, e2⟩ := hu hH₁
      obtain ⟨H₀', e3, e4⟩ := h1 H₁' e1
      have h3 := hl.2 0 (by have := hlt hH₁; omega)
      unfold bornAt at h3
      rw [e3] at h3
      obtain ⟨H₀, e5, e6⟩ := Option.map_eq_some_iff.mp h3.symm
      exact ⟨H₀, e5, by omega⟩

/-- The estimator sees the two hosts whenever a command is processed. -/
def AllSee (plan : Nat → Plan) (ls : List (Nat × Label)) : Prop :=
  ∀ t ev, (t, Label.emulator (.process ev)) ∈ ls → Sees plan ev.env.estimate

/-- All hosts range, or the first two are the hosts of the data transfer test. -/
def Plans (late lag gap : Nat) (plan : Nat → Plan) : Prop := (∀ h, (plan h).kind = .range) ∨ ∃ f, Pair late lag gap plan f

theorem run_going (hlate : late < 4000) (hlag : lag < 250000) (hpl : Plans late lag gap plan) {ls : List (Nat × Label)}
    (hr : Run (scripts plan) late lag ls s) (hn : connects ls ≤ 247) (hent : Entry gap plan s) (hsee : AllSee plan ls) :
    Going plan late lag gap (connects ls) s := by
  induction hr with
  | nil =>
    refine going_new ?_
    rcases hpl with h | ⟨f, h⟩
    · exact .inl h
    · exact .inr ⟨f, h, fun _ _ => rfl, fun h => absurd rfl h, by nofun⟩
  | step hr hup hin hs ih =>
    unfold connects at *
    rw [List.map_append, List.sum_append] at hn ⊢
    rw [List.map_singleton, List.sum_singleton] at hn ⊢
    have hk := run_known hr
    refine (ih (by omega) (hent.before (step_later hk hs).1 hk) fun t ev hm => hsee t ev (List.mem_append_left _ hm)).step hlate hlag hn hin hs hent ?_
    intro ev e
    subst e
    exact hsee _ ev (List.mem_append_right _ List.mem_cons_self)

end Pica.Tests
