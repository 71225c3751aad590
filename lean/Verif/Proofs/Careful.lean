import Verif.Proofs.Calm
/-! Careful schedules do not stop the emulator. -/

set_option linter.dupNamespace false

namespace Pica
open Spec SessionState Pica.System

/-- The session exists. -/
def Pica.Has (p : Pica) (h : Nat) (sid : UInt32) : Prop :=
  ∃ d x, p.devices.get? h = some d ∧ d.sessions.get? sid = some x

/-- Device `h` is not settled, or about to be started. -/
def System.Busy (s : System) (h : Nat) : Prop :=
  (∃ d, s.pica.devices.get? h = some d ∧ d.state ≠ .deviceStateReady) ∨ (∃ t ∈ s.timers, t.device = h) ∨
  (∃ sid, .ranging h sid ∈ s.queue) ∨ ∃ c ∈ s.queue, Starts h c

theorem not_busy {s : System} {h : Nat} (h1 : Settled s h) (h2 : ∀ c ∈ s.queue, ¬Starts h c) : ¬s.Busy h := by
  rintro (⟨d, hd, hn⟩ | ⟨t, ht, he⟩ | ⟨sid, hq⟩ | ⟨c, hc, hs⟩)
  · exact hn (h1.1 d hd)
  · exact h1.2.1 t ht he
  · exact h1.2.2 sid hq
  · exact h2 c hc hs

theorem has_book {p : Pica} {h : Nat} {sid : UInt32} : p.Has h sid ↔ bookOf (p.devices.get? h) sid ≠ none := by
  unfold Pica.Has bookOf
  cases p.devices.get? h with
  | none => simp
  | some d => cases hs : d.sessions.get? sid <;> simp [hs]

theorem applyAll_conns (out : List Out) (s : System) (h : Nat) :
    (out.foldl apply s).conns.get? h = s.conns.get? h ∨
    ((out.foldl apply s).conns.get? h = some .running ∧ ∃ mac, .event (.connected h mac) ∈ out) := by
  induction out generalizing s with
  | nil => exact .inl rfl
  | cons o out ih =>
    rw [List.foldl_cons]
    have h1 : (s.apply o).conns.get? h = s.conns.get? h ∨
        ((s.apply o).conns.get? h = some .running ∧ ∃ mac, o = .event (.connected h mac)) := by
      cases o with
      | event e =>
        cases e with
        | connected k mac =>
          show (s.conns.insert k _).get? h = _ ∨ (s.conns.insert k _).get? h = _ ∧ _
          rw [AMap.get?_insert]
          by_cases hk : k = h
          · subst hk; rw [if_pos rfl]; exact .inr ⟨rfl, mac, rfl⟩
          · rw [if_neg hk]; exact .inl rfl
        | disconnected => exact .inl rfl
      | effect k e => cases e <;> exact .inl rfl
      | send => exact .inl rfl
      | anchorReply => exact .inl rfl
    rcases ih (s.apply o) with h2 | ⟨h2, mac, h3⟩
    · rcases h1 with h1 | ⟨h1, mac, h3⟩
      · exact .inl (h2.trans h1)
      · exact .inr ⟨h2.trans h1, mac, by rw [h3]; exact List.mem_cons_self⟩
    · exact .inr ⟨h2, mac, List.mem_cons_of_mem _ h3⟩

theorem step_connected {p p' : Pica} {env : Env} {c : Command} {out : List Out} (hst : p.step env c = .ok (p', out))
    {h : Nat} {mac : MacAddress} (hm : .event (.connected h mac) ∈ out) : c = .connect ∧ h = p.counter := by
  cases c with
  | connect =>
    cases hst
    refine ⟨rfl, ?_⟩
    rcases List.mem_append.mp hm with hm | hm
    · obtain ⟨e, -, he⟩ := List.mem_map.mp hm; cases he
    · rcases List.mem_singleton.mp hm with he; cases he; rfl
  | disconnect y =>
    exfalso
    rw [show out = _ from (congrArg Prod.snd (Except.ok.inj hst)).symm] at hm
    unfold Pica.disconnect at hm
    split at hm
    · rcases List.mem_cons.mp hm with he | hm
      · cases he
      · obtain ⟨e, -, he⟩ := List.mem_map.mp hm; cases he
    · cases hm
  | ranging y sid =>
    exfalso
    obtain ⟨d, s, ms, ms', ts, o₁, -, -, -, -, h3, h4⟩ := Pica.ranging_ok hst
    have hno : ∀ (l : List Device) o, Pica.dataSends env.alive sid s l = .ok o → .event (.connected h mac) ∉ o := by
      intro l
      induction l with
      | nil => intro o ho; cases ho; exact List.not_mem_nil
      | cons q qs ih =>
        intro o ho hmem
        unfold Pica.dataSends at ho
        cases hmac : s.appConfig.deviceMacAddress with
        | none => rw [hmac] at ho; cases ho
        | some m =>
          simp only [hmac, bind, Except.bind] at ho
          split at ho
          · cases ho
          · rename_i o₂ h2
            split at ho
            · cases ho
            · rename_i o₃ h3
              cases ho
              rcases List.mem_append.mp hmem with hh | hh
              · rw [(Pica.plain_sendUnwrap h2).1] at hh
                rcases List.mem_singleton.mp hh with he; cases he
              · exact ih _ h3 hh
    rcases h4 with ⟨-, -, h4, -⟩ | ⟨-, h4, -⟩
    · rw [h4] at hm
      rcases List.mem_append.mp hm with hm | hm
      · exact hno _ _ h3 hm
      · rcases List.mem_singleton.mp hm with he; cases he
    · rw [h4] at hm; exact hno _ _ h3 hm
  | stopRanging m sid =>
    exfalso
    cases hst
    obtain ⟨e, -, hm⟩ := List.mem_flatMap.mp hm
    obtain ⟨e, -, he⟩ := List.mem_map.mp hm; cases he
  | uciPacket y bytes =>
    exfalso
    cases hd : p.devices.get? y with
    | none =>
      rw [Props.uci_absent hd] at hst
      rw [show out = [] from (congrArg Prod.snd (Except.ok.inj hst)).symm] at hm
      cases hm
    | some d =>
      rw [Props.uci_step hd] at hst
      cases hx : d.receivePacket env.tid bytes with
      | error z => rw [hx] at hst; cases hst
      | ok z =>
        obtain ⟨d', r, e⟩ := z
        rw [hx] at hst
        have hout : out = (r.map (.send y)).toList ++ e.map (.effect y) :=
          (congrArg Prod.snd (Except.ok.inj hst)).symm
        rw [hout] at hm
        rcases List.mem_append.mp hm with hm | hm
        · cases r with
          | none => cases hm
          | some r => rcases List.mem_singleton.mp hm with he; cases he
        · obtain ⟨e, -, he⟩ := List.mem_map.mp hm; cases he
  | createAnchor m =>
    exfalso
    change p.createAnchor m = _ at hst
    unfold Pica.createAnchor at hst
    split at hst
    · cases hst; rcases List.mem_singleton.mp hm with he; cases he
    · split at hst
      · cases hst
      · cases hst; rcases List.mem_singleton.mp hm with he; cases he
  | destroyAnchor m =>
    exfalso
    rw [show out = _ from (congrArg Prod.snd (Except.ok.inj hst)).symm] at hm
    unfold Pica.destroyAnchor at hm
    split at hm <;> (rcases List.mem_singleton.mp hm with he; cases he)

/-- What careful schedules keep. -/
structure Safe (n : Nat) (s : System) : Prop where
  up : s.stopped = false
  calm : s.pica.Calm n
  timer : ∀ t ∈ s.timers, s.pica.Has t.device t.session
  round : ∀ h sid, .ranging h sid ∈ s.queue → s.pica.Has h sid
  conn : ∀ h, s.Busy h → s.conns.get? h = some .running
  known : ∀ h c, s.conns.get? h = some c → h < s.pica.counter
  left : ∀ h, .disconnect h ∈ s.queue → s.conns.get? h = none ∧ h < s.pica.counter
  mild : ∀ h bytes, .uciPacket h bytes ∈ s.queue → ∃ x, IsCmd bytes x ∧ Mild x

theorem safe_new : Safe 0 .new where
  up := rfl
  calm := ⟨(by intro h d hd; cases hd), (by intro h d sid s hd; cases hd), Nat.zero_le _⟩
  timer := by intro t ht; cases ht
  round := by intro h sid ht; cases ht
  conn := by
    rintro h (⟨d, hd, -⟩ | ⟨t, ht, -⟩ | ⟨sid, hq⟩ | ⟨c, hc, -⟩)
    · cases hd
    · cases ht
    · cases hq
    · cases hc
  known := by intro h c hc; cases hc
  left := by intro h ht; cases ht
  mild := by intro h b ht; cases ht

theorem calm_mono {n m : Nat} {p : Pica} (h : p.Calm n) (hm : n ≤ m) : p.Calm m :=
  ⟨h.stray, fun a d sid s h1 h2 => let x := h.sess a d sid s h1 h2; ⟨x.type, x.config, x.data, x.count.trans hm⟩, h.devs⟩

/-- The head of the queue is processed without panic. -/
theorem head_survives {n : Nat} {s : System} (hr : s.Reachable) (hs : Safe n s) (hn : n + 1 < 2 ^ 32) {c : Command}
    {q : List Command} (hq : s.queue = c :: q) (hsd : s.pica.Sound c) (estimate : Nat → Nat → Option RangingMeasurement)
    (x : Panic) : s.pica.step (s.env estimate) c ≠ .error x := by
  have hp := Props.pica_reachable hr
  have hi := Pica.reachable_inv hp
  cases c with
  | connect => intro h; cases h
  | disconnect => intro h; cases h
  | stopRanging => intro h; cases h
  | destroyAnchor => intro h; cases h
  | createAnchor m =>
    intro h
    change s.pica.createAnchor m = _ at h
    unfold Pica.createAnchor at h
    split at h
    · cases h
    · rename_i h1
      split at h
      · rename_i h2
        exact h1 (by unfold Pica.macKnown; rw [h2]; rfl)
      · cases h
  | uciPacket h bytes => exact packet_survives hp hs.calm _ hsd x
  | ranging h sid =>
    obtain ⟨d, y, hd, hy⟩ := hs.round h sid (by rw [hq]; exact List.mem_cons_self)
    have hrun : ∀ k, s.Busy k → s.alive k = true := fun k hk => decide_eq_true (hs.conn k hk)
    obtain ⟨z, hz⟩ := round_survives hp hs.calm hn (s.env estimate) hd hy
      (hrun h (.inr (.inr (.inl ⟨sid, by rw [hq]; exact List.mem_cons_self⟩)))) (by
        intro k q t hk ht ha
        refine hrun k (.inl ⟨q, hk, fun hrdy => ready_inactive (hi.dev k q hk).2.2.2 hrdy sid ?_⟩)
        unfold stateOf; rw [ht]; exact ha)
    rw [hz]; intro h; cases h

/-- Commands put in the queue that are neither rounds nor packets. -/
theorem busy_enqueue {s u : System} {c : Command} (hp : u.pica = s.pica) (ht : u.timers = s.timers)
    (hq : u.queue = s.queue ++ [c]) {h : Nat} (h1 : ∀ sid, c = .ranging h sid → s.Busy h) (h2 : Starts h c → s.Busy h)
    (hb : u.Busy h) : s.Busy h := by
  unfold Busy at hb
  rw [hp, ht, hq] at hb
  rcases hb with hb | hb | ⟨sid, hb⟩ | ⟨c', hb, hs⟩
  · exact .inl hb
  · exact .inr (.inl hb)
  · rcases List.mem_append.mp hb with hb | hb
    · exact .inr (.inr (.inl ⟨sid, hb⟩))
    · exact h1 sid (List.mem_singleton.mp hb).symm
  · rcases List.mem_append.mp hb with hb | hb
    · exact .inr (.inr (.inr ⟨c', hb, hs⟩))
    · rw [List.mem_singleton.mp hb] at hs; exact h2 hs

/-- The head of the queue is sound. -/
theorem sound_head {n : Nat} {s : System} (hs : Safe n s) {l : Label} (hpr : Prudent s l) {c : Command}
    {q : List Command} (hq : s.queue = c :: q) (hd : dequeued l = some c) : s.pica.Sound c := by
  refine ⟨?_, ?_⟩
  · rintro h bytes rfl
    obtain ⟨x, hx, hm⟩ := hs.mild h bytes (by rw [hq]; exact List.mem_cons_self)
    exact ⟨x, hx, hm, fun hu => (hpr.2.2.1 h bytes x hd hx hu).1⟩
  · rintro rfl
    exact hpr.2.2.2 hd

theorem safe_process {n : Nat} {s u : System} (hr : s.Reachable) (hs : Safe n s) {ev : Pica.Event}
    (hst : Step s (.process ev) u) (hpr : Prudent s (.process ev)) : Safe (n + 1) u := by
  have hI := System.reachable_inv hr
  cases hst with
  | @process estimate c q p' out hq hstep =>
    have hsd := sound_head hs hpr hq rfl
    have hi := hI.pica
    have hcm : c ∈ s.queue := by rw [hq]; exact List.mem_cons_self
    have htail : ∀ x ∈ q, x ∈ s.queue := fun x hx => by rw [hq]; exact List.mem_cons_of_mem _ hx
    generalize hs₁ : ({ s with pica := p', queue := q, spawned := s.spawned + 1 } : System) = s₁
    obtain ⟨hf1, hf2, -, hf4⟩ := applyAll_frame out s₁
    have e1 : s₁.pica = p' := by rw [← hs₁]
    have e2 : s₁.queue = q := by rw [← hs₁]
    have e3 : s₁.stopped = s.stopped := by rw [← hs₁]
    have e4 : s₁.conns = s.conns := by rw [← hs₁]
    have e5 : s₁.timers = s.timers := by rw [← hs₁]
    rw [e1] at hf1
    rw [e2] at hf2
    rw [e3] at hf4
    have hconn := fun h => applyAll_conns out s₁ h
    rw [e4] at hconn
    -- the timers
    have htm : ∀ t ∈ (out.foldl apply s₁).timers, (∃ t₀ ∈ s.timers, t₀.device = t.device ∧ t₀.session = t.session) ∨
        (t.id, t.device, t.session) ∈ Pica.startsOut out := by
      intro t ht
      rcases Pica.step_one hi hstep with h0 | ⟨x, sid, -, h0⟩
      · rw [applyAll_aborts h0, e5] at ht
        obtain ⟨t₀, h1, rfl⟩ := List.mem_map.mp ht
        refine .inl ⟨t₀, h1, ?_⟩
        unfold markAll; split <;> exact ⟨rfl, rfl⟩
      · rw [applyAll_starts h0, e5] at ht
        rcases List.mem_append.mp ht with ht | ht
        · exact .inl ⟨t, ht, rfl, rfl⟩
        · obtain ⟨⟨a, b, c⟩, h1, rfl⟩ := List.mem_map.mp ht
          exact .inr h1
    -- sessions in use stay
    have hkeep : ∀ h sid, s.pica.Has h sid → ((∃ t ∈ s.timers, t.device = h) ∨ ∃ sid, .ranging h sid ∈ s.queue) → p'.Has h sid := by
      intro h sid hh hu
      have hb := book_step h sid hi hstep
      rw [has_book] at hh ⊢
      intro hnone
      rw [hnone] at hb
      generalize bookOf (s.pica.devices.get? h) sid = o at hb hh
      have hset : ¬Settled s h := by
        rintro ⟨-, h1, h2⟩
        rcases hu with ⟨t, ht, he⟩ | ⟨sid, hsq⟩
        · exact h1 t ht he
        · exact h2 sid hsq
      cases hb with
      | ends _ he =>
        rcases he with he | ⟨bytes, he, ⟨rc, hc⟩ | ⟨hc, -⟩⟩
        · change c = _ at he
          subst he
          have := (hs.left h hcm).1
          rw [hs.conn h (by rcases hu with hu | hu; exacts [.inr (.inl hu), .inr (.inr (.inl hu))])] at this
          cases this
        · change c = _ at he
          subst he
          exact hset (hpr.2.2.1 h bytes _ rfl hc trivial)
        · change c = _ at he
          subst he
          exact hset (hpr.2.2.1 h bytes _ rfl hc trivial)
      | same => exact hh rfl
    -- busy devices were busy
    have hbusy : ∀ h, (out.foldl apply s₁).Busy h → s.Busy h := by
      intro h hb
      unfold Busy at hb
      rw [hf1, hf2] at hb
      have hstart : Starts h c → s.Busy h := fun hc => .inr (.inr (.inr ⟨c, hcm, hc⟩))
      rcases hb with ⟨d', hd', hne⟩ | ⟨t, ht, he⟩ | ⟨sid, hsq⟩ | ⟨c', hc', hs'⟩
      · by_cases hc : Starts h c
        · exact hstart hc
        · by_contra hnb
          refine hne (step_ready hi hstep h hc ?_ d' hd')
          intro d hd
          by_contra hd'
          exact hnb (.inl ⟨d, hd, hd'⟩)
      · rcases htm t ht with ⟨t₀, h1, h2, -⟩ | h1
        · exact .inr (.inl ⟨t₀, h1, h2.trans he⟩)
        · rw [he] at h1
          exact hstart (step_starts hi hstep h1)
      · exact .inr (.inr (.inl ⟨sid, htail _ hsq⟩))
      · exact .inr (.inr (.inr ⟨c', htail _ hc', hs'⟩))
    have hcnt := Pica.step_counter hstep
    refine ⟨hf4.trans hs.up, by rw [hf1]; exact calm_step hi hs.calm hstep hsd, ?_, ?_, ?_, ?_, ?_, ?_⟩
    · intro t ht
      rw [hf1]
      rcases htm t ht with ⟨t₀, h1, h2, h3⟩ | h1
      · have := hs.timer t₀ h1
        rw [h2, h3] at this
        exact hkeep _ _ this (.inl ⟨t₀, h1, h2⟩)
      · obtain ⟨d, x, h2, h3, -⟩ := Props.taskAt_some
          ((Pica.step_tasks hi hstep hI.inj t.device t.session t.id).mpr (.inr h1))
        exact ⟨d, x, h2, h3⟩
    · intro h sid hsq
      rw [hf1]
      rw [hf2] at hsq
      exact hkeep h sid (hs.round h sid (htail _ hsq)) (.inr ⟨sid, htail _ hsq⟩)
    · intro h hb
      have hrun := hs.conn h (hbusy h hb)
      rcases hconn h with h1 | ⟨h1, -⟩
      · rw [h1]; exact hrun
      · exact h1
    · intro h k hk
      rw [hf1]
      rcases hconn h with h1 | ⟨h1, mac, h2⟩
      · rw [h1] at hk
        exact Nat.lt_of_lt_of_le (hs.known h k hk) hcnt
      · obtain ⟨rfl, rfl⟩ := step_connected hstep h2
        cases hstep
        exact Nat.lt_succ_self _
    · intro h hsq
      rw [hf1]
      rw [hf2] at hsq
      obtain ⟨h0, hlt⟩ := hs.left h (htail _ hsq)
      refine ⟨?_, Nat.lt_of_lt_of_le hlt hcnt⟩
      rcases hconn h with h1 | ⟨h1, mac, h2⟩
      · rw [h1]; exact h0
      · obtain ⟨-, rfl⟩ := step_connected hstep h2
        exact absurd hlt (Nat.lt_irrefl _)
    · intro h bytes hsq
      rw [hf2] at hsq
      exact hs.mild h bytes (htail _ hsq)

theorem safe_step {n : Nat} {s u : System} {l : Label} (hr : s.Reachable) (hs : Safe n s) (hn : n + 1 < 2 ^ 32)
    (hst : Step s l u) (hpr : Prudent s l) : Safe (n + 1) u := by
  have hcalm := calm_mono hs.calm (Nat.le_succ n)
  have hI := System.reachable_inv hr
  -- one more command in the queue
  have henq : ∀ {u : System} {c : Command}, u.pica = s.pica → u.timers = s.timers → u.conns = s.conns → u.stopped = s.stopped →
      u.queue = s.queue ++ [c] → (∀ h sid, c = .ranging h sid → s.Busy h ∧ s.pica.Has h sid) →
      (∀ h, Starts h c → s.conns.get? h = some .running) → (∀ h, c ≠ .disconnect h) →
      (∀ h bytes, c = .uciPacket h bytes → ∃ x, IsCmd bytes x ∧ Mild x) → Safe (n + 1) u := by
    intro u c e1 e2 e3 e4 e5 h1 h2 h3 h4
    refine ⟨e4.trans hs.up, by rw [e1]; exact hcalm, by rw [e1, e2]; exact hs.timer, ?_, ?_, by rw [e1, e3]; exact hs.known, ?_, ?_⟩
    · intro h sid hq
      rw [e1]
      rw [e5] at hq
      rcases List.mem_append.mp hq with hq | hq
      · exact hs.round h sid hq
      · exact (h1 h sid (List.mem_singleton.mp hq).symm).2
    · intro h hb
      rw [e3]
      by_cases hc : Starts h c
      · exact h2 h hc
      · exact hs.conn h (busy_enqueue e1 e2 e5 (fun sid he => (h1 h sid he).1) (fun h => absurd h hc) hb)
    · intro h hq
      rw [e1, e3]
      rw [e5] at hq
      rcases List.mem_append.mp hq with hq | hq
      · exact hs.left h hq
      · exact absurd (List.mem_singleton.mp hq).symm (h3 h)
    · intro h bytes hq
      rw [e5] at hq
      rcases List.mem_append.mp hq with hq | hq
      · exact hs.mild h bytes hq
      · exact h4 h bytes (List.mem_singleton.mp hq).symm
  cases hst with
  | @request c he hroom =>
    refine henq (c := c) rfl rfl rfl rfl rfl ?_ ?_ ?_ ?_
    · rintro h sid rfl; exact he.elim
    · rintro h ⟨bytes, sid, rfl, -⟩; exact he.elim
    · rintro h rfl; exact he.elim
    · rintro h bytes rfl; exact he.elim
  | @packet h bytes hc hroom =>
    refine henq (c := .uciPacket h bytes) rfl rfl rfl rfl rfl ?_ ?_ ?_ ?_
    · intro h sid he; cases he
    · rintro k ⟨b, sid, he, -⟩; cases he; exact hc
    · intro h he; cases he
    · intro k b he; cases he; exact hpr.1 h bytes rfl
  | @closes h hc =>
    have hnb := not_busy (hpr.2.1 h (.inl rfl)).1 (hpr.2.1 h (.inl rfl)).2
    refine ⟨hs.up, hcalm, hs.timer, hs.round, ?_, ?_, ?_, hs.mild⟩
    · intro k hb
      have hne : h ≠ k := by rintro rfl; exact hnb hb
      show (s.conns.insert h _).get? k = _
      rw [AMap.get?_insert, if_neg hne]
      exact hs.conn k hb
    · intro k c hk
      change (s.conns.insert h _).get? k = _ at hk
      rw [AMap.get?_insert] at hk
      split at hk
      · rename_i e; subst e; exact hs.known h _ hc
      · exact hs.known k c hk
    · intro k hq
      obtain ⟨h1, h2⟩ := hs.left k hq
      refine ⟨?_, h2⟩
      show (s.conns.insert h _).get? k = _
      rw [AMap.get?_insert, if_neg]
      · exact h1
      · rintro rfl; rw [hc] at h1; cases h1
  | @fails h hc =>
    have hnb := not_busy (hpr.2.1 h (.inr rfl)).1 (hpr.2.1 h (.inr rfl)).2
    refine ⟨hs.up, hcalm, hs.timer, hs.round, ?_, ?_, ?_, hs.mild⟩
    · intro k hb
      have hne : h ≠ k := by rintro rfl; exact hnb hb
      show (s.conns.erase h).get? k = _
      rw [AMap.get?_erase, if_neg hne]
      exact hs.conn k hb
    · intro k c hk
      change (s.conns.erase h).get? k = _ at hk
      rw [AMap.get?_erase] at hk
      split at hk
      · cases hk
      · exact hs.known k c hk
    · intro k hq
      obtain ⟨h1, h2⟩ := hs.left k hq
      refine ⟨?_, h2⟩
      show (s.conns.erase h).get? k = _
      rw [AMap.get?_erase]
      split
      · rfl
      · exact h1
  | @leaves h hc hroom =>
    have hnb : ¬s.Busy h := by
      intro hb
      rw [hs.conn h hb] at hc; cases hc
    have hlt := hs.known h _ hc
    refine ⟨hs.up, hcalm, hs.timer, ?_, ?_, ?_, ?_, ?_⟩
    · intro k sid hq
      rcases List.mem_append.mp hq with hq | hq
      · exact hs.round k sid hq
      · cases List.mem_singleton.mp hq
    · intro k hb
      have hb' : s.Busy k := by
        refine busy_enqueue (s := s) (u := { s with conns := s.conns.erase h, queue := s.queue ++ [.disconnect h] })
          (c := .disconnect h) rfl rfl rfl (fun sid he => by cases he) ?_ hb
        rintro ⟨b, sid, he, -⟩; cases he
      have hne : h ≠ k := by rintro rfl; exact hnb hb'
      show (s.conns.erase h).get? k = _
      rw [AMap.get?_erase, if_neg hne]
      exact hs.conn k hb'
    · intro k c hk
      change (s.conns.erase h).get? k = _ at hk
      rw [AMap.get?_erase] at hk
      split at hk
      · cases hk
      · exact hs.known k c hk
    · intro k hq
      show (s.conns.erase h).get? k = _ ∧ _
      rw [AMap.get?_erase]
      rcases List.mem_append.mp hq with hq | hq
      · obtain ⟨h1, h2⟩ := hs.left k hq
        refine ⟨?_, h2⟩
        split
        · rfl
        · exact h1
      · cases List.mem_singleton.mp hq
        exact ⟨if_pos rfl, hlt⟩
    · intro k b hq
      rcases List.mem_append.mp hq with hq | hq
      · exact hs.mild k b hq
      · cases List.mem_singleton.mp hq
  | @tick t ht hroom =>
    refine henq (c := .ranging t.device t.session) rfl rfl rfl rfl rfl ?_ ?_ ?_ ?_
    · intro h sid he; cases he
      exact ⟨.inr (.inl ⟨t, ht, rfl⟩), hs.timer t ht⟩
    · rintro k ⟨b, sid, he, -⟩; cases he
    · intro h he; cases he
    · intro k b he; cases he
  | @dies t ht ha =>
    refine ⟨hs.up, hcalm, fun x hx => hs.timer x (List.mem_of_mem_erase hx), hs.round, ?_, hs.known, hs.left, hs.mild⟩
    rintro h (hb | ⟨x, hx, he⟩ | hb)
    · exact hs.conn h (.inl hb)
    · exact hs.conn h (.inr (.inl ⟨x, List.mem_of_mem_erase hx, he⟩))
    · exact hs.conn h (.inr (.inr hb))
  | @inBand mac sid m hm hroom =>
    refine henq (c := .stopRanging mac sid) rfl rfl rfl rfl rfl ?_ ?_ ?_ ?_
    · intro h sid he; cases he
    · rintro k ⟨b, sid, he, -⟩; cases he
    · intro h he; cases he
    · intro k b he; cases he
  | notifies hp => exact ⟨hs.up, hcalm, hs.timer, hs.round, hs.conn, hs.known, hs.left, hs.mild⟩
  | process hq hstep => exact safe_process hr hs (.process hq hstep) hpr
  | panics hq hstep => exact absurd hstep (head_survives hr hs hn hq (sound_head hs hpr hq rfl) _ _)
  | @shuffle p hre =>
    have hi := hI.pica
    have hro := Pica.reorder_dev hi hre
    have hhas : ∀ h sid, s.pica.Has h sid → p.Has h sid := by
      rintro h sid ⟨d, x, hd, hx⟩
      rcases hro.2.2.2 h with he | ⟨d', l, hd', hl, he⟩
      · exact ⟨d, x, by rw [he, hd], hx⟩
      · rw [hd] at hd'; cases hd'
        refine ⟨_, x, he, ?_⟩
        show AMap.get? l sid = _
        rw [AMap.get?_perm (hi.dev h d hd).2.2.2.nodup hl]; exact hx
    refine ⟨hs.up, calm_reorder hi hcalm hre, fun t ht => hhas _ _ (hs.timer t ht),
      fun h sid hq => hhas h sid (hs.round h sid hq), ?_, by rw [hro.1]; exact hs.known, by rw [hro.1]; exact hs.left, hs.mild⟩
    rintro h (⟨d', hd', hne⟩ | hb)
    · rcases hro.2.2.2 h with he | ⟨d, l, hd, hl, he⟩
      · exact hs.conn h (.inl ⟨d', by rw [← he]; exact hd', hne⟩)
      · change p.devices.get? h = _ at hd'
        rw [he] at hd'; cases hd'
        exact hs.conn h (.inl ⟨d, hd, hne⟩)
    · exact hs.conn h (.inr hb)

theorem careful_run {ls : List Label} {s : System} (h : Careful ls s) : System.Run .new ls s := by
  induction h with
  | nil => exact .nil
  | step _ h1 h2 _ ih => exact .step ih h1 h2

theorem careful_safe {ls : List Label} {s : System} (h : Careful ls s) (hn : ls.length < 2 ^ 32) : Safe ls.length s := by
  induction h with
  | nil => exact safe_new
  | @step s u ls l h0 h1 h2 h3 ih =>
    rw [List.length_append, List.length_singleton] at hn ⊢
    exact safe_step ⟨_, careful_run h0⟩ (ih (by omega)) hn h2 h3

end Pica
