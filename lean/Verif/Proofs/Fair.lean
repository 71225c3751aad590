import Verif.Spec.Fair
import Verif.Props.Answers
import Verif.Props.Notices
/-! Schedules without end. -/

namespace Pica.Props
open Pica.System Pica.Spec

variable {σ : Nat → System} {ℓ : Nat → Label}

theorem endless_run (h : Endless σ ℓ) (n : Nat) : Run .new (upTo ℓ n) (σ n) := by
  induction n with
  | zero => rw [h.start]; exact .nil
  | succ n ih =>
    unfold upTo at *
    rw [List.range_succ, List.map_append]
    exact .step ih (h.step n).1 (h.step n).2

theorem endless_reachable (h : Endless σ ℓ) (n : Nat) : (σ n).Reachable := ⟨_, endless_run h n⟩

theorem upTo_prefix {i j : Nat} (h : i ≤ j) : upTo ℓ i <+: upTo ℓ j := by
  obtain ⟨k, rfl⟩ := Nat.exists_eq_add_of_le h
  unfold upTo
  rw [List.range_add, List.map_append]
  exact List.prefix_append _ _

/-- The commands taken from the queue before the step `n`. -/
def taken (ℓ : Nat → Label) (n : Nat) : List Command := (upTo ℓ n).filterMap dequeued

theorem taken_succ (n : Nat) : taken ℓ (n + 1) = taken ℓ n ++ (dequeued (ℓ n)).toList := by
  unfold taken upTo
  rw [List.range_succ, List.map_append, List.filterMap_append]
  cases h : dequeued (ℓ n) <;> simp [h]

theorem taken_prefix {i j : Nat} (h : i ≤ j) : taken ℓ i <+: taken ℓ j := (upTo_prefix h).filterMap _

/-- What has been put in the queue is never lost. -/
theorem queue_prefix (he : Endless σ ℓ) {i j : Nat} (h : i ≤ j) : taken ℓ i ++ (σ i).queue <+: taken ℓ j ++ (σ j).queue := by
  have h1 := C45_fifo _ _ (endless_run he i)
  have h2 := C45_fifo _ _ (endless_run he j)
  unfold taken
  rw [← h1, ← h2]
  exact (upTo_prefix h).filterMap _

theorem dequeue_possible {i : Nat} (hq : (σ i).queue ≠ []) :
    ∃ l u, (∃ c, dequeued l = some c) ∧ Step (σ i) l u := by
  cases hx : (σ i).queue with
  | nil => exact absurd hx hq
  | cons c q =>
    obtain ⟨l, u, h1, h2, -⟩ := C45_progress (σ i) c q hx fun _ _ => none
    exact ⟨l, u, ⟨c, h2⟩, h1⟩

/-- As long as the queue is not empty the event loop goes on. -/
theorem dequeues (he : Endless σ ℓ) (hf : FairTo σ ℓ fun l => ∃ c, dequeued l = some c)
    {i : Nat} (hq : (σ i).queue ≠ []) : ∃ j ≥ i, ∃ c, dequeued (ℓ j) = some c := by
  by_contra hn
  have hno : ∀ j ≥ i, dequeued (ℓ j) = none := by
    intro j hj
    cases hd : dequeued (ℓ j) with
    | none => rfl
    | some c => exact absurd ⟨j, hj, c, hd⟩ hn
  have hsame : ∀ k, taken ℓ (i + k) = taken ℓ i := by
    intro k
    induction k with
    | zero => rfl
    | succ k ih =>
      rw [← Nat.add_assoc, taken_succ, hno _ (by omega), ih]
      simp
  refine hn (hf i fun j hj => ⟨j, le_rfl, dequeue_possible fun h0 => ?_⟩)
  have hp := queue_prefix he hj
  obtain ⟨k, rfl⟩ := Nat.exists_eq_add_of_le hj
  rw [hsame k, h0, List.append_nil] at hp
  have := hp.length_le
  simp only [List.length_append] at this
  exact hq (List.eq_nil_of_length_eq_zero (by omega))

/-- The next command is taken. -/
theorem takes_next (he : Endless σ ℓ) (hf : FairTo σ ℓ fun l => ∃ c, dequeued l = some c)
    {i : Nat} (hq : (σ i).queue ≠ []) :
    ∃ j ≥ i, taken ℓ j = taken ℓ i ∧ ∃ ev, ℓ j = .process ev := by
  classical
  have hex := dequeues he hf hq
  obtain ⟨hj, c, hc⟩ := Nat.find_spec hex
  have hmin := fun m hm => Nat.find_min hex (m := m) hm
  generalize Nat.find hex = j at hj hc hmin
  refine ⟨j, hj, ?_, ?_⟩
  · have : ∀ k, i + k ≤ j → taken ℓ (i + k) = taken ℓ i := by
      intro k
      induction k with
      | zero => intro _; rfl
      | succ k ih =>
        intro hk
        rw [← Nat.add_assoc, taken_succ, ih (by omega)]
        cases hd : dequeued (ℓ (i + k)) with
        | none => simp
        | some c => exact absurd ⟨by omega, c, hd⟩ (hmin (i + k) (by omega))
    obtain ⟨k, rfl⟩ := Nat.exists_eq_add_of_le hj
    exact this k le_rfl
  · have hst := (he.step j).2
    have hs := (he.step (j + 1)).1
    generalize σ (j + 1) = u at hst hs
    cases hl : ℓ j with
    | process ev => exact ⟨ev, rfl⟩
    | panics c x =>
      rw [hl] at hst
      cases hst
      cases hs
    | _ => rw [hl] at hc; cases hc

/-- The command at any place of the queue is processed after those before it. -/
theorem takes (he : Endless σ ℓ) (hf : FairTo σ ℓ fun l => ∃ c, dequeued l = some c)
    {i : Nat} {a b : List Command} {c : Command} (hq : (σ i).queue = a ++ c :: b) :
    ∃ j ≥ i, taken ℓ j = taken ℓ i ++ a ∧ ∃ ev, ℓ j = .process ev ∧ ev.command = c := by
  -- how many have been taken
  have count : ∀ n ≤ a.length, ∃ j ≥ i, taken ℓ j = taken ℓ i ++ a.take n := by
    intro n
    induction n with
    | zero => intro _; exact ⟨i, le_rfl, by simp⟩
    | succ n ih =>
      intro hn
      obtain ⟨j, hj, ht⟩ := ih (by omega)
      have hp := queue_prefix he hj
      have hne : (σ j).queue ≠ [] := by
        intro h0
        rw [h0, List.append_nil, ht, hq] at hp
        have := hp.length_le
        simp only [List.length_append, List.length_cons, List.length_take] at this
        omega
      obtain ⟨k, hk, h1, ev, h2⟩ := takes_next he hf hne
      refine ⟨k + 1, by omega, ?_⟩
      have hp' := queue_prefix he (show i ≤ k + 1 by omega)
      rw [taken_succ, h1, ht, h2] at hp' ⊢
      rw [hq] at hp'
      simp only [List.append_assoc] at hp'
      have hp' := (List.prefix_append_right_inj _).mp hp'
      rw [List.append_assoc]
      congr 1
      have hx : (dequeued (Label.process ev)).toList = [ev.command] := rfl
      rw [hx] at hp' ⊢
      have hlt : n < a.length := by omega
      have g := hp'.getElem (i := n) (by simp; omega)
      rw [List.getElem_append_left hlt, List.getElem_append_right (by simp)] at g
      rw [List.take_add_one, List.getElem?_eq_getElem hlt, g]
      congr 1
      simp [Nat.min_eq_left (show n ≤ a.length by omega)]
  obtain ⟨j, hj, ht⟩ := count a.length le_rfl
  rw [List.take_length] at ht
  have hp := queue_prefix he hj
  have hne : (σ j).queue ≠ [] := by
    intro h0
    rw [h0, List.append_nil, ht, hq] at hp
    have := hp.length_le
    simp only [List.length_append, List.length_cons] at this
    omega
  obtain ⟨k, hk, h1, ev, h2⟩ := takes_next he hf hne
  refine ⟨k, by omega, by rw [h1, ht], ev, h2, ?_⟩
  have hp' := queue_prefix he (show i ≤ k + 1 by omega)
  rw [taken_succ, h1, ht, h2, hq] at hp'
  simp only [List.append_assoc] at hp'
  have hp' := (List.prefix_append_right_inj _).mp hp'
  have hp' := (List.prefix_append_right_inj _).mp hp'
  exact ((List.cons_prefix_cons.mp hp').1).symm

/-- There is room in the queue again and again. -/
theorem room_again (he : Endless σ ℓ) (hf : Fair σ ℓ) (i : Nat) : ∃ j ≥ i, (σ j).Room := by
  by_cases hq : (σ i).queue = []
  · exact ⟨i, le_rfl, by unfold Room; rw [hq]; decide⟩
  · obtain ⟨j, hj, -, ev, hl⟩ := takes_next he hf.loop hq
    refine ⟨j + 1, by omega, ?_⟩
    have hst := (he.step j).2
    rw [hl] at hst
    have h1 := (process_pica hst).2.2.2
    have h2 := (reachable_inv (endless_reachable he j)).queue
    rw [h1] at h2
    exact h2

theorem heard_taken (he : Endless σ ℓ) (h : Nat) (n : Nat) : heard h (upTo ℓ n) = (taken ℓ n).filterMap (packetOf h) :=
  (heard_prefix h (endless_run he n)).2.2 (he.step n).1

theorem received_put (he : Endless σ ℓ) (h : Nat) (n : Nat) :
    received h (upTo ℓ n) = (taken ℓ n ++ (σ n).queue).filterMap (packetOf h) := by
  rw [(heard_prefix h (endless_run he n)).1, C45_fifo _ _ (endless_run he n)]
  rfl

theorem due_prefix {a b : List Bytes} (h : a <+: b) (r : Bool) : due r a <+: due r b := by
  induction a generalizing b r with
  | nil => exact List.nil_prefix
  | cons x a ih =>
    obtain ⟨c, rfl⟩ := h
    rw [List.cons_append]
    unfold due
    exact (List.prefix_append_right_inj _).mpr (ih (List.prefix_append _ _) _)

/-- All that is in the queue is taken. -/
theorem drains (he : Endless σ ℓ) (hf : Fair σ ℓ) (i : Nat) : ∃ j ≥ i, taken ℓ i ++ (σ i).queue <+: taken ℓ j := by
  rcases List.eq_nil_or_concat (σ i).queue with h | ⟨q, c, h⟩
  · exact ⟨i, le_rfl, by rw [h, List.append_nil]; exact List.prefix_rfl⟩
  · rw [List.concat_eq_append] at h
    obtain ⟨j, hj, ht, ev, hl, hc⟩ := takes he hf.loop h
    refine ⟨j + 1, by omega, ?_⟩
    rw [taken_succ, ht, hl, h, ← List.append_assoc]
    show _ <+: _ ++ [ev.command]
    rw [hc]
    exact List.prefix_rfl

/-! ### Something that is used up by steps of one kind -/

theorem countP_upTo (P : Label → Bool) (n : Nat) :
    (upTo ℓ (n + 1)).countP P = (upTo ℓ n).countP P + if P (ℓ n) = true then 1 else 0 := by
  unfold upTo
  rw [List.range_succ, List.map_append, List.countP_append]
  simp [List.countP_cons]

theorem countP_mono (P : Label → Bool) {i j : Nat} (h : i ≤ j) : (upTo ℓ i).countP P ≤ (upTo ℓ j).countP P :=
  (upTo_prefix h).sublist.countP_le

theorem used_up (P : Label → Bool) (f : Nat → Nat) (hstep : ∀ n, f n ≤ f (n + 1) + if P (ℓ n) = true then 1 else 0)
    (hpos : ∀ i, (∀ j ≥ i, 0 < f j) → ∃ j ≥ i, P (ℓ j) = true) (i : Nat) :
    ∃ j ≥ i, (upTo ℓ i).countP P + f i ≤ (upTo ℓ j).countP P := by
  have key : ∀ m i, m ≤ f i → ∃ j ≥ i, (upTo ℓ i).countP P + m ≤ (upTo ℓ j).countP P := by
    intro m
    induction m with
    | zero => intro i _; exact ⟨i, le_rfl, le_rfl⟩
    | succ m ih =>
      intro i hm
      have hex : ∃ j, i ≤ j ∧ P (ℓ j) = true := by
        by_contra hn
        have hno : ∀ j ≥ i, P (ℓ j) = false := fun j hj => by
          cases hp : P (ℓ j) with
          | false => rfl
          | true => exact absurd ⟨j, hj, hp⟩ hn
        have hge : ∀ k, f i ≤ f (i + k) := by
          intro k
          induction k with
          | zero => exact le_rfl
          | succ k ih =>
            have := hstep (i + k)
            rw [hno _ (by omega)] at this
            simp at this
            exact ih.trans this
        obtain ⟨j, hj, hp⟩ := hpos i fun j hj => by
          obtain ⟨k, rfl⟩ := Nat.exists_eq_add_of_le hj
          have := hge k
          omega
        exact hn ⟨j, hj, hp⟩
      classical
      obtain ⟨hj, hp⟩ := Nat.find_spec hex
      have hmin := fun m hm => Nat.find_min hex (m := m) hm
      generalize Nat.find hex = j at hj hp hmin
      have hge : ∀ k, i + k ≤ j → f i ≤ f (i + k) := by
        intro k
        induction k with
        | zero => intro _; exact le_rfl
        | succ k ih =>
          intro hk
          have := hstep (i + k)
          have hno : ¬P (ℓ (i + k)) = true := fun e => hmin (i + k) (by omega) ⟨by omega, e⟩
          rw [if_neg hno] at this
          exact (ih (by omega)).trans this
      have h1 : f i ≤ f j := by
        obtain ⟨k, rfl⟩ := Nat.exists_eq_add_of_le hj
        exact hge k le_rfl
      have h2 := hstep j
      rw [if_pos hp] at h2
      obtain ⟨k, hk, hc⟩ := ih (j + 1) (by omega)
      refine ⟨k, by omega, ?_⟩
      rw [countP_upTo, if_pos hp] at hc
      have := countP_mono (ℓ := ℓ) P hj
      omega
  exact key _ i le_rfl

/-! ### Connections -/

theorem closing_kept (he : Endless σ ℓ) {h i : Nat} (hc : (σ i).conns.get? h = some .closing) (hl : ℓ i ≠ .leaves h) :
    (σ (i + 1)).conns.get? h = some .closing := by
  have hst := (he.step i).2
  have hpres := present_run (endless_run he i)
  have hi := reachable_inv (endless_reachable he i)
  generalize σ (i + 1) = u at hst ⊢
  generalize σ i = s at *
  generalize ℓ i = l at hst hl
  cases hst with
  | @closes k hk =>
    show (s.conns.insert k _).get? h = _
    rw [AMap.get?_insert]
    split
    · rfl
    · exact hc
  | @fails k hk =>
    show (s.conns.erase k).get? h = _
    rw [AMap.get?_erase, if_neg (by rintro rfl; rw [hc] at hk; cases hk)]
    exact hc
  | @leaves k hk _ =>
    show (s.conns.erase k).get? h = _
    rw [AMap.get?_erase, if_neg (by rintro rfl; exact hl rfl)]
    exact hc
  | @process estimate c q p' out hq hstep =>
    rcases applyAll_conns out ({ s with pica := p', queue := q, spawned := s.spawned + 1 } : System) h with e | ⟨-, mac, hm⟩
    · exact e.trans hc
    · obtain ⟨rfl, rfl⟩ := step_connected hstep hm
      have := (hpres.conn _ _ hc).1
      cases hg : s.pica.devices.get? s.pica.counter with
      | none => exact absurd hg this
      | some d => exact absurd (hi.pica.dev _ d hg).2.1 (by omega)
  | _ => exact hc

theorem absent_kept (he : Endless σ ℓ) {h i : Nat} (hd : (σ i).pica.devices.get? h = none) (hc : h < (σ i).pica.counter) :
    (σ (i + 1)).pica.devices.get? h = none ∧ h < (σ (i + 1)).pica.counter := by
  have hst := (he.step i).2
  have hi := (reachable_inv (endless_reachable he i)).pica
  generalize σ (i + 1) = u at hst ⊢
  generalize σ i = s at *
  generalize ℓ i = l at hst
  cases l with
  | process ev =>
    obtain ⟨hp, -⟩ := process_pica hst
    have hm := Pica.step_dev hi hp h
    rw [hd] at hm
    refine ⟨?_, lt_of_lt_of_le hc (Pica.step_counter hp)⟩
    generalize effectsOf h ev.out = e at hm
    cases hg : u.pica.devices.get? h with
    | none => rfl
    | some d =>
      rw [hg] at hm
      cases hm with
      | connect _ hx => omega
  | shuffle =>
    cases hst with
    | shuffle hro =>
      obtain ⟨h1, -, -, h2⟩ := Pica.reorder_dev hi hro
      refine ⟨?_, by rw [h1]; exact hc⟩
      rcases h2 h with e | ⟨d, l, e, -⟩
      · exact e.trans hd
      · rw [hd] at e; cases e
  | _ => cases hst; exact ⟨hd, hc⟩

theorem absent_forever (he : Endless σ ℓ) {h i : Nat} (hd : (σ i).pica.devices.get? h = none) (hc : h < (σ i).pica.counter) :
    ∀ k ≥ i, (σ k).pica.devices.get? h = none := by
  have : ∀ k, (σ (i + k)).pica.devices.get? h = none ∧ h < (σ (i + k)).pica.counter := by
    intro k
    induction k with
    | zero => exact ⟨hd, hc⟩
    | succ k ih => exact absent_kept he ih.1 ih.2
  intro k hk
  obtain ⟨m, rfl⟩ := Nat.exists_eq_add_of_le hk
  exact (this m).1

/-! ### Ranging tasks -/

theorem task_kept {s u : System} {l : Label} (hi : Inv s) (hst : Step s l u) {h t t' : Nat} {sid : UInt32}
    (h1 : s.pica.taskAt h sid = some t) (h2 : u.pica.taskAt h sid = some t') : t' = t := by
  cases l with
  | process ev =>
    obtain ⟨hp, -⟩ := process_pica hst
    rcases Pica.step_one hi.pica hp with h3 | ⟨x, a, -, h4⟩
    · rcases (Pica.step_tasks hi.pica hp hi.inj h sid t').mp h2 with ⟨h5, -⟩ | h5
      · rw [h1] at h5; cases h5; rfl
      · rw [h3] at h5; cases h5
    · have := (Pica.step_tasks hi.pica hp hi.inj h sid t).mpr (.inl ⟨h1, by rw [h4]; simp⟩)
      rw [h2] at this
      exact Option.some.inj this
  | shuffle =>
    cases hst with
    | shuffle hro => rw [taskAt_reorder hi.pica hro, h1] at h2; cases h2; rfl
  | _ =>
    have : u.pica = s.pica := by cases hst; rfl
    rw [this, h1] at h2; cases h2; rfl

/-- Without a running timer before and after a step, a session gets no further timer. -/
theorem no_new_timer {s u : System} {l : Label} (hi : Inv s) (hst : Step s l u) {h : Nat} {sid : UInt32}
    (h1 : running s h sid = []) (h2 : running u h sid = []) {t : Timer} (ht : t ∈ u.timers) (hd : t.device = h)
    (hs : t.session = sid) : t ∈ s.timers := by
  have nrun : ∀ {v : System}, running v h sid = [] → ∀ x ∈ v.timers, x.device = h → x.session = sid → x.aborted = true := by
    intro v hv x hx e1 e2
    by_contra hn
    have : x ∈ running v h sid := by
      unfold running
      rw [List.mem_filter]
      exact ⟨hx, by simp [e1, e2, hn]⟩
    rw [hv] at this
    cases this
  cases l with
  | process ev =>
    cases hst with
    | @process estimate c q p' out hq hstep =>
      rcases Pica.step_one hi.pica hstep with h3 | ⟨x, a, -, h4⟩
      · rw [applyAll_aborts h3] at ht
        obtain ⟨y, hy, rfl⟩ := List.mem_map.mp ht
        have e1 : y.device = h := by rw [← hd]; unfold markAll; split <;> rfl
        have e2 : y.session = sid := by rw [← hs]; unfold markAll; split <;> rfl
        have ha := nrun h1 y hy e1 e2
        have : markAll (abortsOut out) y = y := by
          unfold markAll
          split
          · cases y; cases ha; rfl
          · rfl
        rw [this]
        exact hy
      · have ha := nrun h2 t ht hd hs
        rw [applyAll_starts h4] at ht
        rcases List.mem_append.mp ht with hm | hm
        · exact hm
        · obtain ⟨x, -, rfl⟩ := List.mem_map.mp hm
          cases ha
  | dies k =>
    cases hst with
    | dies _ _ => exact List.mem_of_mem_erase ht
  | _ => cases hst; exact ht

end Pica.Props
