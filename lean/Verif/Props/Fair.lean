import Verif.Proofs.Fair
import Verif.Proofs.SystemExamples
/-! C88: nothing that has been started is left undone, if every task gets its turn. -/

namespace Pica.Props
open Pica.System Pica.Spec

/-- C88: every command in the queue is processed, after exactly those before it. -/
theorem C88_processed (σ : Nat → System) (ℓ : Nat → Label) (he : Endless σ ℓ) (hf : Fair σ ℓ) (i : Nat) (a b : List Command)
    (c : Command) (hq : (σ i).queue = a ++ c :: b) :
    ∃ j ≥ i, (upTo ℓ j).filterMap dequeued = (upTo ℓ i).filterMap dequeued ++ a ∧ ∃ ev, ℓ j = .process ev ∧ ev.command = c :=
  takes he hf.loop hq

theorem counter_mono {σ : Nat → System} {ℓ : Nat → Label} (he : Endless σ ℓ) (i k : Nat) :
    (σ i).pica.counter ≤ (σ (i + k)).pica.counter := by
  induction k with
  | zero => exact le_rfl
  | succ k ih =>
    refine ih.trans ?_
    have hst := (he.step (i + k)).2
    show _ ≤ (σ (i + k + 1)).pica.counter
    generalize σ (i + k + 1) = u at hst ⊢
    generalize hl : ℓ (i + k) = l at hst
    cases l with
    | process ev => exact Pica.step_counter (process_pica hst).1
    | shuffle =>
      cases hst with
      | shuffle hr => cases hr <;> exact le_rfl
    | _ => cases hst; exact le_rfl

/-- A connection in the queue gets a new device and runs. -/
theorem connected {σ : Nat → System} {ℓ : Nat → Label} (he : Endless σ ℓ) (hf : FairTo σ ℓ fun l => ∃ c, dequeued l = some c)
    {i : Nat}
    (hq : .connect ∈ (σ i).queue) :
    ∃ j ≥ i, ∃ h d, (∀ k ≤ j, (σ k).pica.devices.get? h = none) ∧ (σ (j + 1)).pica.devices.get? h = some d ∧
      (σ (j + 1)).conns.get? h = some .running := by
  obtain ⟨a, b, hab⟩ := List.append_of_mem hq
  obtain ⟨j, hj, -, ev, hl, hc⟩ := takes he hf hab
  refine ⟨j, hj, (σ j).pica.counter, ?_⟩
  have hst := (he.step j).2
  rw [hl] at hst
  generalize hu : σ (j + 1) = u at hst
  have hi := (reachable_inv (endless_reachable he j)).pica
  cases hst with
  | @process est c q p out hq hstep =>
    change c = .connect at hc
    subst hc
    cases (show Except.ok (σ j).pica.addDevice = _ from hstep)
    refine ⟨((Device.new (σ j).pica.counter (Pica.deviceMac (σ j).pica.counter)).init).1, ?_, ?_, ?_⟩
    · intro k hk
      obtain ⟨m, rfl⟩ := Nat.exists_eq_add_of_le hk
      cases hd : (σ k).pica.devices.get? (σ (k + m)).pica.counter with
      | none => rfl
      | some d =>
        have h1 := ((reachable_inv (endless_reachable he k)).pica.dev _ _ hd).2.1
        have h2 := counter_mono he k m
        omega
    · rw [(applyAll_frame _ _).1]
      exact AMap.get?_insert_self ..
    · exact AMap.get?_insert_self ..

/-- C88: every connection in the queue gets a new device and runs. -/
theorem C88_connected (σ : Nat → System) (ℓ : Nat → Label) (he : Endless σ ℓ) (hf : Fair σ ℓ) (i : Nat)
    (hq : .connect ∈ (σ i).queue) :
    ∃ j ≥ i, ∃ h d, (∀ k ≤ j, (σ k).pica.devices.get? h = none) ∧ (σ (j + 1)).pica.devices.get? h = some d ∧
      (σ (j + 1)).conns.get? h = some .running :=
  connected he hf.loop hq

/-- C88: every response due to the packets received from a host is sent in the end. -/
theorem C88_answered (σ : Nat → System) (ℓ : Nat → Label) (he : Endless σ ℓ) (hf : Fair σ ℓ) (i h : Nat) :
    ∃ j ≥ i, due false (received h (upTo ℓ i)) <+: ((upTo ℓ j).flatMap (sentTo h)).filterMap response := by
  obtain ⟨j, hj, hp⟩ := drains he hf i
  refine ⟨j, hj, ?_⟩
  rw [(C74_answers _ _ (endless_run he j) h).1]
  apply due_prefix
  rw [heard_taken he, received_put he]
  exact hp.filterMap _

/-- C88: the device of a connection that is closed disappears and does not come back. -/
theorem C88_gone (σ : Nat → System) (ℓ : Nat → Label) (he : Endless σ ℓ) (hf : Fair σ ℓ) (i h : Nat)
    (hc : (σ i).conns.get? h = some .closing) : ∃ j ≥ i, ∀ k ≥ j, (σ k).pica.devices.get? h = none := by
  -- the connection sends its last command
  obtain ⟨j, hj, hl⟩ : ∃ j ≥ i, ℓ j = .leaves h := by
    by_contra hn
    have hkeep : ∀ k, (σ (i + k)).conns.get? h = some .closing := by
      intro k
      induction k with
      | zero => exact hc
      | succ k ih => exact closing_kept he ih fun e => hn ⟨i + k, by omega, e⟩
    refine hn (hf.leaves h i fun j hj => ?_)
    obtain ⟨k, hk, hr⟩ := room_again he hf j
    obtain ⟨m, rfl⟩ := Nat.exists_eq_add_of_le (show i ≤ k by omega)
    exact ⟨i + m, hk, _, _, rfl, .leaves (hkeep m) hr⟩
  obtain ⟨q, hq⟩ : ∃ q, (σ (j + 1)).queue = q ++ Command.disconnect h :: [] := by
    have hst := (he.step j).2
    rw [hl] at hst
    generalize σ (j + 1) = u at hst ⊢
    cases hst
    exact ⟨_, rfl⟩
  obtain ⟨k, hk, -, ev, hp, hcmd⟩ := takes he hf.loop hq
  refine ⟨k + 1, by omega, ?_⟩
  have hst := (he.step k).2
  rw [hp] at hst
  obtain ⟨hstep, -, -, hqk⟩ := process_pica hst
  have hlt := (present_run (endless_run he k)).left h (by rw [hqk, hcmd]; exact List.mem_cons_self)
  refine absent_forever he ?_ (lt_of_lt_of_le hlt (Pica.step_counter hstep))
  rw [hcmd] at hstep
  change Except.ok ((σ k).pica.disconnect h) = _ at hstep
  unfold Pica.disconnect at hstep
  split at hstep
  · simp only [Except.ok.injEq, Prod.mk.injEq] at hstep
    rw [← hstep.1]
    exact AMap.get?_erase_self _ _
  · rename_i hd
    simp only [Except.ok.injEq, Prod.mk.injEq] at hstep
    rw [← hstep.1]
    exact hd

theorem count_arrived (ls : List Label) (h : Nat) (n : Ntf) :
    (arrived h ls).count n = ls.countP fun l => match l with
      | .notifies h' n' => decide (h' = h ∧ n' = n)
      | _ => false := by
  induction ls with
  | nil => rfl
  | cons l ls ih =>
    unfold arrived at ih ⊢
    rw [List.countP_cons, ← ih]
    cases l with
    | notifies h' n' =>
      by_cases h1 : h' = h
      · by_cases h2 : n' = n
        · simp [h1, h2]
        · simp [h1, h2]
      · simp [h1]
    | _ => simp

theorem count_waiting (s : System) (h : Nat) (n : Ntf) : (waiting h s).count n = s.ntfs.count (h, n) := by
  unfold waiting
  induction s.ntfs with
  | nil => rfl
  | cons x l ih =>
    obtain ⟨a, b⟩ := x
    by_cases h1 : a = h
    · by_cases h2 : b = n
      · simp [h1, h2, ih]
      · simp [h1, h2, ih]
    · simp [h1, ih]

/-- C88: every delayed notification is sent to its host. -/
theorem C88_notified (σ : Nat → System) (ℓ : Nat → Label) (he : Endless σ ℓ) (hf : Fair σ ℓ) (i h : Nat) :
    ∃ j ≥ i, (scheduled h (upTo ℓ i)).Subperm (arrived h (upTo ℓ j)) := by
  -- one of them
  have one : ∀ n : Ntf, ∃ j ≥ i, (scheduled h (upTo ℓ i)).count n ≤ (arrived h (upTo ℓ j)).count n := by
    intro n
    let P : Label → Bool := fun l => match l with
      | .notifies h' n' => decide (h' = h ∧ n' = n)
      | _ => false
    have h1 : ∀ k, (σ k).ntfs.count (h, n) ≤ (σ (k + 1)).ntfs.count (h, n) + if P (ℓ k) = true then 1 else 0 := by
      intro k
      have hst := (he.step k).2
      generalize σ (k + 1) = u at hst ⊢
      generalize ℓ k = l at hst ⊢
      cases hst with
      | @notifies h' n' l' hp =>
        show _ ≤ l'.count (h, n) + _
        rw [hp.count_eq, List.count_cons]
        by_cases e : h' = h ∧ n' = n
        · simp [P, e.1, e.2]
        · have : ((h', n') == (h, n)) = false := by simpa using fun a => fun b => e ⟨a, b⟩
          rw [this]
          simp
      | @process estimate c q p' out hq hstep =>
        rw [← count_waiting, ← count_waiting, applyAll_ntfs, List.count_append]
        change _ ≤ (waiting h (σ k)).count n + _ + _
        omega
      | _ => simp
    have h2 : ∀ k, (∀ j ≥ k, 0 < (σ j).ntfs.count (h, n)) → ∃ j ≥ k, P (ℓ j) = true := by
      intro k hpos
      obtain ⟨j, hj, hl⟩ := hf.notifies h n k fun m hm => by
        have := List.count_pos_iff.mp (hpos m hm)
        exact ⟨m, le_rfl, _, _, rfl, .notifies (List.perm_cons_erase this)⟩
      exact ⟨j, hj, by rw [hl]; simp [P]⟩
    obtain ⟨j, hj, hc⟩ := used_up P _ h1 h2 i
    refine ⟨j, hj, ?_⟩
    rw [← (C75_once _ _ (endless_run he i) h).count_eq, List.count_append, count_waiting, count_arrived, count_arrived]
    exact hc
  -- all of them
  have all : ∀ l : List Ntf, ∃ j ≥ i, ∀ n ∈ l, (scheduled h (upTo ℓ i)).count n ≤ (arrived h (upTo ℓ j)).count n := by
    intro l
    induction l with
    | nil => exact ⟨i, le_rfl, by simp⟩
    | cons n l ih =>
      obtain ⟨j, hj, h1⟩ := ih
      obtain ⟨k, hk, h2⟩ := one n
      refine ⟨max j k, by omega, fun m hm => ?_⟩
      have mono : ∀ {a b : Nat}, a ≤ b → (arrived h (upTo ℓ a)).count m ≤ (arrived h (upTo ℓ b)).count m := by
        intro a b hab
        rw [count_arrived, count_arrived]
        exact countP_mono _ hab
      rcases List.mem_cons.mp hm with rfl | hm
      · exact h2.trans (mono (Nat.le_max_right _ _))
      · exact (h1 m hm).trans (mono (Nat.le_max_left _ _))
  obtain ⟨j, hj, h1⟩ := all (scheduled h (upTo ℓ i))
  exact ⟨j, hj, List.subperm_ext_iff.mpr h1⟩

/-- The session is ACTIVE. -/
def IsActive (s : System) (h : Nat) (sid : UInt32) : Prop :=
  ∃ d x, s.pica.devices.get? h = some d ∧ d.sessions.get? sid = some x ∧ x.state = .sessionStateActive

theorem ranging_again {σ : Nat → System} {ℓ : Nat → Label} (he : Endless σ ℓ) (hf : Fair σ ℓ) {i h : Nat} {sid : UInt32}
    (ha : ∀ j ≥ i, IsActive (σ j) h sid) : ∀ j ≥ i, ∃ k ≥ j, ∃ ev, ℓ k = .process ev ∧ ev.command = .ranging h sid := by
  intro j hj
  have htask : ∀ k ≥ j, ∃ t, (σ k).pica.taskAt h sid = some t := by
    intro k hk
    obtain ⟨d, x, hd, hx, hst⟩ := ha k (by omega)
    have hl := (C43_one (σ k) (endless_reachable he k) h sid).2 d x hd hx hst
    rw [running_eq (reachable_inv (endless_reachable he k))] at hl
    cases ht : (σ k).pica.taskAt h sid with
    | none => rw [ht] at hl; cases hl
    | some t => exact ⟨t, rfl⟩
  obtain ⟨t, ht⟩ := htask j le_rfl
  have hkeep : ∀ k, (σ (j + k)).pica.taskAt h sid = some t := by
    intro k
    induction k with
    | zero => exact ht
    | succ k ih =>
      obtain ⟨t', ht'⟩ := htask (j + (k + 1)) (by omega)
      rw [ht', task_kept (reachable_inv (endless_reachable he (j + k))) (he.step (j + k)).2 ih ht']
  obtain ⟨k, hk, hl⟩ := hf.tick ⟨t, h, sid, false⟩ j fun m hm => by
    obtain ⟨k, hk, hr⟩ := room_again he hf m
    obtain ⟨n, rfl⟩ := Nat.exists_eq_add_of_le (show j ≤ k by omega)
    exact ⟨j + n, hk, _, _, rfl, .tick (((reachable_inv (endless_reachable he _)).live h sid t).mpr (hkeep n)) hr⟩
  obtain ⟨q, hq⟩ : ∃ q, (σ (k + 1)).queue = q ++ Command.ranging h sid :: [] := by
    have hst := (he.step k).2
    rw [hl] at hst
    generalize σ (k + 1) = u at hst ⊢
    cases hst
    exact ⟨_, rfl⟩
  obtain ⟨m, hm, -, ev, hp, hcmd⟩ := takes he hf.loop hq
  exact ⟨m, by omega, ev, hp, hcmd⟩

/-- C88: an ACTIVE session ranges, unless it ceases to be ACTIVE. -/
theorem C88_ranging (σ : Nat → System) (ℓ : Nat → Label) (he : Endless σ ℓ) (hf : Fair σ ℓ) (i h : Nat) (sid : UInt32) :
    ∃ k ≥ i, (∃ ev, ℓ k = .process ev ∧ ev.command = .ranging h sid) ∨
      ¬∃ d x, (σ k).pica.devices.get? h = some d ∧ d.sessions.get? sid = some x ∧ x.state = .sessionStateActive := by
  by_contra hn
  have ha : ∀ j ≥ i, IsActive (σ j) h sid := by
    intro j hj
    by_contra hna
    exact hn ⟨j, hj, .inr hna⟩
  obtain ⟨k, hk, h1⟩ := ranging_again he hf ha i le_rfl
  exact hn ⟨k, hk, .inl h1⟩

/-- C88: once the ranging of a session has ended, and unless it is started again, its rounds cease. -/
theorem C88_quiet (σ : Nat → System) (ℓ : Nat → Label) (he : Endless σ ℓ) (hf : Fair σ ℓ) (i h : Nat) (sid : UInt32)
    (ev : Pica.Event) (hl : ℓ i = .process ev) (hh : Halts (σ i).pica h sid ev)
    (hn : ∀ j > i, ∀ ev bytes, ℓ j = .process ev → ev.command = .uciPacket h bytes → IsCmd bytes (.sessionStart sid) →
      .rsp (.sessionStart .ok) ∉ Spec.sentTo h ev.out) :
    ∃ j ≥ i, ∀ k ≥ j, ∀ ev, ℓ k = .process ev → ev.command ≠ .ranging h sid := by
  -- no timer runs any more
  have hrun : ∀ k, running (σ (i + 1 + k)) h sid = [] := by
    intro k
    induction k with
    | zero =>
      have hst := (he.step i).2
      rw [hl] at hst
      exact C43_none_survives _ _ (endless_reachable he i) ev hst h sid hh
    | succ k ih =>
      by_contra hne
      obtain ⟨ev', bytes, h1, h2, h3, h4⟩ := C43_start _ _ (endless_reachable he _) _ (he.step (i + 1 + k)).2 h sid ih hne
      exact hn (i + 1 + k) (by omega) ev' bytes h1 h2 h3 h4
  -- those that are left come to an end
  have hsub : ∀ k t, t ∈ (σ (i + 1 + k)).timers → t.device = h → t.session = sid → ∀ m ≤ k, t ∈ (σ (i + 1 + m)).timers := by
    intro k
    induction k with
    | zero => intro t ht _ _ m hm; rwa [Nat.le_zero.mp hm]
    | succ k ih =>
      intro t ht hd hs m hm
      rcases Nat.lt_or_eq_of_le hm with hlt | rfl
      · exact ih t (no_new_timer (reachable_inv (endless_reachable he _)) (he.step (i + 1 + k)).2 (hrun k) (hrun (k + 1)) ht hd hs)
          hd hs m (by omega)
      · exact ht
  have one : ∀ t : Timer, t.device = h → t.session = sid → ∃ j, ∀ k ≥ j, t ∉ (σ (i + 1 + k)).timers := by
    intro t hd hs
    obtain ⟨j, hj⟩ : ∃ j, t ∉ (σ (i + 1 + j)).timers := by
      by_contra hall
      push Not at hall
      have hab : t.aborted = true := by
        by_contra hna
        have : t ∈ running (σ (i + 1 + 0)) h sid := by
          unfold running
          rw [List.mem_filter]
          exact ⟨hall 0, by simp [hd, hs, hna]⟩
        rw [hrun 0] at this
        cases this
      obtain ⟨j, hj, hlj⟩ := hf.dies t (i + 1) fun m hm => by
        obtain ⟨n, rfl⟩ := Nat.exists_eq_add_of_le hm
        exact ⟨i + 1 + n, le_rfl, _, _, rfl, .dies (hall n) hab⟩
      obtain ⟨n, rfl⟩ := Nat.exists_eq_add_of_le hj
      have hst := (he.step (i + 1 + n)).2
      have hmem := hall (n + 1)
      have hids := (reachable_inv (endless_reachable he (i + 1 + n))).ids
      rw [← Nat.add_assoc] at hmem
      rw [hlj] at hst
      generalize σ (i + 1 + n + 1) = u at hst hmem
      cases hst
      exact (List.Nodup.of_map _ hids).not_mem_erase hmem
    exact ⟨j, fun k hk hm => hj (hsub k t hm hd hs j hk)⟩
  have all : ∀ l : List Timer, (∀ t ∈ l, t.device = h ∧ t.session = sid) → ∃ j, ∀ k ≥ j, ∀ t ∈ l, t ∉ (σ (i + 1 + k)).timers := by
    intro l
    induction l with
    | nil => intro _; exact ⟨0, by simp⟩
    | cons t l ih =>
      intro hl
      obtain ⟨j, hj⟩ := ih fun x hx => hl x (List.mem_cons_of_mem _ hx)
      obtain ⟨k, hk⟩ := one t (hl t List.mem_cons_self).1 (hl t List.mem_cons_self).2
      refine ⟨max j k, fun m hm x hx => ?_⟩
      rcases List.mem_cons.mp hx with rfl | hx
      · exact hk m (by omega)
      · exact hj m (by omega) x hx
  obtain ⟨j, hj⟩ := all ((σ (i + 1)).timers.filter fun t => decide (t.device = h ∧ t.session = sid)) fun t ht => by
    simpa using (List.mem_filter.mp ht).2
  have hgone : ∀ k ≥ i + 1 + j, ∀ t ∈ (σ k).timers, ¬(t.device = h ∧ t.session = sid) := by
    intro k hk t ht e
    obtain ⟨m, rfl⟩ := Nat.exists_eq_add_of_le (show i + 1 ≤ k by omega)
    refine hj m (by omega) t (List.mem_filter.mpr ⟨?_, by simpa using e⟩) ht
    exact hsub m t ht e.1 e.2 0 (Nat.zero_le _)
  -- the rounds still in the queue are used up
  obtain ⟨m, hm, hp⟩ := drains he hf (i + 1 + j)
  refine ⟨m, by omega, fun k hk ev hlk hcmd => ?_⟩
  have hst := (he.step k).2
  rw [hlk] at hst
  have hq := (process_pica hst).2.2.2
  rw [hcmd] at hq
  have hfifo := C45_fifo _ _ (endless_run he k)
  have hfifo0 := C45_fifo _ _ (endless_run he (i + 1 + j))
  obtain ⟨ls, hls⟩ := upTo_prefix (ℓ := ℓ) (show i + 1 + j ≤ k by omega)
  rw [← hls, List.filterMap_append, hfifo0, hls] at hfifo
  obtain ⟨rest, hrest⟩ := hp.trans (taken_prefix (ℓ := ℓ) hk)
  change _ = taken ℓ k ++ _ at hfifo
  change taken ℓ (i + 1 + j) ++ _ ++ _ = _ at hfifo
  rw [← hrest, List.append_assoc _ rest, List.append_right_inj] at hfifo
  have hmem : Command.ranging h sid ∈ ls.filterMap enqueued := by
    rw [hfifo, hq]
    simp
  obtain ⟨l, hl', hen⟩ := List.mem_filterMap.mp hmem
  obtain ⟨n, hn1, hn2⟩ : ∃ n ≥ i + 1 + j, ℓ n = l := by
    obtain ⟨d, rfl⟩ := Nat.exists_eq_add_of_le (show i + 1 + j ≤ k by omega)
    have : ls = (List.range d).map fun x => ℓ (i + 1 + j + x) := by
      have e : upTo ℓ (i + 1 + j + d) = upTo ℓ (i + 1 + j) ++ (List.range d).map fun x => ℓ (i + 1 + j + x) := by
        unfold upTo
        rw [List.range_add, List.map_append, List.map_map]
        rfl
      rw [e, List.append_right_inj] at hls
      exact hls
    rw [this] at hl'
    obtain ⟨x, -, hx⟩ := List.mem_map.mp hl'
    exact ⟨_, by omega, hx⟩
  have hstn := (he.step n).2
  have hgn := hgone n hn1
  generalize σ (n + 1) = u at hstn
  rw [hn2] at hstn
  cases hstn with
  | @request c hex _ =>
    cases hen
    exact hex.elim
  | @tick t htm _ =>
    cases hen
    exact hgn t htm ⟨rfl, rfl⟩
  | _ => cases hen

/-! A schedule without end: a finite one, after which there is nothing left to do. -/

theorem sched_length {as : List Ex.Act} {s u : System} {ls ls' : List Label} (h : Ex.sched s ls as = some (ls', u)) :
    ls'.length = ls.length + as.length ∧ ls <+: ls' := by
  induction as generalizing s ls with
  | nil => cases h; exact ⟨rfl, List.prefix_rfl⟩
  | cons a as ih =>
    unfold Ex.sched at h
    split at h
    · cases h
    · split at h
      · rename_i l t _
        obtain ⟨h1, h2⟩ := ih h
        refine ⟨?_, (List.prefix_append ls [l]).trans h2⟩
        rw [h1]
        simp only [List.length_append, List.length_cons, List.length_nil]
        omega
      · cases h

theorem sched_append (as bs : List Ex.Act) (s : System) (ls : List Label) :
    Ex.sched s ls (as ++ bs) = (Ex.sched s ls as).bind fun z => Ex.sched z.2 z.1 bs := by
  induction as generalizing s ls with
  | nil => rfl
  | cons a as ih =>
    rw [List.cons_append, Ex.sched, Ex.sched]
    split
    · rfl
    · split
      · exact ih _ _
      · rfl

/-- Nothing is left to do. -/
def Rests (s : System) : Prop :=
  s.stopped = false ∧ s.queue = [] ∧ s.timers = [] ∧ s.ntfs = [] ∧ (∀ x ∈ s.stops, x.2.2 = 0) ∧ s.conns = []

instance (s : System) : Decidable (Rests s) := by unfold Rests; infer_instance

/-- The states of the schedule: they are played, and then nothing happens. -/
def states (as : List Ex.Act) (i : Nat) : System := Ex.final (as.take i)
/-- The steps of the schedule. -/
def steps (as : List Ex.Act) (i : Nat) : Label := (Ex.labels as).getD i .shuffle

theorem states_endless {as : List Ex.Act} (h : (Ex.sched .new [] as).isSome = true) (hr : Rests (Ex.final as)) :
    Endless (states as) (steps as) := by
  refine ⟨rfl, fun i => ?_⟩
  obtain ⟨⟨ls, u⟩, hu⟩ := Option.isSome_iff_exists.mp h
  have hlen := (sched_length hu).1
  have hlab : Ex.labels as = ls := by unfold Ex.labels; rw [hu]; rfl
  by_cases hi : i < as.length
  · have hsplit : as = as.take i ++ as[i] :: as.drop (i + 1) := by
      rw [List.getElem_cons_drop, List.take_append_drop]
    rw [hsplit, sched_append] at hu
    cases h1 : Ex.sched .new [] (as.take i) with
    | none => rw [h1] at hu; cases hu
    | some z =>
      obtain ⟨l1, s1⟩ := z
      rw [h1] at hu
      change Ex.sched s1 l1 (as[i] :: as.drop (i + 1)) = _ at hu
      have hs1 : states as i = s1 := by unfold states Ex.final; rw [h1]; rfl
      have hl1 := (sched_length h1).1
      rw [Ex.sched] at hu
      split at hu
      · cases hu
      · rename_i hst
        split at hu
        · rename_i l t hact
          have hs2 : states as (i + 1) = t := by
            unfold states Ex.final
            rw [List.take_succ_eq_append_getElem hi, sched_append, h1]
            change (Option.map Prod.snd (Ex.sched s1 l1 [as[i]])).getD _ = _
            rw [Ex.sched, if_neg hst, hact]
            rfl
          have hl : steps as i = l := by
            unfold steps
            rw [hlab]
            obtain ⟨r, rfl⟩ := (sched_length hu).2
            have : l1.length = i := by
              rw [hl1, List.length_take]
              simp only [List.length_nil]
              omega
            subst this
            simp
          rw [hs1, hs2, hl]
          exact ⟨by simpa using hst, Ex.act_step hact⟩
        · cases hu
  · have e : ∀ j, as.length ≤ j → states as j = Ex.final as := fun j hj => by
      unfold states
      rw [List.take_of_length_le hj]
    rw [e i (by omega), e (i + 1) (by omega)]
    have : steps as i = .shuffle := by
      unfold steps
      rw [hlab, List.getD_eq_getElem?_getD, List.getElem?_eq_none (by simp only [List.length_nil] at hlen; omega)]
      rfl
    rw [this]
    exact ⟨hr.1, .shuffle (p := (Ex.final as).pica) (.devices (List.Perm.refl _))⟩

theorem states_fair {as : List Ex.Act} (hr : Rests (Ex.final as)) : Fair (states as) (steps as) := by
  obtain ⟨-, hq, ht, hn, hs, hc⟩ := hr
  have e : ∀ k, states as (as.length + k) = Ex.final as := fun k => by
    unfold states
    rw [List.take_of_length_le (by omega)]
  have key : ∀ P : Label → Prop, (∀ l u, P l → ¬Step (Ex.final as) l u) → FairTo (states as) (steps as) P := by
    intro P hP i h
    obtain ⟨k, hk, l, u, hl, hst⟩ := h (max i as.length) (Nat.le_max_left _ _)
    obtain ⟨d, rfl⟩ := Nat.exists_eq_add_of_le (show as.length ≤ k by omega)
    rw [e] at hst
    exact absurd hst (hP l u hl)
  generalize Ex.final as = s at *
  constructor
  · apply key
    rintro l u ⟨c, hc'⟩ hst
    cases hst with
    | process h1 _ => rw [hq] at h1; cases h1
    | panics h1 _ => rw [hq] at h1; cases h1
    | _ => cases hc'
  · intro h
    apply key
    rintro _ u rfl hst
    cases hst with
    | leaves h1 _ => rw [hc] at h1; cases h1
  · intro t
    apply key
    rintro _ u rfl hst
    cases hst with
    | tick h1 _ => rw [ht] at h1; cases h1
  · intro t
    apply key
    rintro _ u rfl hst
    cases hst with
    | dies h1 _ => rw [ht] at h1; cases h1
  · intro h n
    apply key
    rintro _ u rfl hst
    cases hst with
    | notifies h1 => rw [hn] at h1; exact absurd h1.length_eq (by simp)
  · intro mac sid
    apply key
    rintro _ u rfl hst
    cases hst with
    | inBand h1 _ => exact absurd (hs _ h1) (Nat.succ_ne_zero _)

/-- A session is started, ranges twice, and is stopped while a round is in the queue; then its controlee is removed, and the host
leaves. -/
def visit : List Ex.Act :=
  Ex.active ++ [.tick 0, .process, .packet 0 (Ex.stop 7), .tick 0, .process, .process, .dies 0,
    .packet 0 (Ex.removeOne 7 0x00 0xb1), .process, .inBand 0, .process, .closes 0, .leaves 0, .process] ++
    List.replicate 9 (.notifies 0)

theorem visit_endless : Endless (states visit) (steps visit) :=
  states_endless (by decide +kernel) (by decide +kernel)

theorem visit_fair : Fair (states visit) (steps visit) := states_fair (by decide +kernel)

/-- The SESSION_STOP_CMD and a round are in the queue. -/
example : Endless (states visit) (steps visit) ∧ Fair (states visit) (steps visit) ∧
    (states visit 14).queue = [] ++ .uciPacket 0 (Ex.stop 7) :: [.ranging 0 7] :=
  ⟨visit_endless, visit_fair, by decide +kernel⟩

/-- A connection is in the queue. -/
example : Endless (states visit) (steps visit) ∧ Fair (states visit) (steps visit) ∧ .connect ∈ (states visit 1).queue :=
  ⟨visit_endless, visit_fair, by decide +kernel⟩

/-- The host has sent five packets and six notifications to it are scheduled; later it closes the connection. -/
example : Endless (states visit) (steps visit) ∧ Fair (states visit) (steps visit) ∧
    (received 0 (upTo (steps visit) 13)).length = 5 ∧ (scheduled 0 (upTo (steps visit) 13)).length = 6 ∧
    (states visit 22).conns.get? 0 = some .closing :=
  ⟨visit_endless, visit_fair, by decide +kernel, by decide +kernel, by decide +kernel⟩

/-- The session is ACTIVE. -/
example : Endless (states visit) (steps visit) ∧ Fair (states visit) (steps visit) ∧
    ∃ d x, (states visit 10).pica.devices.get? 0 = some d ∧ d.sessions.get? 7 = some x ∧ x.state = .sessionStateActive := by
  refine ⟨visit_endless, visit_fair, ?_⟩
  have : ((states visit 10).pica.devices.get? 0).any (fun d => (d.sessions.get? 7).any
      fun x => decide (x.state = .sessionStateActive)) = true := by decide +kernel
  cases hd : (states visit 10).pica.devices.get? 0 with
  | none => rw [hd] at this; cases this
  | some d =>
    rw [hd] at this
    cases hx : d.sessions.get? 7 with
    | none => rw [Option.any_some, hx] at this; cases this
    | some x => rw [Option.any_some, hx] at this; exact ⟨d, x, rfl, hx, of_decide_eq_true this⟩

/-- It is stopped, and not started again. -/
example : Endless (states visit) (steps visit) ∧ Fair (states visit) (steps visit) ∧
    ∃ ev, steps visit 14 = .process ev ∧ Halts (states visit 14).pica 0 7 ev ∧
      ∀ j > 14, ∀ ev bytes, steps visit j = .process ev → ev.command = .uciPacket 0 bytes → IsCmd bytes (.sessionStart 7) →
        .rsp (.sessionStart .ok) ∉ Spec.sentTo 0 ev.out := by
  refine ⟨visit_endless, visit_fair, ?_⟩
  have h1 : (match steps visit 14 with
      | .process ev => decide (ev.command = .uciPacket 0 (Ex.stop 7)) && decide (.rsp (.sessionStop .ok) ∈ Spec.sentTo 0 ev.out)
      | _ => false) = true := by decide +kernel
  have h2 : ((Ex.labels visit).drop 15).all (fun l => match l with
      | .process ev => decide (.rsp (.sessionStart .ok) ∉ Spec.sentTo 0 ev.out)
      | _ => true) = true := by decide +kernel
  split at h1
  · rename_i ev hev
    rw [Bool.and_eq_true, decide_eq_true_eq, decide_eq_true_eq] at h1
    refine ⟨ev, hev, .inr (.inl ⟨_, h1.1, ?_, h1.2⟩), ?_⟩
    · exact ⟨trivial, _, _, _, _, rfl, by decide +kernel⟩
    · intro j hj ev' bytes hl _ _
      have hlt : j < (Ex.labels visit).length := by
        by_contra hge
        unfold steps at hl
        rw [List.getD_eq_getElem?_getD, List.getElem?_eq_none (by omega)] at hl
        cases hl
      have hm : steps visit j ∈ (Ex.labels visit).drop 15 := by
        unfold steps
        rw [List.getD_eq_getElem?_getD, List.getElem?_eq_getElem hlt, Option.getD_some]
        rw [List.mem_drop_iff_getElem]
        refine ⟨j - 15, by omega, ?_⟩
        congr 1
        omega
      have := List.all_eq_true.mp h2 _ hm
      rw [hl] at this
      exact of_decide_eq_true this
  · cases h1

/-- A device whose session has just been stopped, before its task has ended. -/
def halted : List Ex.Act := Ex.active ++ [.packet 0 (Ex.stop 7), .process]

/-- C88: the end of the ranging is not at once the end of the rounds: a task that has been stopped may send once more. -/
theorem C88_late : ∃ (s u v : System) (t : Timer) (ev : Pica.Event), s.Reachable ∧ s.queue = [] ∧
    (s.pica.devices.get? 0).bind (fun d => (d.sessions.get? 7).map Session.state) = some .sessionStateIdle ∧
    s.Step (.tick t) u ∧ u.Step (.process ev) v ∧ ev.command = .ranging 0 7 := by
  have h1 : (match Ex.act (Ex.final halted) (.tick 0) with
    | some (.tick _, u) => (match Ex.act u .process with
      | some (.process ev, _) => decide (ev.command = .ranging 0 7)
      | _ => false)
    | _ => false) = true := by decide +kernel
  split at h1
  · rename_i t u hu
    split at h1
    · rename_i ev v hv
      exact ⟨Ex.final halted, u, v, t, ev, ⟨_, Ex.final_run (by decide +kernel)⟩, by decide +kernel, by decide +kernel,
        Ex.act_step hu, Ex.act_step hv, of_decide_eq_true h1⟩
    · cases h1
  · cases h1

end Pica.Props
