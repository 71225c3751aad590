import Verif.Props.Clock
import Verif.Props.Ranging
/-! C84: how often a session ranges. -/

namespace Pica.Props
open Spec System SessionState

/-! ### The ranging tasks and the clock -/

/-- The outputs of a step start the ranging task `k`. -/
def StartsIn (k : Nat) (out : List Out) : Prop := ∃ h sid i, .effect h (.startTimer k sid i) ∈ out

theorem alarm_some {t k : Nat} {v : Nat × Nat} {out : List Out} {w : AMap Nat (Nat × Nat)}
    (h : (out.foldl (Clock.alarm t) w).get? k = some v) :
    w.get? k = some v ∨ ∃ x sid i, .effect x (.startTimer k sid i) ∈ out ∧ v = (1000 * i.toNat, t + 1000 * i.toNat) := by
  induction out generalizing w with
  | nil => exact .inl h
  | cons o out ih =>
    rw [List.foldl_cons] at h
    rcases ih h with h | ⟨x, sid, i, hm, he⟩
    · unfold Clock.alarm at h
      split at h
      · rename_i x k' sid i _
        rw [AMap.get?_insert] at h
        split at h
        · rename_i hk
          cases h
          exact .inr ⟨x, sid, i, hk ▸ List.mem_cons_self, rfl⟩
        · exact .inl h
      · split at h
        · split at h
          · rw [AMap.get?_erase] at h
            split at h
            · cases h
            · exact .inl h
          · exact .inl h
        · exact .inl h
      · exact .inl h
    · exact .inr ⟨x, sid, i, List.mem_cons_of_mem _ hm, he⟩

theorem alarm_keep {t k : Nat} {out : List Out} {w : AMap Nat (Nat × Nat)} (ha : k ∉ abortsOut out) (hs : ¬StartsIn k out) :
    (out.foldl (Clock.alarm t) w).get? k = w.get? k := by
  induction out generalizing w with
  | nil => rfl
  | cons o out ih =>
    rw [show ∀ (a : Out) l, a :: l = [a] ++ l from fun _ _ => rfl, abortsOut_append, List.mem_append, not_or] at ha
    rw [List.foldl_cons, ih ha.2 fun ⟨x, sid, i, hm⟩ => hs ⟨x, sid, i, List.mem_cons_of_mem _ hm⟩]
    unfold Clock.alarm
    split
    · rename_i x k' sid i
      rw [AMap.get?_insert, if_neg]
      rintro rfl
      exact hs ⟨x, sid, i, List.mem_cons_self⟩
    · rename_i x k'
      have hk : k' ≠ k := by rintro rfl; exact ha.1 (by simp [abortsOut])
      split
      · split
        · rw [AMap.get?_erase, if_neg hk]
        · rfl
      · rfl
    · rfl

theorem alarm_abort {t k : Nat} {v : Nat × Nat} {out : List Out} {w : AMap Nat (Nat × Nat)} (ha : k ∈ abortsOut out)
    (hs : ¬StartsIn k out) (h : (out.foldl (Clock.alarm t) w).get? k = some v) : v.2 ≤ t := by
  induction out generalizing w with
  | nil => cases ha
  | cons o out ih =>
    rw [show ∀ (a : Out) l, a :: l = [a] ++ l from fun _ _ => rfl, abortsOut_append, List.mem_append] at ha
    have hs' : ¬StartsIn k out := fun ⟨x, sid, i, hm⟩ => hs ⟨x, sid, i, List.mem_cons_of_mem _ hm⟩
    rw [List.foldl_cons] at h
    by_cases ho : k ∈ abortsOut out
    · exact ih ho hs' h
    · rw [alarm_keep ho hs'] at h
      have ha := ha.resolve_right ho
      unfold abortsOut at ha
      obtain ⟨o', hm, he⟩ := List.mem_filterMap.mp ha
      cases List.mem_singleton.mp hm
      split at he
      · cases he
        unfold Clock.alarm at h
        dsimp only at h
        split at h
        · rename_i hw
          split at h
          · rw [AMap.get?_erase, if_pos rfl] at h; cases h
          · rename_i hlt
            rw [hw] at h
            cases h
            exact Nat.le_of_not_lt hlt
        · rename_i hw
          rw [hw] at h; cases h
      · cases he

theorem alarm_start {t k : Nat} {out : List Out} {w : AMap Nat (Nat × Nat)} (ha : abortsOut out = []) {x : Nat} {sid : UInt32}
    {i : UInt32} (hm : .effect x (.startTimer k sid i) ∈ out) (hone : ∃ z, startsOut out = [z]) :
    (out.foldl (Clock.alarm t) w).get? k = some (1000 * i.toNat, t + 1000 * i.toNat) := by
  obtain ⟨a, b, rfl⟩ := List.append_of_mem hm
  obtain ⟨z, hz⟩ := hone
  rw [show ∀ (a : Out) l, a :: l = [a] ++ l from fun _ _ => rfl, startsOut_append, startsOut_append] at hz
  rw [show ∀ (a : Out) l, a :: l = [a] ++ l from fun _ _ => rfl, abortsOut_append, abortsOut_append] at ha
  have hb : startsOut b = [] := by
    have := congrArg List.length hz
    rw [List.length_append, List.length_append,
      show startsOut [.effect x (.startTimer k sid i)] = [(k, x, sid)] from rfl, List.length_singleton, List.length_singleton] at this
    exact List.eq_nil_of_length_eq_zero (by omega)
  rw [List.foldl_append, List.foldl_cons, alarm_keep]
  · show AMap.get? (AMap.insert _ _ _) k = _
    rw [AMap.get?_insert, if_pos rfl]
    rfl
  · rw [(List.append_eq_nil_iff.mp (List.append_eq_nil_iff.mp ha).2).2]
    exact List.not_mem_nil
  · rintro ⟨y, sid', j, hy⟩
    have : (k, y, sid') ∈ startsOut b := by
      unfold startsOut
      exact List.mem_filterMap.mpr ⟨_, hy, rfl⟩
    rw [hb] at this
    cases this

/-- A command at the time `t₀` has started the ranging task `k` with an interval of `i` milliseconds. -/
def Starts (k : Nat) (i : UInt32) (t₀ : Nat) (ls : List (Nat × Label)) : Prop :=
  ∃ ev h sid, (t₀, .process ev) ∈ ls ∧ .effect h (.startTimer k sid i) ∈ ev.out

theorem mem_startsOut' {k h : Nat} {sid i : UInt32} {out : List Out} (hm : .effect h (.startTimer k sid i) ∈ out) :
    (k, h, sid) ∈ startsOut out := List.mem_filterMap.mpr ⟨_, hm, rfl⟩

/-- What processing a command does to the ranging tasks. -/
theorem process_tasks {t : Nat} {s u : Clock} {ev : Pica.Event} (hs : s.sys.Reachable) (hst : Clock.Step t s (.process ev) u) :
    u.sys.spawned = s.sys.spawned + 1 ∧ u.wakes = ev.out.foldl (Clock.alarm t) s.wakes ∧
    (startsOut ev.out = [] ∨ ∃ x sid, startsOut ev.out = [(s.sys.spawned, x, sid)] ∧ abortsOut ev.out = []) := by
  have hsys := (clock_step hst).1
  obtain ⟨h1, h2, -⟩ := process_pica hsys
  have hone := Pica.step_one (reachable_inv hs).pica h1
  rw [h2] at hone
  refine ⟨?_, by cases hst with | plain hp => cases hp | process => rfl, hone⟩
  generalize u.sys = v at hsys
  cases hsys with
  | @process est c q p out hq hstep =>
    exact (applyAll_frame out { s.sys with pica := p, queue := q, spawned := s.sys.spawned + 1 }).2.2.1

theorem starts_spawned {t : Nat} {s u : Clock} {ev : Pica.Event} (hs : s.sys.Reachable) (hst : Clock.Step t s (.process ev) u)
    {k h : Nat} {sid i : UInt32} (hm : .effect h (.startTimer k sid i) ∈ ev.out) :
    k = s.sys.spawned ∧ startsOut ev.out = [(k, h, sid)] ∧ abortsOut ev.out = [] := by
  have := mem_startsOut' hm
  rcases (process_tasks hs hst).2.2 with h0 | ⟨x, sid', h0, h1⟩
  · rw [h0] at this; cases this
  · rw [h0] at this
    cases List.mem_singleton.mp this
    exact ⟨rfl, h0, h1⟩

theorem other_frame {t : Nat} {s u : Clock} {l : Label} (hst : Clock.Step t s l u) (hp : ∀ ev, l ≠ .process ev) :
    u.sys.spawned = s.sys.spawned := by
  have := (clock_step hst).1
  generalize u.sys = v at this
  cases this with
  | process => exact absurd rfl (hp _)
  | _ => rfl

theorem ticks_append (k : Nat) (a b : List (Nat × Label)) : ticks k (a ++ b) = ticks k a ++ ticks k b := by
  unfold ticks; exact List.filterMap_append

/-- How the ranging tasks beat. -/
structure Beats (ls : List (Nat × Label)) (s : Clock) : Prop where
  fresh : ∀ k, s.sys.spawned ≤ k → s.wakes.get? k = none ∧ ticks k ls = []
  bound : ∀ k i t₀, Starts k i t₀ ls → k < s.sys.spawned
  known : ∀ k v, s.wakes.get? k = some v → ∃ i t₀, Starts k i t₀ ls
  beat : ∀ k i t₀, Starts k i t₀ ls →
    List.IsChain (fun a b => a + 1000 * i.toNat ≤ b) (t₀ :: ticks k ls) ∧
    ∀ v, s.wakes.get? k = some v → v = (1000 * i.toNat, (ticks k ls).getLast?.getD t₀ + 1000 * i.toNat)

theorem starts_mono {k t₀ t : Nat} {i : UInt32} {l : Label} {ls : List (Nat × Label)} (h : Starts k i t₀ ls) :
    Starts k i t₀ (ls ++ [(t, l)]) := by
  obtain ⟨ev, h, sid, hm, he⟩ := h
  exact ⟨ev, h, sid, List.mem_append_left _ hm, he⟩

theorem starts_last {k t₀ t : Nat} {i : UInt32} {l : Label} {ls : List (Nat × Label)} (h : Starts k i t₀ (ls ++ [(t, l)])) :
    Starts k i t₀ ls ∨ ∃ ev h sid, t₀ = t ∧ l = .process ev ∧ .effect h (.startTimer k sid i) ∈ ev.out := by
  obtain ⟨ev, h, sid, hm, he⟩ := h
  rcases List.mem_append.mp hm with hm | hm
  · exact .inl ⟨ev, h, sid, hm, he⟩
  · cases List.mem_singleton.mp hm
    exact .inr ⟨ev, h, sid, rfl, rfl, he⟩

theorem beats_run {late : Nat} {ls : List (Nat × Label)} {s : Clock} (hr : Clock.Run late .new ls s) : Beats ls s := by
  induction hr with
  | nil =>
    refine ⟨fun k _ => ⟨rfl, rfl⟩, ?_, ?_, ?_⟩
    · rintro k i t₀ ⟨ev, h, sid, hm, -⟩; cases hm
    · intro k v h; cases h
    · rintro k i t₀ ⟨ev, h, sid, hm, -⟩; cases hm
  | @step r u ls t l hr hs ht hp hst ih =>
    have hreach : r.sys.Reachable := ⟨_, clock_run hr⟩
    have same : (∀ ev, l ≠ .process ev) → (∀ x, l ≠ .tick x) → u.wakes = r.wakes → Beats (ls ++ [(t, l)]) u := by
      intro h1 h2 h3
      have htk : ∀ k, ticks k [(t, l)] = [] := by
        intro k
        cases l <;> first | rfl | exact absurd rfl (h2 _)
      have hsp := other_frame hst h1
      have hst' : ∀ k i t₀, Starts k i t₀ (ls ++ [(t, l)]) → Starts k i t₀ ls := by
        intro k i t₀ h
        rcases starts_last h with h | ⟨ev, _, _, _, rfl, _⟩
        · exact h
        · exact absurd rfl (h1 _)
      refine ⟨fun k hk => ?_, fun k i t₀ h => ?_, fun k v hv => ?_, fun k i t₀ h => ?_⟩
      · rw [ticks_append, htk, List.append_nil, h3]
        exact ih.fresh k (hsp ▸ hk)
      · rw [hsp]; exact ih.bound k i t₀ (hst' k i t₀ h)
      · rw [h3] at hv
        obtain ⟨i, t₀, h⟩ := ih.known k v hv
        exact ⟨i, t₀, starts_mono h⟩
      · rw [ticks_append, htk, List.append_nil, h3]
        exact ih.beat k i t₀ (hst' k i t₀ h)
    cases hst with
    | @plain _ _ hpl hsys =>
      refine same ?_ ?_ rfl
      · rintro ev rfl; exact hpl
      · rintro x rfl; exact hpl
    | notifies => exact same (by simp) (by simp) rfl
    | @tick x i due _ hw hd hsys =>
      have hsp := other_frame (.tick hw hd hsys) (by simp)
      have hx : ticks x.id [(t, Label.tick x)] = [t] := by simp [ticks]
      have hne : ∀ k, k ≠ x.id → ticks k [(t, Label.tick x)] = [] := by
        intro k hk
        simp [ticks, Ne.symm hk]
      have hst' : ∀ k i t₀, Starts k i t₀ (ls ++ [(t, Label.tick x)]) → Starts k i t₀ ls := by
        intro k i t₀ h
        rcases starts_last h with h | ⟨ev, _, _, _, h, _⟩
        · exact h
        · cases h
      have hwk : ∀ k, k ≠ x.id → (if x.aborted then r.wakes.erase x.id else r.wakes.insert x.id (i, t + i)).get? k = r.wakes.get? k := by
        intro k hk
        split
        · exact AMap.get?_erase_of_ne hk
        · exact AMap.get?_insert_of_ne hk
      obtain ⟨j, t₁, hj⟩ := ih.known x.id _ hw
      have hlt := ih.bound _ _ _ hj
      refine ⟨fun k hk => ?_, fun k i t₀ h => ?_, fun k v hv => ?_, fun k j' t₀ h => ?_⟩
      · have hk : r.sys.spawned ≤ k := hsp ▸ hk
        have hkx : k ≠ x.id := by omega
        rw [ticks_append, hne k hkx, List.append_nil]
        exact ⟨(hwk k hkx).trans (ih.fresh k hk).1, (ih.fresh k hk).2⟩
      · exact hsp ▸ ih.bound k i t₀ (hst' k i t₀ h)
      · by_cases hk : k = x.id
        · subst hk; exact ⟨j, t₁, starts_mono hj⟩
        · obtain ⟨i, t₀, h⟩ := ih.known k v ((hwk k hk).symm.trans hv)
          exact ⟨i, t₀, starts_mono h⟩
      · obtain ⟨h1, h2⟩ := ih.beat k j' t₀ (hst' k j' t₀ h)
        by_cases hk : k = x.id
        · subst hk
          have hv := h2 _ hw
          rw [Prod.mk.injEq] at hv
          rw [ticks_append, hx]
          refine ⟨?_, ?_⟩
          · rw [← List.cons_append, List.isChain_append]
            refine ⟨h1, List.isChain_singleton _, ?_⟩
            intro a ha b hb
            rw [List.getLast?_cons, Option.mem_some_iff] at ha
            rw [List.head?_cons, Option.mem_some_iff] at hb
            subst ha hb
            omega
          · intro v hv'
            change (if x.aborted then r.wakes.erase x.id else r.wakes.insert x.id (i, t + i)).get? x.id = some v at hv'
            split at hv'
            · rw [AMap.get?_erase_self] at hv'; cases hv'
            · rw [AMap.get?_insert_self] at hv'
              cases hv'
              rw [hv.1]
              simp
        · rw [ticks_append, hne k hk, List.append_nil]
          exact ⟨h1, fun v hv => h2 v ((hwk k hk).symm.trans hv)⟩
    | @process ev _ hsys =>
      have hst : Clock.Step t r (.process ev) _ := .process hsys
      obtain ⟨hsp, hwk, -⟩ := process_tasks hreach hst
      have htk : ∀ k, ticks k (ls ++ [(t, Label.process ev)]) = ticks k ls := by
        intro k
        rw [ticks_append]
        exact List.append_nil _
      have hnew : ∀ k, k < r.sys.spawned → ¬StartsIn k ev.out := by
        rintro k hk ⟨h, sid, i, hm⟩
        have := (starts_spawned hreach hst hm).1
        omega
      refine ⟨fun k hk => ?_, fun k i t₀ h => ?_, fun k v hv => ?_, fun k i t₀ h => ?_⟩
      · have hk : r.sys.spawned + 1 ≤ k := hsp ▸ hk
        obtain ⟨h1, h2⟩ := ih.fresh k (by omega)
        refine ⟨?_, (htk k).trans h2⟩
        cases hg : (ev.out.foldl (Clock.alarm t) r.wakes).get? k with
        | none => rfl
        | some v =>
          exfalso
          rcases alarm_some hg with hg | ⟨x, sid, i, hm, -⟩
          · rw [h1] at hg; cases hg
          · have := (starts_spawned hreach hst hm).1
            omega
      · have hsp : _ = r.sys.spawned + 1 := hsp
        rw [hsp]
        rcases starts_last h with h | ⟨ev', x, sid, -, he, hm⟩
        · have := ih.bound k i t₀ h; omega
        · cases he
          have := (starts_spawned hreach hst hm).1
          omega
      · rcases alarm_some hv with hv | ⟨x, sid, i, hm, -⟩
        · obtain ⟨i, t₀, h⟩ := ih.known k v hv
          exact ⟨i, t₀, starts_mono h⟩
        · exact ⟨i, t, ev, x, sid, List.mem_append_right _ (List.mem_singleton.mpr rfl), hm⟩
      · rw [htk]
        rcases starts_last h with h | ⟨ev', x, sid, rfl, he, hm⟩
        · obtain ⟨h1, h2⟩ := ih.beat k i t₀ h
          refine ⟨h1, fun v hv => ?_⟩
          rcases alarm_some hv with hv | ⟨x, sid, j, hm, -⟩
          · exact h2 v hv
          · exact absurd ⟨x, sid, j, hm⟩ (hnew k (ih.bound k i t₀ h))
        · cases he
          obtain ⟨hk, h1, h2⟩ := starts_spawned hreach hst hm
          rw [(ih.fresh k (Nat.le_of_eq hk.symm)).2]
          refine ⟨List.isChain_singleton _, fun v hv => ?_⟩
          have := alarm_start (t := t₀) (w := r.wakes) h2 hm ⟨_, h1⟩
          have hv : (ev.out.foldl (Clock.alarm t₀) r.wakes).get? k = some v := hv
          rw [this] at hv
          cases hv
          rfl

/-- C84: the rounds of one ranging task come at least its interval after its start and after each other. -/
theorem C84_spacing (late : Nat) (ls : List (Nat × Label)) (s : Clock) (hr : Clock.Run late .new ls s) (t₀ : Nat) (ev : Pica.Event)
    (hev : (t₀, Label.process ev) ∈ ls) (h k : Nat) (sid i : UInt32) (hs : .effect h (.startTimer k sid i) ∈ ev.out) :
    List.IsChain (fun a b => a + 1000 * i.toNat ≤ b) (t₀ :: ticks k ls) :=
  ((beats_run hr).beat k i t₀ ⟨ev, h, sid, hev, hs⟩).1

theorem clock_nil {late : Nat} {n s : Clock} (h : Clock.Run late n [] s) : s = n := by
  generalize hc : ([] : List (Nat × Label)) = c at h
  cases h with
  | nil => rfl
  | step => simp at hc

theorem clock_split {late : Nat} {n s : Clock} {a b : List (Nat × Label)} (h : Clock.Run late n (a ++ b) s) :
    ∃ r, Clock.Run late n a r ∧ Clock.Run late r b s := by
  induction b using List.reverseRecOn generalizing s with
  | nil => exact ⟨s, by rwa [List.append_nil] at h, .nil⟩
  | append_singleton b x ih =>
    rw [← List.append_assoc] at h
    generalize hc : a ++ b ++ [x] = c at h
    cases h with
    | nil => simp at hc
    | step hr hs ht hp hst =>
      obtain ⟨h1, h2⟩ := List.append_inj' hc rfl
      obtain ⟨rfl⟩ := List.singleton_inj.mp h2
      obtain ⟨r, hr1, hr2⟩ := ih (h1 ▸ hr)
      exact ⟨r, hr1, .step hr2 hs ht hp hst⟩

/-- The timers after processing a command. -/
theorem process_timers {s u : System} {ev : Pica.Event} (hi : System.Inv s) (hst : System.Step s (.process ev) u) :
    (startsOut ev.out = [] ∧ u.timers = s.timers.map (markAll (abortsOut ev.out))) ∨
    ∃ x sid, startsOut ev.out = [(s.spawned, x, sid)] ∧ abortsOut ev.out = [] ∧
      u.timers = s.timers ++ [⟨s.spawned, x, sid, false⟩] := by
  cases hst with
  | @process est c q p out hq hstep =>
    rcases Pica.step_one hi.pica hstep with h0 | ⟨x, sid, h0, h1⟩
    · exact .inl ⟨h0, applyAll_aborts h0 { s with pica := p, queue := q, spawned := s.spawned + 1 }⟩
    · refine .inr ⟨x, sid, h0, h1, ?_⟩
      rw [applyAll_starts h1 { s with pica := p, queue := q, spawned := s.spawned + 1 }, h0]
      rfl

theorem other_timers {s u : System} {l : Label} (hst : System.Step s l u) (hp : ∀ ev, l ≠ .process ev) :
    ∀ x ∈ u.timers, x ∈ s.timers := by
  cases hst with
  | process => exact absurd rfl (hp _)
  | dies => exact fun x hx => List.mem_of_mem_erase hx
  | _ => exact fun x hx => hx

/-- The ranging task `k` has been aborted. -/
structure Gone (k : Nat) (s : Clock) : Prop where
  reach : s.sys.Reachable
  old : k < s.sys.spawned
  gone : ∀ x ∈ s.sys.timers, x.id = k → x.aborted = true

theorem reachable_step {s u : Clock} {t : Nat} {l : Label} (hs : s.sys.Reachable) (hn : s.sys.stopped = false)
    (h : Clock.Step t s l u) : u.sys.Reachable := by
  obtain ⟨ls, hr⟩ := hs
  exact ⟨_, .step hr hn (clock_step h).1⟩

theorem gone_step {k t : Nat} {s u : Clock} {l : Label} (hg : Gone k s) (hn : s.sys.stopped = false) (hst : Clock.Step t s l u) :
    Gone k u := by
  have hsys := (clock_step hst).1
  refine ⟨reachable_step hg.reach hn hst, ?_, ?_⟩
  · cases l with
    | process ev => rw [(process_tasks hg.reach hst).1]; exact Nat.lt_succ_of_lt hg.old
    | _ => rw [other_frame hst (by simp)]; exact hg.old
  · intro x hx hk
    cases l with
    | process ev =>
      rcases process_timers (reachable_inv hg.reach) hsys with ⟨-, h⟩ | ⟨y, sid, -, -, h⟩
      · rw [h] at hx
        obtain ⟨z, hz, rfl⟩ := List.mem_map.mp hx
        unfold markAll at hk ⊢
        split
        · rfl
        · rename_i hc
          rw [if_neg hc] at hk
          exact hg.gone z hz hk
      · rw [h] at hx
        rcases List.mem_append.mp hx with hx | hx
        · exact hg.gone x hx hk
        · cases List.mem_singleton.mp hx
          have := hg.old
          exact absurd hk (Nat.ne_of_gt this)
    | _ => exact hg.gone x (other_timers hsys (by simp) x hx) hk

/-- An aborted ranging task sends at most one more command, and only if it had woken. -/
theorem gone_run {late k : Nat} {r s : Clock} {ls : List (Nat × Label)} (hg : Gone k r) (hr : Clock.Run late r ls s) :
    Gone k s ∧ (ticks k ls).length + (s.wakes.get? k).toList.length ≤ (r.wakes.get? k).toList.length := by
  induction hr with
  | nil => exact ⟨hg, by simp [ticks]⟩
  | @step q u ls t l hr hs ht hp hst ih =>
    obtain ⟨hq, hle⟩ := ih
    refine ⟨gone_step hq hs hst, Nat.le_trans ?_ hle⟩
    rw [ticks_append, List.length_append]
    have same : ticks k [(t, l)] = [] → (u.wakes.get? k = q.wakes.get? k ∨ u.wakes.get? k = none) →
        (ticks k ls).length + (ticks k [(t, l)]).length + (u.wakes.get? k).toList.length ≤
          (ticks k ls).length + (q.wakes.get? k).toList.length := by
      intro h1 h2
      rw [h1]
      rcases h2 with h2 | h2
      · rw [h2]; simp
      · rw [h2]; simp
    cases hst with
    | plain hpl _ => exact same (by cases l <;> first | rfl | cases hpl) (.inl rfl)
    | notifies => exact same rfl (.inl rfl)
    | @tick x i due _ hw hd hsys =>
      by_cases hk : x.id = k
      · subst hk
        have hx : x ∈ q.sys.timers := by cases hsys with | tick h _ => exact h
        have ha := hq.gone x hx rfl
        have e : ticks x.id [(t, Label.tick x)] = [t] := by simp [ticks]
        rw [e, hw]
        show _ + _ + (AMap.get? (if x.aborted = true then _ else _) x.id).toList.length ≤ _
        rw [if_pos ha, AMap.get?_erase_self]
        simp
      · refine same (by simp [ticks, hk]) (.inl ?_)
        show (if x.aborted then q.wakes.erase x.id else q.wakes.insert x.id (i, t + i)).get? k = _
        split
        · exact AMap.get?_erase_of_ne (Ne.symm hk)
        · exact AMap.get?_insert_of_ne (Ne.symm hk)
    | @process ev _ hsys =>
      have hst : Clock.Step t q (.process ev) _ := .process hsys
      refine same rfl ?_
      cases hv : (ev.out.foldl (Clock.alarm t) q.wakes).get? k with
      | none => exact .inr rfl
      | some v =>
        rcases alarm_some hv with h | ⟨x, sid, i, hm, -⟩
        · exact .inl h.symm
        · have := (starts_spawned hq.reach hst hm).1
          have := hq.old
          omega

/-- C84: once a command has aborted a ranging task (started at `t₀` with an interval of `i` milliseconds), the task puts at most
one more command in the queue, and this only if its interval had passed when it was aborted. -/
theorem C84_abort (late : Nat) (a b : List (Nat × Label)) (s : Clock) (t : Nat) (ev : Pica.Event)
    (hr : Clock.Run late .new (a ++ (t, .process ev) :: b) s) (h k : Nat) (ha : .effect h (.abortTimer k) ∈ ev.out)
    (t₀ : Nat) (ev₀ : Pica.Event) (hev : (t₀, Label.process ev₀) ∈ a) (h₀ : Nat) (sid i : UInt32)
    (hs : .effect h₀ (.startTimer k sid i) ∈ ev₀.out) :
    (ticks k b).length ≤ 1 ∧ (ticks k b ≠ [] → (ticks k a).getLast?.getD t₀ + 1000 * i.toNat ≤ t) := by
  rw [show a ++ (t, Label.process ev) :: b = a ++ [(t, .process ev)] ++ b by simp] at hr
  obtain ⟨r, hr1, hr2⟩ := clock_split hr
  obtain ⟨q, hq1, hq2⟩ := clock_split hr1
  have hb := beats_run hr1
  have hbq := beats_run hq1
  have hold := hbq.bound k i t₀ ⟨ev₀, h₀, sid, hev, hs⟩
  have hreach : q.sys.Reachable := ⟨_, clock_run hq1⟩
  have hst : q.sys.stopped = false ∧ Clock.Step t q (.process ev) r := by
    generalize hc : [(t, Label.process ev)] = c at hq2
    cases hq2 with
    | nil => cases hc
    | @step w _ ls t' l hr' hs' _ _ hst' =>
      cases ls with
      | nil =>
        cases hc
        cases clock_nil hr'
        exact ⟨hs', hst'⟩
      | cons y ls => cases ls <;> cases hc
  obtain ⟨hn, hst⟩ := hst
  have hab : k ∈ abortsOut ev.out := List.mem_filterMap.mpr ⟨_, ha, rfl⟩
  have hno : ¬StartsIn k ev.out := by
    rintro ⟨x, sid', j, hm⟩
    have := (starts_spawned hreach hst hm).1
    omega
  have hgone : Gone k r := by
    refine ⟨reachable_step hreach hn hst, by rw [(process_tasks hreach hst).1]; omega, ?_⟩
    intro x hx hk
    rcases process_timers (reachable_inv hreach) (clock_step hst).1 with ⟨-, hm⟩ | ⟨y, sid', -, h0, -⟩
    · rw [hm] at hx
      obtain ⟨z, hz, rfl⟩ := List.mem_map.mp hx
      unfold markAll at hk ⊢
      by_cases hc : z.id ∈ abortsOut ev.out
      · rw [if_pos hc]
      · rw [if_neg hc] at hk
        exact absurd (hk ▸ hab) hc
    · rw [h0] at hab; cases hab
  obtain ⟨-, hle⟩ := gone_run hgone hr2
  cases hw : r.wakes.get? k with
  | none =>
    rw [hw] at hle
    have : ticks k b = [] := List.eq_nil_of_length_eq_zero (by simp at hle; simpa using hle.1)
    rw [this]
    exact ⟨Nat.zero_le _, fun h => absurd rfl h⟩
  | some v =>
    rw [hw] at hle
    refine ⟨by simp at hle; omega, fun _ => ?_⟩
    have hv := (hb.beat k i t₀ ⟨ev₀, h₀, sid, List.mem_append_left _ hev, hs⟩).2 v hw
    rw [(process_tasks hreach hst).2.1] at hw
    have hdue := alarm_abort hab hno hw
    rw [hv, ticks_append] at hdue
    simpa [ticks] using hdue

/-! ### The rate of a session -/

/-- The rounds of the running tasks of a session. -/
def liveRounds (h : Nat) (sid : UInt32) (ls : List (Nat × Label)) : List Nat :=
  ls.filterMap fun
    | (t, .tick x) => if x.aborted = false ∧ x.device = h ∧ x.session = sid then some t else none
    | _ => none

/-- The aborted tasks of a session that put a command in the queue. -/
def deadRounds (h : Nat) (sid : UInt32) (ls : List (Nat × Label)) : List Nat :=
  ls.filterMap fun
    | (_, .tick x) => if x.aborted = true ∧ x.device = h ∧ x.session = sid then some x.id else none
    | _ => none

/-- The ranging tasks of a session. -/
def tasksOf (h : Nat) (sid : UInt32) (ls : List (Nat × Label)) : List Nat :=
  ls.flatMap fun
    | (_, .process ev) => (effectsOf h ev.out).filterMap fun
      | .startTimer k x _ => if x = sid then some k else none
      | _ => none
    | _ => []

theorem tasks_intervals (h : Nat) (sid : UInt32) (ls : List (Nat × Label)) :
    (tasksOf h sid ls).length = (intervals h sid ls).length := by
  unfold tasksOf intervals
  induction ls with
  | nil => rfl
  | cons x ls ih =>
    rw [List.flatMap_cons, List.flatMap_cons, List.length_append, List.length_append, ih]
    congr 1
    obtain ⟨t, l⟩ := x
    cases l with
    | process ev =>
      dsimp only
      generalize effectsOf h ev.out = es
      induction es with
      | nil => rfl
      | cons e es ih =>
        cases e with
        | startTimer k x i =>
          by_cases hx : x = sid
          · simpa [List.filterMap_cons, hx] using ih
          · simpa [List.filterMap_cons, hx] using ih
        | _ => exact ih
    | _ => rfl

theorem beats_split (h : Nat) (sid : UInt32) (ls : List (Nat × Label)) :
    (beats h sid ls).length = (liveRounds h sid ls).length + (deadRounds h sid ls).length := by
  induction ls with
  | nil => rfl
  | cons x ls ih =>
    unfold beats liveRounds deadRounds at ih ⊢
    obtain ⟨t, l⟩ := x
    cases l with
    | tick x =>
      by_cases hx : x.device = h ∧ x.session = sid
      · cases ha : x.aborted with
        | true => simp [ha, hx, ih]; omega
        | false => simp [ha, hx, ih]; omega
      · simp [hx, ih]
    | _ => exact ih

theorem mem_effectsOf {h : Nat} {e : Effect} {out : List Out} : e ∈ effectsOf h out ↔ .effect h e ∈ out := by
  unfold effectsOf
  rw [List.mem_filterMap]
  constructor
  · rintro ⟨o, hm, he⟩
    split at he
    · split at he
      · rename_i hk; cases he; exact hk ▸ hm
      · cases he
    · cases he
  · exact fun hm => ⟨_, hm, by simp⟩

theorem mem_startsOut_iff {k h : Nat} {sid : UInt32} {out : List Out} :
    (k, h, sid) ∈ startsOut out ↔ ∃ i, .effect h (.startTimer k sid i) ∈ out := by
  unfold startsOut
  rw [List.mem_filterMap]
  constructor
  · rintro ⟨o, hm, he⟩
    split at he
    · cases he; exact ⟨_, hm⟩
    · cases he
  · rintro ⟨i, hm⟩; exact ⟨_, hm, rfl⟩

/-- How often a session with intervals of at least `m` microseconds ranges. -/
structure Paced (m h : Nat) (sid : UInt32) (ls : List (Nat × Label)) (s : Clock) : Prop where
  live : ∀ x ∈ s.sys.timers, x.aborted = false → x.device = h → x.session = sid →
    ∃ i due, s.wakes.get? x.id = some (i, due) ∧ m ≤ i ∧ m * (liveRounds h sid ls).length + i ≤ due
  total : m * (liveRounds h sid ls).length ≤ s.now
  owned : ∀ x ∈ s.sys.timers, x.device = h → x.session = sid → x.id ∈ tasksOf h sid ls
  dead : (deadRounds h sid ls).Nodup ∧ ∀ k ∈ deadRounds h sid ls, k ∈ tasksOf h sid ls ∧ s.wakes.get? k = none ∧ k < s.sys.spawned

theorem paced_run {late : Nat} {ls : List (Nat × Label)} {s : Clock} (hr : Clock.Run late .new ls s) (m h : Nat) (sid : UInt32)
    (hm : ∀ j ∈ intervals h sid ls, m ≤ 1000 * j) : Paced m h sid ls s := by
  induction hr with
  | nil => exact ⟨fun x hx => (by cases hx), Nat.zero_le _, fun x hx => (by cases hx), List.nodup_nil, fun k hk => (by cases hk)⟩
  | @step r u ls t l hr hs ht hp hst ih =>
    have hint : intervals h sid (ls ++ [(t, l)]) = intervals h sid ls ++ intervals h sid [(t, l)] := by
      unfold intervals; exact List.flatMap_append
    have htsk : tasksOf h sid (ls ++ [(t, l)]) = tasksOf h sid ls ++ tasksOf h sid [(t, l)] := by
      unfold tasksOf; exact List.flatMap_append
    have hliv : liveRounds h sid (ls ++ [(t, l)]) = liveRounds h sid ls ++ liveRounds h sid [(t, l)] := by
      unfold liveRounds; exact List.filterMap_append
    have hded : deadRounds h sid (ls ++ [(t, l)]) = deadRounds h sid ls ++ deadRounds h sid [(t, l)] := by
      unfold deadRounds; exact List.filterMap_append
    have ih := ih fun j hj => hm j (by rw [hint]; exact List.mem_append_left _ hj)
    have hreach : r.sys.Reachable := ⟨_, clock_run hr⟩
    have hinv := reachable_inv hreach
    have hnow := (clock_step hst).2
    have same : (∀ ev, l ≠ .process ev) → (∀ x, l ≠ .tick x) → u.wakes = r.wakes → Paced m h sid (ls ++ [(t, l)]) u := by
      intro h1 h2 h3
      have e1 : tasksOf h sid [(t, l)] = [] := by cases l <;> first | rfl | exact absurd rfl (h1 _)
      have e2 : liveRounds h sid [(t, l)] = [] := by cases l <;> first | rfl | exact absurd rfl (h2 _)
      have e3 : deadRounds h sid [(t, l)] = [] := by cases l <;> first | rfl | exact absurd rfl (h2 _)
      have hsub := other_timers (clock_step hst).1 h1
      refine ⟨?_, ?_, ?_, ?_, ?_⟩
      · rw [hliv, e2, List.append_nil, h3]
        exact fun x hx => ih.live x (hsub x hx)
      · rw [hliv, e2, List.append_nil, hnow]
        exact Nat.le_trans ih.total ht
      · rw [htsk, e1, List.append_nil]
        exact fun x hx => ih.owned x (hsub x hx)
      · rw [hded, e3, List.append_nil]; exact ih.dead.1
      · rw [hded, e3, List.append_nil, htsk, e1, List.append_nil, h3, other_frame hst h1]; exact ih.dead.2
    cases hst with
    | @plain _ _ hpl hsys =>
      refine same ?_ ?_ rfl
      · rintro ev rfl; exact hpl
      · rintro x rfl; exact hpl
    | notifies => exact same (by simp) (by simp) rfl
    | @tick x i due _ hw hd hsys =>
      have hst : Clock.Step t r (.tick x) _ := .tick hw hd hsys
      have e1 : tasksOf h sid [(t, Label.tick x)] = [] := rfl
      have hx : x ∈ r.sys.timers := by cases hsys with | tick h _ => exact h
      have hsub := other_timers hsys (by simp)
      have hsp := other_frame hst (by simp)
      have hwk : ∀ k, k ≠ x.id → (if x.aborted then r.wakes.erase x.id else r.wakes.insert x.id (i, t + i)).get? k = r.wakes.get? k := by
        intro k hk
        split
        · exact AMap.get?_erase_of_ne hk
        · exact AMap.get?_insert_of_ne hk
      by_cases hown : x.device = h ∧ x.session = sid
      · cases ha : x.aborted with
        | true =>
          have e2 : liveRounds h sid [(t, Label.tick x)] = [] := by simp [liveRounds, ha]
          have e3 : deadRounds h sid [(t, Label.tick x)] = [x.id] := by simp [deadRounds, ha, hown]
          refine ⟨?_, ?_, ?_, ?_, ?_⟩
          · rw [hliv, e2, List.append_nil]
            intro y hy hya hyd hys
            obtain ⟨j, d, h1, h2⟩ := ih.live y (hsub y hy) hya hyd hys
            refine ⟨j, d, ?_, h2⟩
            have hne : y.id ≠ x.id := by
              intro he
              have := unique hinv.ids (hsub y hy) hx he
              rw [this, ha] at hya
              cases hya
            rw [ha] at hwk
            exact (hwk _ hne).trans h1
          · rw [hliv, e2, List.append_nil]
            exact Nat.le_trans ih.total ht
          · rw [htsk, e1, List.append_nil]
            exact fun y hy => ih.owned y (hsub y hy)
          · rw [hded, e3, List.nodup_append]
            refine ⟨ih.dead.1, List.nodup_singleton _, ?_⟩
            intro a ha' b hb hab
            subst hab
            cases List.mem_singleton.mp hb
            have := (ih.dead.2 _ ha').2.1
            rw [this] at hw
            cases hw
          · rw [hded, e3, htsk, e1, List.append_nil]
            intro k hk
            rcases List.mem_append.mp hk with hk | hk
            · obtain ⟨h1, h2, h3⟩ := ih.dead.2 k hk
              refine ⟨h1, ?_, hsp ▸ h3⟩
              by_cases hkx : k = x.id
              · subst hkx; exact AMap.get?_erase_self _ _
              · rw [ha] at hwk
                exact (hwk k hkx).trans h2
            · cases List.mem_singleton.mp hk
              refine ⟨ih.owned x hx hown.1 hown.2, AMap.get?_erase_self _ _, hsp ▸ hinv.bound x hx⟩
        | false =>
          have e2 : liveRounds h sid [(t, Label.tick x)] = [t] := by simp [liveRounds, ha, hown]
          have e3 : deadRounds h sid [(t, Label.tick x)] = [] := by simp [deadRounds, ha]
          obtain ⟨j, d, h1, h2, h3⟩ := ih.live x hx ha hown.1 hown.2
          rw [hw] at h1
          cases h1
          refine ⟨?_, ?_, ?_, ?_, ?_⟩
          · rw [hliv, e2, List.length_append, List.length_singleton, Nat.mul_add, Nat.mul_one]
            intro y hy hya hyd hys
            have hyx : y = x := by
              obtain ⟨yi, yd, ys, ya⟩ := y
              obtain ⟨xi, xd, xs, xa⟩ := x
              cases hya; cases hyd; cases hys; cases ha
              obtain ⟨e4, e5⟩ := hown
              dsimp only at e4 e5
              subst e4 e5
              have l1 := (hinv.live _ _ _).mp (hsub _ hy)
              have l2 := (hinv.live _ _ _).mp hx
              rw [l1] at l2
              cases l2
              rfl
            subst hyx
            refine ⟨i, t + i, ?_, h2, by omega⟩
            exact AMap.get?_insert_self _ _ _
          · rw [hliv, e2, List.length_append, List.length_singleton, Nat.mul_add, Nat.mul_one]
            show _ ≤ t
            omega
          · rw [htsk, e1, List.append_nil]
            exact fun y hy => ih.owned y (hsub y hy)
          · rw [hded, e3, List.append_nil]; exact ih.dead.1
          · rw [hded, e3, List.append_nil, htsk, e1, List.append_nil]
            intro k hk
            obtain ⟨h4, h5, h6⟩ := ih.dead.2 k hk
            refine ⟨h4, ?_, hsp ▸ h6⟩
            have hkx : k ≠ x.id := by
              rintro rfl
              rw [h5] at hw
              cases hw
            rw [ha] at hwk
            exact (hwk k hkx).trans h5
      · have e2 : liveRounds h sid [(t, Label.tick x)] = [] := by simp [liveRounds]; tauto
        have e3 : deadRounds h sid [(t, Label.tick x)] = [] := by simp [deadRounds]; tauto
        refine ⟨?_, ?_, ?_, ?_, ?_⟩
        · rw [hliv, e2, List.append_nil]
          intro y hy hya hyd hys
          obtain ⟨j, d, h1, h2⟩ := ih.live y (hsub y hy) hya hyd hys
          refine ⟨j, d, ?_, h2⟩
          have hne : y.id ≠ x.id := by
            intro he
            have := unique hinv.ids (hsub y hy) hx he
            subst this
            exact hown ⟨hyd, hys⟩
          exact (hwk _ hne).trans h1
        · rw [hliv, e2, List.append_nil]
          exact Nat.le_trans ih.total ht
        · rw [htsk, e1, List.append_nil]
          exact fun y hy => ih.owned y (hsub y hy)
        · rw [hded, e3, List.append_nil]; exact ih.dead.1
        · rw [hded, e3, List.append_nil, htsk, e1, List.append_nil]
          intro k hk
          obtain ⟨h4, h5, h6⟩ := ih.dead.2 k hk
          refine ⟨h4, ?_, hsp ▸ h6⟩
          have hkx : k ≠ x.id := by
            rintro rfl
            rw [h5] at hw
            cases hw
          exact (hwk k hkx).trans h5
    | @process ev _ hsys =>
      have hst : Clock.Step t r (.process ev) _ := .process hsys
      have e2 : liveRounds h sid [(t, Label.process ev)] = [] := rfl
      have e3 : deadRounds h sid [(t, Label.process ev)] = [] := rfl
      obtain ⟨hsp, hwk, -⟩ := process_tasks hreach hst
      refine ⟨?_, ?_, ?_, ?_, ?_⟩
      · rw [hliv, e2, List.append_nil]
        intro y hy hya hyd hys
        rcases process_timers hinv hsys with ⟨h0, htm⟩ | ⟨z, sid', h0, h1, htm⟩
        · have hy : y ∈ r.sys.timers.map (markAll (abortsOut ev.out)) := htm ▸ hy
          obtain ⟨yi, yd, ys, ya⟩ := y
          cases hya
          obtain ⟨hy, hna⟩ := mem_mark.mp hy
          obtain ⟨j, d, h1, h2⟩ := ih.live _ hy rfl hyd hys
          refine ⟨j, d, ?_, h2⟩
          refine (alarm_keep hna ?_).trans h1
          rintro ⟨x, sx, i, hmm⟩
          have := mem_startsOut' hmm
          rw [h0] at this
          cases this
        · have hy : y ∈ r.sys.timers ++ [⟨r.sys.spawned, z, sid', false⟩] := htm ▸ hy
          rcases List.mem_append.mp hy with hy | hy
          · obtain ⟨j, d, h2, h3⟩ := ih.live _ hy hya hyd hys
            refine ⟨j, d, ?_, h3⟩
            refine (alarm_keep (by rw [h1]; exact List.not_mem_nil) ?_).trans h2
            rintro ⟨x, sx, i, hmm⟩
            have e := (starts_spawned hreach hst hmm).1
            have := hinv.bound y hy
            omega
          · cases List.mem_singleton.mp hy
            cases hyd
            cases hys
            obtain ⟨i, hi⟩ := mem_startsOut_iff.mp (h0 ▸ List.mem_singleton.mpr rfl : (r.sys.spawned, z, sid') ∈ startsOut ev.out)
            refine ⟨_, _, alarm_start h1 hi ⟨_, h0⟩, ?_, ?_⟩
            · refine hm _ ?_
              rw [hint]
              refine List.mem_append_right _ ?_
              unfold intervals
              rw [List.flatMap_singleton]
              exact List.mem_filterMap.mpr ⟨_, mem_effectsOf.mpr hi, by simp⟩
            · have := ih.total; omega
      · rw [hliv, e2, List.append_nil]
        exact Nat.le_trans ih.total ht
      · rw [htsk]
        intro y hy hyd hys
        rcases process_timers hinv hsys with ⟨h0, htm⟩ | ⟨z, sid', h0, h1, htm⟩
        · have hy : y ∈ r.sys.timers.map (markAll (abortsOut ev.out)) := htm ▸ hy
          obtain ⟨w, hw, rfl⟩ := List.mem_map.mp hy
          have e : (markAll (abortsOut ev.out) w).id = w.id ∧ (markAll (abortsOut ev.out) w).device = w.device ∧
              (markAll (abortsOut ev.out) w).session = w.session := by unfold markAll; split <;> exact ⟨rfl, rfl, rfl⟩
          rw [e.1]
          exact List.mem_append_left _ (ih.owned w hw (e.2.1 ▸ hyd) (e.2.2 ▸ hys))
        · have hy : y ∈ r.sys.timers ++ [⟨r.sys.spawned, z, sid', false⟩] := htm ▸ hy
          rcases List.mem_append.mp hy with hy | hy
          · exact List.mem_append_left _ (ih.owned y hy hyd hys)
          · cases List.mem_singleton.mp hy
            cases hyd
            cases hys
            obtain ⟨i, hi⟩ := mem_startsOut_iff.mp (h0 ▸ List.mem_singleton.mpr rfl : (r.sys.spawned, z, sid') ∈ startsOut ev.out)
            refine List.mem_append_right _ ?_
            unfold tasksOf
            rw [List.flatMap_singleton]
            exact List.mem_filterMap.mpr ⟨_, mem_effectsOf.mpr hi, by simp⟩
      · rw [hded, e3, List.append_nil]; exact ih.dead.1
      · rw [hded, e3, List.append_nil, htsk]
        intro k hk
        obtain ⟨h4, h5, h6⟩ := ih.dead.2 k hk
        refine ⟨List.mem_append_left _ h4, ?_, by rw [hsp]; omega⟩
        show (ev.out.foldl (Clock.alarm t) r.wakes).get? k = none
        cases hv : (ev.out.foldl (Clock.alarm t) r.wakes).get? k with
        | none => rfl
        | some v =>
          rcases alarm_some hv with hv | ⟨x, sx, i, hmm, -⟩
          · rw [h5] at hv; cases hv
          · have := (starts_spawned hreach hst hmm).1
            omega

/-- C84: a session whose ranging intervals are all at least `m` microseconds puts at most one command per `m` in the queue, and
one more each time it was started. -/
theorem C84_rate (late : Nat) (ls : List (Nat × Label)) (s : Clock) (hr : Clock.Run late .new ls s) (h : Nat) (sid : UInt32)
    (m : Nat) (hm : ∀ j ∈ intervals h sid ls, m ≤ 1000 * j) :
    m * (beats h sid ls).length ≤ lastTime ls + m * (intervals h sid ls).length := by
  have hp := paced_run hr m h sid hm
  rw [beats_split, Nat.mul_add, lastTime_run hr]
  refine Nat.add_le_add hp.total (Nat.mul_le_mul_left _ ?_)
  rw [← tasks_intervals]
  exact (List.subperm_of_subset hp.dead.1 fun k hk => (hp.dead.2 k hk).1).length_le

theorem book_info {h : Nat} {sid : UInt32} {ev : Pica.Event} {o o' : Option (UInt32 × Bytes × SessionType)}
    (hb : BookStep h sid ev o o') :
    (infoNumbers h sid [ev]).length ≤ if ev.command = .ranging h sid then 1 else 0 := by
  cases hb with
  | creates _ _ _ h => rw [h]; exact Nat.zero_le _
  | ends _ _ h => rw [h]; exact Nat.zero_le _
  | silent _ _ _ _ _ _ h => rw [h]; exact Nat.zero_le _
  | info _ _ _ _ _ hc h => rw [h, if_pos hc]; exact Nat.le_refl _
  | queue _ _ _ _ _ _ _ h => rw [h]; exact Nat.zero_le _
  | same _ _ _ _ h => rw [h]; exact Nat.zero_le _

/-- Every SESSION_INFO_NTF of a session is caused by a command of one of its tasks. -/
theorem infos_dequeued {ls : List Label} {s : System} (hr : System.Run .new ls s) (h : Nat) (sid : UInt32) :
    (infoNumbers h sid (processed ls)).length ≤ (ls.filterMap dequeued).count (.ranging h sid) := by
  induction hr with
  | nil => exact Nat.le_refl _
  | @step r u ls l hr hst hs ih =>
    have hreach := pica_reachable ⟨ls, hr⟩
    have hp : processed (ls ++ [l]) = processed ls ++ processed [l] := by unfold processed; exact List.filterMap_append
    rw [hp, infoNumbers_append, List.length_append, List.filterMap_append, List.count_append]
    refine Nat.add_le_add ih ?_
    cases l with
    | process ev =>
      have hb := book_info (book_step h sid (Pica.reachable_inv hreach) (process_pica hs).1)
      show (infoNumbers h sid [ev]).length ≤ List.count (.ranging h sid) [ev.command]
      rw [List.count_singleton]
      simpa using hb
    | _ => exact Nat.zero_le _

theorem ticks_enqueued {ls : List (Nat × Label)} {n s : System} (hr : System.Run n (ls.map Prod.snd) s) (h : Nat) (sid : UInt32) :
    ((ls.map Prod.snd).filterMap enqueued).count (.ranging h sid) = (beats h sid ls).length := by
  generalize hm : ls.map Prod.snd = m at hr
  induction hr generalizing ls with
  | nil => rw [List.map_eq_nil_iff.mp hm]; rfl
  | @step r u m l hr hst hs ih =>
    obtain ⟨ls, l', rfl, rfl, h3⟩ := List.map_eq_append_iff.mp hm
    obtain ⟨⟨t, l⟩, rfl, rfl⟩ := List.map_eq_singleton_iff.mp h3
    have hb : beats h sid (ls ++ [(t, l)]) = beats h sid ls ++ beats h sid [(t, l)] := by unfold beats; exact List.filterMap_append
    rw [hb, List.length_append, List.filterMap_append, List.count_append, ih rfl]
    congr 1
    cases hs with
    | @request c he =>
      cases c with
      | ranging => cases he
      | _ => rfl
    | @tick x =>
      show List.count _ [Command.ranging x.device x.session] = _
      unfold beats
      rw [List.count_singleton]
      by_cases hx : x.device = h ∧ x.session = sid <;> simp [hx]
    | _ => rfl

/-- C84: the same for the SESSION_INFO_NTFs of the session. -/
theorem C84_ntfs (late : Nat) (ls : List (Nat × Label)) (s : Clock) (hr : Clock.Run late .new ls s) (h : Nat) (sid : UInt32)
    (m : Nat) (hm : ∀ j ∈ intervals h sid ls, m ≤ 1000 * j) :
    m * (infoNumbers h sid (processed (ls.map Prod.snd))).length ≤ lastTime ls + m * (intervals h sid ls).length := by
  have hrun := clock_run hr
  refine Nat.le_trans (Nat.mul_le_mul_left _ ?_) (C84_rate late ls s hr h sid m hm)
  rw [← ticks_enqueued hrun]
  refine Nat.le_trans (infos_dequeued hrun h sid) ?_
  rw [C45_fifo _ _ hrun, List.count_append]
  exact Nat.le_add_right _ _

/-- A session with an interval of 200 ms. It is stopped while its task is about to send a command, and sends it all the
same: three rounds in 600.6 ms. -/
example : ∃ ls s, Clock.Run 100 .new ls s ∧ intervals 0 7 ls = [200] ∧ beats 0 7 ls = [200000, 400100, 600600] ∧
    ticks 4 ls = [200000, 400100, 600600] ∧ infoNumbers 0 7 (processed (ls.map Prod.snd)) = [0, 1, 2] ∧ lastTime ls = 601500 := by
  obtain ⟨ls, s, hr, hf⟩ := Ex.exists_clocked (late := 100)
    (as := Ex.at' 0 Ex.active ++ Ex.at' 1000 [.notifies 2, .notifies 2, .notifies 2] ++
      Ex.at' 5000 [.notifies 0, .notifies 0, .notifies 0] ++ Ex.at' 200000 [.tick 0, .process] ++
      Ex.at' 400100 [.tick 0, .process] ++ Ex.at' 600500 (Ex.send 0 (Ex.stop 7)) ++ Ex.at' 600600 [.tick 0, .process] ++
      Ex.at' 601500 [.notifies 0])
    (f := fun ls _ => decide (intervals 0 7 ls = [200]) && decide (beats 0 7 ls = [200000, 400100, 600600]) &&
      decide (ticks 4 ls = [200000, 400100, 600600]) && decide (infoNumbers 0 7 (processed (ls.map Prod.snd)) = [0, 1, 2]) &&
      decide (lastTime ls = 601500))
    (by decide +kernel)
  simp only [Bool.and_eq_true, decide_eq_true_eq] at hf
  exact ⟨ls, s, hr, hf.1.1.1.1, hf.1.1.1.2, hf.1.1.2, hf.1.2, hf.2⟩

end Pica.Props
