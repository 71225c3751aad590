import Verif.Proofs.TestsRun
/-! The tests do not get stuck. -/

set_option linter.dupNamespace false

namespace Pica.Tests
open Spec SessionState

variable {late lag gap t h n : Nat} {plan : Nat → Plan} {s : Test}

/-! ### Nothing is overdue after a step -/

/-- The delayed notifications and the end of their sleep go together. -/
def Paired (c : Clock) : Prop := c.sys.ntfs.Perm (c.naps.map fun x => (x.1, x.2.1))

theorem paired_out (out : List Out) {S : System} {naps : List (Nat × Ntf × Nat)} (h : S.ntfs.Perm (naps.map fun x => (x.1, x.2.1))) :
    (out.foldl System.apply S).ntfs.Perm ((naps ++ out.filterMap (Clock.nap t)).map fun x => (x.1, x.2.1)) := by
  induction out generalizing S naps with
  | nil => simpa using h
  | cons o out ih =>
    rw [List.foldl_cons]
    cases o with
    | effect x e =>
      cases e with
      | notify d m =>
        rw [List.filterMap_cons_some (show Clock.nap t (.effect x (.notify d m)) = some (x, m, t + Clock.ms d) from rfl)]
        have := ih (S := S.apply (.effect x (.notify d m))) (naps := naps ++ [(x, m, t + Clock.ms d)]) (by
          rw [List.map_append]
          show (S.ntfs ++ [(x, m)]).Perm _
          exact h.append (.refl _))
        rwa [List.append_assoc] at this
      | _ => exact ih h
    | event e => cases e <;> exact ih h
    | _ => exact ih h

theorem paired_step {c u : Clock} {l : System.Label} (h : Paired c) (hs : Clock.Step t c l u) : Paired u := by
  cases hs with
  | plain hp hs => cases hs <;> first | exact h | exact hp.elim
  | notifies hp _ hs =>
    cases hs with
    | notifies hl =>
      have h1 := (hl.symm.trans h).trans (hp.map fun x => (x.1, x.2.1))
      exact List.Perm.cons_inv h1
  | tick _ _ hs => cases hs; exact h
  | process hs => cases hs; exact paired_out _ h

theorem box_hear {H : Host} {p : Packet} {x : Expected} {y : Nat × Bytes} {ys : List (Nat × Bytes)} (h : (H.hear t p).box x = y :: ys) :
    y.1 = t ∨ ∃ zs, H.box x = y :: zs := by
  have key : ∀ {l : List (Nat × Bytes)} {bs : List Bytes}, l ++ bs.map (fun b => (t, b)) = y :: ys → y.1 = t ∨ ∃ zs, l = y :: zs := by
    intro l bs h
    cases l with
    | nil =>
      cases bs with
      | nil => cases h
      | cons b bs => cases h; exact .inl rfl
    | cons z zs => cases h; exact .inr ⟨_, rfl⟩
  unfold Host.box at h ⊢
  split at h
  · rename_i hx; rw [if_pos hx]; exact key h
  · rename_i hx; rw [if_neg hx]; exact key h

theorem quick_hear {H : Host} (hq : H.Quick lag t) (p : Packet) : (H.hear t p).Quick lag t := by
  intro hf
  obtain ⟨h1, h2⟩ := hq hf
  refine ⟨h1, fun x m todo ht y ys hy => ?_⟩
  show t ≤ max H.able y.1 + lag
  rcases box_hear hy with hy | ⟨zs, hy⟩
  · omega
  · exact h2 x m todo ht y zs hy

/-- All the hosts are quick. -/
def AllQuick (lag t : Nat) (hosts : AMap Nat Host) : Prop := ∀ h H, hosts.get? h = some H → H.Quick lag t

theorem quick_insert {hosts : AMap Nat Host} {y : Nat} {H : Host} (hq : AllQuick lag t hosts) (hH : H.Quick lag t) :
    AllQuick lag t (hosts.insert y H) := by
  intro h G hG
  rw [AMap.get?_insert] at hG
  split at hG
  · cases hG; exact hH
  · exact hq h G hG

theorem quick_post {hosts : AMap Nat Host} (hq : AllQuick lag t hosts) (y : Nat) (p : Packet) : AllQuick lag t (post t y p hosts) := by
  unfold post
  split
  · rename_i H hH
    exact quick_insert hq (quick_hear (hq y H hH) p)
  · exact hq

theorem quick_hears {sc : Nat → List Statement} (out : List Out) {hosts : AMap Nat Host} (hq : AllQuick lag t hosts) :
    AllQuick lag t (out.foldl (hears sc t) hosts) := by
  induction out generalizing hosts with
  | nil => exact hq
  | cons o out ih =>
    refine ih ?_
    cases o with
    | send y p => exact quick_post hq y p
    | event e =>
      cases e with
      | connected y m =>
        refine quick_insert hq fun _ => ⟨fun _ _ _ => Nat.le_add_right _ _, fun _ _ _ _ y _ _ => ?_⟩
        show t ≤ max t _ + lag
        omega
      | disconnected => exact hq
    | _ => exact hq

theorem wakes_out (out : List Out) {S : System} {w : AMap Nat (Nat × Nat)} {k : Timer} {i due : Nat}
    (hk : k ∈ (out.foldl System.apply S).timers) (hw : (out.foldl (Clock.alarm t) w).get? k.id = some (i, due)) :
    t ≤ due ∨ ∃ k' ∈ S.timers, k'.id = k.id ∧ w.get? k.id = some (i, due) := by
  induction out generalizing S w with
  | nil => exact .inr ⟨k, hk, rfl, hw⟩
  | cons o out ih =>
    rcases ih hk hw with h | ⟨k', h1, h2, h3⟩
    · exact .inl h
    · cases o with
      | effect x e =>
        cases e with
        | startTimer tid sid m =>
          have h3' : (w.insert tid _).get? k.id = some (i, due) := h3
          rw [AMap.get?_insert] at h3'
          split at h3'
          · cases h3'; exact .inl (Nat.le_add_right _ _)
          · rename_i hne
            rcases List.mem_append.mp h1 with h1 | h1
            · exact .inr ⟨k', h1, h2, h3'⟩
            · rw [List.mem_singleton.mp h1] at h2
              exact absurd h2 hne
        | abortTimer tid =>
          have h3' : (Clock.alarm t w (.effect x (.abortTimer tid))).get? k.id = some (i, due) := h3
          have h4 : w.get? k.id = some (i, due) := by
            unfold Clock.alarm at h3'
            dsimp only at h3'
            split at h3'
            · split at h3'
              · rw [AMap.get?_erase] at h3'
                split at h3'
                · cases h3'
                · exact h3'
              · exact h3'
            · exact h3'
          obtain ⟨z, hz, rfl⟩ := List.mem_map.mp h1
          refine .inr ⟨z, hz, ?_, h4⟩
          rw [← h2]
          unfold System.mark
          split <;> rfl
        | _ => exact .inr ⟨k', h1, h2, h3⟩
      | event e => cases e <;> exact .inr ⟨k', h1, h2, h3⟩
      | _ => exact .inr ⟨k', h1, h2, h3⟩

theorem mem_stamp {st : List Nat} {l : System.Label} {a : Nat} (h : a ∈ stamp t st l) : a ∈ st ∨ a = t := by
  unfold stamp at h
  split at h <;> first
    | exact .inl h
    | exact .inl (List.mem_of_mem_tail h)
    | (rcases List.mem_append.mp h with h | h
       · exact .inl h
       · exact .inr (List.mem_singleton.mp h))

/-- What is overdue after a step of the clock. -/
theorem clock_inTime {l : System.Label} {c : Clock} (hin : InTime late lag t s) (hs : Clock.Step t s.clock l c) :
    c.now = t ∧ (∀ x ∈ c.naps, t ≤ x.2.2 + late) ∧
    ∀ k ∈ c.sys.timers, ∀ i due, c.wakes.get? k.id = some (i, due) → t ≤ due + lag := by
  cases hs with
  | plain hp hs =>
    refine ⟨rfl, hin.naps, ?_⟩
    cases hs <;> first
      | exact hin.timers
      | exact hp.elim
      | exact fun k hk => hin.timers k (List.mem_of_mem_erase hk)
  | notifies hp _ hs =>
    cases hs with
    | notifies hl => exact ⟨rfl, fun x hx => hin.naps x (hp.mem_iff.mpr (List.mem_cons_of_mem _ hx)), hin.timers⟩
  | @tick k i due u hw hdue hs =>
    cases hs with
    | tick hk hroom =>
      refine ⟨rfl, hin.naps, fun z hz i' due' hz' => ?_⟩
      have hz'' : AMap.get? (if k.aborted then s.clock.wakes.erase k.id else s.clock.wakes.insert k.id (i, t + i)) z.id = some (i', due') := hz'
      split at hz''
      · rw [AMap.get?_erase] at hz''
        split at hz''
        · cases hz''
        · exact hin.timers z hz i' due' hz''
      · rw [AMap.get?_insert] at hz''
        split at hz''
        · cases hz''; omega
        · exact hin.timers z hz i' due' hz''
  | process hs =>
    cases hs with
    | @process est c q p out hq hx =>
      refine ⟨rfl, fun x hx => ?_, fun k hk i due hw => ?_⟩
      · rcases List.mem_append.mp hx with hx | hx
        · exact hin.naps x hx
        · obtain ⟨o, -, ho⟩ := List.mem_filterMap.mp hx
          unfold Clock.nap at ho
          split at ho
          · cases ho; show t ≤ t + _ + late; omega
          · cases ho
      · rcases wakes_out out hk hw with h | ⟨k', h1, h2, h3⟩
        · omega
        · rw [← h2] at h3
          exact hin.timers k' h1 i due h3

/-- Nothing is overdue after a step. -/
theorem step_inTime {sc : Nat → List Statement} {l : Label} {u : Test} (hin : InTime late lag t s) (hs : Step sc t s l u) :
    InTime late lag u.clock.now u := by
  cases hs with
  | @emulator l c hf hc =>
    obtain ⟨h1, h2, h3⟩ := clock_inTime hin hc
    rw [h1]
    refine ⟨Nat.le_of_eq h1, h2, fun a ha => ?_, h3, ?_⟩
    · rcases mem_stamp ha with ha | rfl
      · exact hin.queue a ha
      · exact Nat.le_add_right _ _
    · show AllQuick lag t (after sc t s.hosts l)
      unfold after
      split
      · exact quick_hears _ hin.hosts
      · exact quick_post hin.hosts _ _
      · exact hin.hosts
  | @sends y H c todo b u hH hok htodo hctl hc =>
    obtain ⟨h1, h2, h3⟩ := clock_inTime hin hc
    rw [h1]
    refine ⟨Nat.le_of_eq h1, h2, fun a ha => ?_, h3, ?_⟩
    · rcases List.mem_append.mp ha with ha | ha
      · exact hin.queue a ha
      · rw [List.mem_singleton.mp ha]; exact Nat.le_add_right _ _
    · refine quick_insert hin.hosts fun _ => ⟨fun _ _ _ => Nat.le_add_right _ _, fun x m todo' _ z _ _ => ?_⟩
      show t ≤ max t _ + lag
      omega
  | @raises y H c todo hH hok htodo hctl =>
    exact ⟨Nat.le_refl _, hin.naps, hin.queue, hin.timers, quick_insert hin.hosts fun h => by cases h⟩
  | @gets y H x timeout a b todo inbox hH hok htodo hib =>
    refine ⟨Nat.le_refl _, hin.naps, hin.queue, hin.timers, quick_insert hin.hosts ?_⟩
    split
    · refine fun _ => ⟨fun _ _ _ => Nat.le_add_right _ _, fun x' m todo' _ z _ _ => ?_⟩
      have := (hin.hosts y H hH hok).2 x timeout todo htodo _ _ hib
      show t ≤ max (max H.able a) _ + lag
      omega
    · exact fun h => by cases h
  | @times y H x timeout todo hH hok htodo hib htime =>
    exact ⟨Nat.le_refl _, hin.naps, hin.queue, hin.timers, quick_insert hin.hosts fun h => by cases h⟩

theorem Going.open (hg : Going plan late lag gap n s) {H : Host} {c : Message} {todo : List Statement} (hH : s.hosts.get? h = some H)
    (ht : H.todo = .send c :: todo) : s.clock.sys.conns.get? h = some .running ∧ ∃ b, c.wire = some b := by
  rcases hg.holds h with hb | ⟨H', ⟨g, h1, h2⟩ | ⟨lo, -, hf⟩⟩
  · rw [hb.host] at hH; cases hH
  · rw [h2.host] at hH
    cases hH
    obtain ⟨e1, -⟩ := h2.waits.send (t := 0) ht
    obtain ⟨-, b, e2, -⟩ := h1.send (t := s.clock.now) e1 h2.hi h2.lo
    exact ⟨h2.conn, b, e2⟩
  · rw [hf.host] at hH
    cases hH
    cases (hf.waits.send (t := 0) ht).1

/-- Nothing is overdue at the end of a run. -/
theorem run_inTime {sc : Nat → List Statement} {ls : List (Nat × Label)} (hr : Run sc late lag ls s) : InTime late lag s.clock.now s ∧ Paired s.clock := by
  induction hr with
  | nil =>
    exact ⟨⟨Nat.le_refl _, (by intro _ h; cases h), (by intro _ h; cases h), (by intro _ h; cases h), (by intro _ _ h; cases h)⟩, .refl _⟩
  | step hr hup hin hs ih =>
    refine ⟨step_inTime hin hs, ?_⟩
    have hp := ih.2
    cases hs with
    | emulator _ hc => exact paired_step hp hc
    | sends _ _ _ _ hc => exact paired_step hp hc
    | _ => exact hp

/-! ### The end -/

theorem Going.passes (hg : Going plan late lag gap n s) {H : Host} (hH : s.hosts.get? h = some H) : H.failed = false := by
  rcases hg.holds h with hb | ⟨H', ⟨g, h1, h2⟩ | ⟨lo, -, hf⟩⟩
  · rw [hb.host] at hH; cases hH
  · rw [h2.host] at hH; cases hH; exact h2.waits.ok
  · rw [hf.host] at hH; cases hH; exact hf.waits.ok

/-- How long a stage lasts. -/
theorem Good.ends {p : Plan} {b : Nat} {g : Stage} (hg : Good p late lag h b g) :
    g.deadline late lag ≤ b + p.bound late lag ∨ ∃ f, p.kind = .take f ∧ ¬Plain g.rest := by
  have hlim : 1012000 + 4 * late + 14 * lag + p.slack lag ≤ p.limit late lag := by
    by_cases hl : p.Leads
    · rw [hl.limit]; omega
    · unfold Plan.Leads at hl
      push Not at hl
      obtain ⟨f, hf⟩ := hl
      rw [Plan.limit_take hf, Plan.slack_take hf]
      omega
  unfold Plan.bound
  cases hg with
  | connected => left; show b + 5000 + late ≤ _; omega
  | ready => rename_i lo _ _; left; show lo + 2 * lag ≤ _; omega
  | reset => rename_i lo _ _ _ _; left; show lo + lag ≤ _; omega
  | resetRsp => rename_i lo _ _; left; show lo + 5000 + late ≤ _; omega
  | ready' => rename_i lo _ _; left; show lo + 2 * lag ≤ _; omega
  | init => rename_i lo _ _ _ _; left; show lo + lag ≤ _; omega
  | initRsp => rename_i lo _ _; left; show lo + 1000 + late ≤ _; omega
  | inited => rename_i lo _ _; left; show lo + 2 * lag ≤ _; omega
  | config => rename_i lo _ _ _ _; left; show lo + lag ≤ _; omega
  | configRsp => rename_i lo _ _; left; show lo + 1000 + late ≤ _; omega
  | part h1 =>
    rename_i lo i _ _
    have := p.slack_le lag i h1
    left
    unfold Stage.deadline
    dsimp only
    rcases p.parts_run h1 with ⟨-, e⟩ | ⟨-, e⟩ <;> rw [e] <;> dsimp only <;> omega
  | sent h1 =>
    rename_i lo i _ _ _ _ _
    have := p.slack_le lag i (Nat.le_of_lt h1)
    left; show lo + lag ≤ _; omega
  | start => rename_i lo _ _ _ _; left; show lo + lag ≤ _; omega
  | startRsp => rename_i lo k _ _; left; show lo + 1000 + late ≤ _; omega
  | started => rename_i lo k a _ _ _; left; show a + 5000 + late ≤ _; omega
  | active =>
    rename_i lo k a _ _ _
    left
    unfold Stage.deadline
    dsimp only
    rcases middle_cons p with ⟨f, -, e⟩ | ⟨-, e⟩ <;> rw [e] <;> show a + 1000000 + lag ≤ _ <;> omega
  | round₁ => rename_i lo k r _ _ _ _; left; show r + lag ≤ _; omega
  | info₁ h1 => rename_i lo k r _ _ _; left; rw [h1.limit]; show r + 1000000 + lag ≤ _; omega
  | round₂ h1 => rename_i lo k r _ _ _; left; rw [h1.limit]; show r + lag ≤ _; omega
  | ahead h1 =>
    rename_i lo k r f _ _
    exact .inr ⟨f, h1, fun hp => hp _ _ List.mem_cons_self⟩
  | data h1 => rename_i lo k a f _ _ _; left; show a + 1000000 + lag ≤ _; omega
  | dataRound h1 => rename_i lo k r f _ _ _; left; show r + lag ≤ _; omega
  | halt => rename_i lo k due seq _ _ _ _; left; show lo + 2 * lag ≤ _; omega
  | stop => rename_i lo k due seq x _ _ _ _ _; left; show lo + lag ≤ _; omega
  | stopRsp => rename_i lo seq _ _ _; left; show lo + 1000 + late ≤ _; omega
  | stopped => rename_i lo a seq _ _ _ _; left; show a + 5000 + late ≤ _; omega
  | ready'' => rename_i lo seq _ _ _; left; show lo + 2 * lag ≤ _; omega
  | deinit => rename_i lo seq x _ _ _ _; left; show lo + lag ≤ _; omega

/-- When a host is done. -/
theorem Going.done (hg : Going plan late lag gap n s) (hlate : late < 4000) (hin : InTime late lag s.clock.now s) {H : Host}
    (hH : s.hosts.get? h = some H) (ht : H.born + (plan h).bound late lag + lag < s.clock.now) : H.todo = [] := by
  obtain ⟨σ, hst, hlk⟩ := hg.joint
  rcases hst.at h with ⟨-, hb⟩ | ⟨H', g, hσ, h1, h2⟩ | ⟨H', lo, hσ, hbd, hf⟩
  · rw [hb.host] at hH; cases hH
  · rw [h2.host] at hH
    cases hH
    exfalso
    have hd := h2.hi
    rcases h1.ends with h3 | ⟨f, hk, hp⟩
    · omega
    · have := (hst.sooner hlk hlate hin hσ hp).2.2
      unfold Plan.bound at ht
      omega
  · rw [hf.host] at hH
    cases hH
    by_contra hne
    have := (hf.later hin).2.2 hne
    have := hbd.2
    omega

/-! ### There is always something to do -/

/-- The steps that get the test further. -/
def Working : Label → Prop
  | .sends _ | .gets _ | .emulator (.process _) | .emulator (.notifies _ _) | .emulator (.tick _) => True
  | _ => False

theorem exists_min {l : List Nat} (h : l ≠ []) : ∃ m ∈ l, ∀ x ∈ l, m ≤ x := by
  induction l with
  | nil => exact absurd rfl h
  | cons a l ih =>
    by_cases hl : l = []
    · subst hl
      exact ⟨a, List.mem_cons_self, fun x hx => by rw [List.mem_singleton.mp hx]⟩
    · obtain ⟨m, hm, hall⟩ := ih hl
      by_cases hc : a ≤ m
      · exact ⟨a, List.mem_cons_self, fun x hx => by
          rcases List.mem_cons.mp hx with rfl | hx
          · exact Nat.le_refl _
          · exact Nat.le_trans hc (hall x hx)⟩
      · exact ⟨m, List.mem_cons_of_mem _ hm, fun x hx => by
          rcases List.mem_cons.mp hx with rfl | hx
          · omega
          · exact hall x hx⟩

theorem Going.progress (hg : Going plan late lag gap n s) (hn : n ≤ 247) (hlate : late < 4000) (hlag : lag < 250000) (hin : InTime late lag s.clock.now s)
    (hp : Paired s.clock) {H : Host} (hH : s.hosts.get? h = some H) (htodo : H.todo ≠ []) :
    ∃ t l u, InTime late lag t s ∧ Step (scripts plan) t s l u ∧ Working l := by
  cases hq : s.clock.sys.queue with
  | cons c q =>
    obtain ⟨p', out, h1, -⟩ := hg.process hn hlate hlag hin hq (fun _ _ => none)
    refine ⟨_, _, _, hin, .emulator ?_ (.process (.process hq h1)), trivial⟩
    trivial
  | nil =>
    have hroom : s.clock.sys.Room := by unfold System.Room; rw [hq]; decide
    have hok : ∀ h H, s.hosts.get? h = some H → H.failed = false := by
      intro h H hH
      rcases hg.holds h with hb | ⟨H', ⟨g, h1, h2⟩ | ⟨lo, -, hf⟩⟩
      · rw [hb.host] at hH; cases hH
      · rw [h2.host] at hH; cases hH; exact h2.waits.ok
      · rw [hf.host] at hH; cases hH; exact hf.waits.ok
    by_cases hsend : ∃ h H c todo, s.hosts.get? h = some H ∧ H.todo = .send c :: todo
    · obtain ⟨h, H, c, todo, h1, h2⟩ := hsend
      obtain ⟨h3, b, h4⟩ := hg.open h1 h2
      exact ⟨_, _, _, hin, .sends h1 (hok h H h1) h2 h4 (.plain trivial (.packet h3 hroom)), trivial⟩
    by_cases hget : ∃ h H x m todo, s.hosts.get? h = some H ∧ H.todo = .expect x m :: todo ∧ H.box x ≠ []
    · obtain ⟨h, H, x, m, todo, h1, h2, h3⟩ := hget
      cases hib : H.box x with
      | nil => exact absurd hib h3
      | cons z zs => exact ⟨_, _, _, hin, .gets h1 (hok h H h1) h2 hib, trivial⟩
    have hquick : ∀ t, AllQuick lag t s.hosts := by
      intro t h H h1 _
      refine ⟨fun c todo h2 => absurd ⟨h, H, c, todo, h1, h2⟩ hsend, fun x m todo h2 y ys hy => ?_⟩
      exact absurd ⟨h, H, x, m, todo, h1, h2, by rw [hy]; simp⟩ hget
    have hstamps : s.stamps = [] := List.eq_nil_of_length_eq_zero (by rw [hg.len, hq]; rfl)
    have waiting : ∀ h H, s.hosts.get? h = some H → H.todo ≠ [] → ∃ x m todo, H.todo = .expect x m :: todo ∧ H.box x = [] := by
      intro h H hH htodo
      cases ht : H.todo with
      | nil => exact absurd ht htodo
      | cons st todo =>
        cases st with
        | send c => exact absurd ⟨h, H, c, todo, hH, ht⟩ hsend
        | expect x m =>
          refine ⟨x, m, todo, rfl, ?_⟩
          by_contra hib
          exact hget ⟨h, H, x, m, todo, hH, ht, hib⟩
    -- what sleeps
    let sleeps := s.clock.naps.map (·.2.2) ++ s.clock.sys.timers.filterMap fun k => (s.clock.wakes.get? k.id).map (·.2)
    have hne : sleeps ≠ [] := by
      rcases hg.holds h with hb | ⟨H', ⟨g, h1, h2⟩ | ⟨lo, -, hf⟩⟩
      · rw [hb.host] at hH; cases hH
      · rw [h2.host] at hH
        cases hH
        obtain ⟨x, m, todo, ht, hib⟩ := waiting h H h2.host htodo
        obtain ⟨⟨r', e1⟩, -⟩ := h2.waits.empty ht hib
        rcases h1.due with h3 | h3 | ⟨c, r, h3⟩ | h3
        · rw [← h2.queue, hq, hstamps] at h3
          exact absurd rfl h3
        · cases hn : g.naps with
          | nil => exact absurd hn h3
          | cons z zs =>
            have hz : z ∈ Props.napsOf h s.clock.naps := h2.naps.mem_iff.mpr (by rw [hn]; exact List.mem_cons_self)
            obtain ⟨w, hw, -⟩ := List.mem_filterMap.mp hz
            exact List.ne_nil_of_mem (List.mem_append_left _ (List.mem_map_of_mem hw))
        · rw [e1] at h3
          cases h3
        · cases hn : g.timer with
          | none => exact absurd hn h3
          | some z =>
            obtain ⟨id, due⟩ := z
            obtain ⟨g1, g2⟩ := h2.timer.2 id due hn
            exact List.ne_nil_of_mem (List.mem_append_right _ (List.mem_filterMap.mpr ⟨_, g1, by rw [g2]; rfl⟩))
      · rw [hf.host] at hH
        cases hH
        obtain ⟨x, m, todo, ht, hib⟩ := waiting h H hf.host htodo
        obtain ⟨⟨r', e1⟩, -⟩ := hf.waits.empty ht hib
        cases e1
    obtain ⟨m, hm, hmin⟩ := exists_min hne
    have hin' : InTime late lag (max s.clock.now m) s := by
      refine ⟨Nat.le_max_left _ _, fun x hx => ?_, (by rw [hstamps]; intro _ h; cases h), fun k hk i due hw => ?_, hquick _⟩
      · have h1 := hin.naps x hx
        have h2 := hmin x.2.2 (List.mem_append_left _ (List.mem_map_of_mem hx))
        omega
      · have h1 := hin.timers k hk i due hw
        have h2 := hmin due (List.mem_append_right _ (List.mem_filterMap.mpr ⟨k, hk, by rw [hw]; rfl⟩))
        omega
    rcases List.mem_append.mp hm with hm | hm
    · obtain ⟨⟨y, nt, due⟩, hx, rfl⟩ := List.mem_map.mp hm
      have h1 := List.perm_cons_erase hx
      have h2 : s.clock.sys.ntfs.Perm ((y, nt) :: ((s.clock.naps.erase (y, nt, due)).map fun x => (x.1, x.2.1))) :=
        hp.trans (h1.map fun x => (x.1, x.2.1))
      exact ⟨_, _, _, hin', .emulator (l := .notifies y nt) trivial (.notifies h1 (Nat.le_max_right _ _) (.notifies h2)), trivial⟩
    · obtain ⟨k, hk, hw⟩ := List.mem_filterMap.mp hm
      cases hw' : s.clock.wakes.get? k.id with
      | none => rw [hw'] at hw; cases hw
      | some z =>
        obtain ⟨i, due⟩ := z
        rw [hw'] at hw
        cases hw
        exact ⟨_, _, _, hin', .emulator (l := .tick k) trivial (.tick hw' (Nat.le_max_right _ _) (.tick hk hroom)), trivial⟩

end Pica.Tests
