import Verif.Spec.SiteFair
import Verif.Proofs.Fair
import Verif.Props.Replies
/-! Schedules without end of the program of the web server. -/

namespace Pica.Props
open Pica.Spec Pica.Site

variable {measure : Measure} {σ : Nat → Site} {ℓ : Nat → Site.Label}

theorem siteUpTo_succ (n : Nat) : siteUpTo ℓ (n + 1) = siteUpTo ℓ n ++ [ℓ n] := by
  unfold siteUpTo
  rw [List.range_succ, List.map_append]
  rfl

theorem siteUpTo_prefix {i j : Nat} (h : i ≤ j) : siteUpTo ℓ i <+: siteUpTo ℓ j := by
  obtain ⟨k, rfl⟩ := Nat.exists_eq_add_of_le h
  unfold siteUpTo
  rw [List.range_add, List.map_append]
  exact List.prefix_append _ _

theorem site_run (h : SiteEndless measure σ ℓ) (n : Nat) : Site.Run measure .new (siteUpTo ℓ n) (σ n) := by
  induction n with
  | zero => rw [h.start]; exact .nil
  | succ n ih =>
    rw [siteUpTo_succ]
    exact .step ih (h.step n).1 (h.step n).2.1 (h.step n).2.2

theorem tidy_run (h : SiteEndless measure σ ℓ) (ht : ∀ i, Tidy (σ i) (ℓ i)) (n : Nat) : TidyRun measure (siteUpTo ℓ n) (σ n) := by
  induction n with
  | zero => rw [h.start]; exact .nil
  | succ n ih =>
    rw [siteUpTo_succ]
    exact .step ih (h.step n).1 (h.step n).2.1 (h.step n).2.2 (ht n)

/-! ### The emulator in it -/

/-- What the emulator does in a step of the program. -/
def sysLabel : Site.Label → System.Label
  | .system l => l
  | .ask a => .request a.command
  | .process ev => .process ev
  | .panics c x => .panics c x
  | _ => .shuffle

theorem stutter (s : System) : System.Step s .shuffle s :=
  .shuffle (p := s.pica) (.devices (p := s.pica) (List.Perm.refl _))

theorem endless_sys (h : SiteEndless measure σ ℓ) : Endless (fun i => (σ i).sys) (fun i => sysLabel (ℓ i)) where
  start := by rw [h.start]; rfl
  step i := by
    obtain ⟨-, h2, h3⟩ := h.step i
    have h4 := (h.step (i + 1)).1
    refine ⟨h2, ?_⟩
    generalize σ (i + 1) = u at h3 h4
    generalize ℓ i = l at h3
    cases h3 with
    | system _ h => exact h
    | ask h => exact h
    | process h => rw [(hear_frame _ _).1]; exact h
    | panics => cases h4
    | _ => exact stutter _

theorem loop_fair (hf : SiteFair measure σ ℓ) :
    FairTo (fun i => (σ i).sys) (fun i => sysLabel (ℓ i)) fun l => ∃ c, dequeued l = some c := by
  intro i hi
  obtain ⟨j, hj, hl⟩ := hf.loop i fun j hj => by
    obtain ⟨k, hk, l, u, ⟨c, hc⟩, hst⟩ := hi j hj
    refine ⟨k, hk, ?_⟩
    have hq : ∃ c q, (σ k).sys.queue = c :: q := by
      dsimp only at hst
      generalize (σ k).sys = s at hst
      cases hst with
      | process h _ => exact ⟨_, _, h⟩
      | panics h _ => exact ⟨_, _, h⟩
      | _ => cases hc
    obtain ⟨c, q, hq⟩ := hq
    cases hx : (σ k).sys.pica.step ((σ k).sys.env ((σ k).web.estimate measure)) c with
    | ok z =>
      obtain ⟨p, out⟩ := z
      exact ⟨_, _, .inl ⟨_, rfl⟩, .process (.process hq hx)⟩
    | error x => exact ⟨_, _, .inr ⟨_, _, rfl⟩, .panics hq hx⟩
  refine ⟨j, hj, ?_⟩
  rcases hl with ⟨ev, hl⟩ | ⟨c, x, hl⟩ <;> exact ⟨_, by show dequeued (sysLabel (ℓ j)) = _; rw [hl]; rfl⟩

/-! ### Counting -/

/-- What grows again and again as long as it is below a bound reaches it. -/
theorem reaches (f : Nat → Nat) (B i : Nat) (h : ∀ j ≥ i, f j < B → ∃ k ≥ j, f j < f k) : ∃ j ≥ i, B ≤ f j := by
  have key : ∀ m, m ≤ B → ∃ j ≥ i, m ≤ f j := by
    intro m
    induction m with
    | zero => intro _; exact ⟨i, le_rfl, Nat.zero_le _⟩
    | succ m ih =>
      intro hm
      obtain ⟨j, hj, hj'⟩ := ih (by omega)
      by_cases hb : m + 1 ≤ f j
      · exact ⟨j, hj, hb⟩
      · obtain ⟨k, hk, hk'⟩ := h j hj (by omega)
        exact ⟨k, by omega, by omega⟩
  exact key B le_rfl

/-- What never gets larger than a bound and never gets smaller comes to rest. -/
theorem comes_to_rest (f : Nat → Nat) (B : Nat) (hm : ∀ i j, i ≤ j → f i ≤ f j) (hb : ∀ i, f i ≤ B) : ∃ j, ∀ k ≥ j, f k = f j := by
  by_contra hn
  obtain ⟨j, -, hj⟩ := reaches f (B + 1) 0 fun j _ _ => by
    by_contra hno
    refine hn ⟨j, fun k hk => le_antisymm ?_ (hm j k hk)⟩
    by_contra hlt
    exact hno ⟨k, hk, by omega⟩
  have := hb j
  omega

/-! ### The events -/

theorem broadcasts_append (a b : List Site.Label) : broadcasts (a ++ b) = broadcasts a ++ broadcasts b := List.flatMap_append ..

theorem handled_append (a b : List Site.Label) : handled (a ++ b) = handled a ++ handled b := List.filterMap_append ..

theorem broadcast_prefix {i j : Nat} (h : i ≤ j) : broadcasts (siteUpTo ℓ i) <+: broadcasts (siteUpTo ℓ j) := by
  obtain ⟨t, ht⟩ := siteUpTo_prefix (ℓ := ℓ) h
  rw [← ht, broadcasts_append]
  exact List.prefix_append _ _

/-- The events handled are the first of those broadcast; the others wait. -/
theorem handled_first {ls : List Site.Label} {s : Site} (h : Site.Run measure .new ls s) :
    handled ls ++ s.events = broadcasts ls := by
  generalize hn : Site.new = n at h
  induction h with
  | nil => subst hn; rfl
  | @step t u ls l hr he hst hs ih =>
    rw [handled_append, broadcasts_append, ← ih]
    cases hs with
    | @process c out t' hst =>
      rw [(hear_frame _ _).2.2.1]
      show handled ls ++ [] ++ (t.events ++ events out) = handled ls ++ t.events ++ (events out ++ [])
      simp only [List.append_nil, List.append_assoc]
    | event h _ =>
      rw [h]
      show handled ls ++ [_] ++ _ = handled ls ++ (_ :: _) ++ []
      simp only [List.append_nil, List.append_assoc, List.singleton_append]
    | _ =>
      show handled ls ++ [] ++ _ = handled ls ++ _ ++ []
      simp only [List.append_nil]

theorem all_handled (he : SiteEndless measure σ ℓ) (hf : SiteFair measure σ ℓ) (i : Nat) :
    ∃ j ≥ i, broadcasts (siteUpTo ℓ i) <+: handled (siteUpTo ℓ j) := by
  obtain ⟨j, hj, hb⟩ := reaches (fun n => (handled (siteUpTo ℓ n)).length) (broadcasts (siteUpTo ℓ i)).length i fun j hj hlt => by
    by_contra hno
    have hle : ∀ k ≥ j, (handled (siteUpTo ℓ k)).length < (broadcasts (siteUpTo ℓ i)).length := fun k hk => by
      by_contra hlt'
      exact hno ⟨k, hk, by omega⟩
    obtain ⟨k, hk, hl⟩ := hf.events j fun k hk => by
      refine ⟨k, le_rfl, ?_⟩
      have h1 := congrArg List.length (handled_first (site_run he k))
      have h2 := (broadcast_prefix (ℓ := ℓ) (show i ≤ k by omega)).length_le
      have h3 := hle k hk
      rw [List.length_append] at h1
      cases hev : (σ k).events with
      | nil => rw [hev] at h1; simp at h1; omega
      | cons e es =>
        by_cases hlen : (σ k).events.length ≤ eventSize
        · exact ⟨_, _, .inl ⟨e, rfl⟩, .event (heard := fun _ => true) hev hlen⟩
        · exact ⟨_, _, .inr rfl, .lags (by omega)⟩
    have hst := (he.step k).2.2
    have hend := (he.step (k + 1)).1
    rcases hl with ⟨e, hl⟩ | hl
    · refine hno ⟨k + 1, by omega, ?_⟩
      rw [siteUpTo_succ, handled_append, hl, List.length_append]
      have hp : siteUpTo ℓ j <+: siteUpTo ℓ k := siteUpTo_prefix hk
      have : (handled (siteUpTo ℓ j)).length ≤ (handled (siteUpTo ℓ k)).length := (hp.filterMap _).length_le
      have h1 : (handled [Site.Label.event e]).length = 1 := rfl
      omega
    · rw [hl] at hst
      generalize σ (k + 1) = u at hst hend
      cases hst
      cases hend
  refine ⟨j, hj, ?_⟩
  have hp := broadcast_prefix (ℓ := ℓ) hj
  rw [← handled_first (site_run he j)] at hp
  exact List.prefix_of_prefix_length_le hp (List.prefix_append _ _) hb

/-! ### The answers -/

theorem requests_prefix {i j : Nat} (h : i ≤ j) : requests (siteUpTo ℓ i) <+: requests (siteUpTo ℓ j) :=
  (siteUpTo_prefix h).filterMap _

theorem outcomes_prefix {i j : Nat} (h : i ≤ j) : outcomes (siteUpTo ℓ i) <+: outcomes (siteUpTo ℓ j) :=
  (siteUpTo_prefix h).filterMap _

theorem takenAnswers_prefix {i j : Nat} (h : i ≤ j) : takenAnswers (siteUpTo ℓ i) <+: takenAnswers (siteUpTo ℓ j) :=
  (siteUpTo_prefix h).filterMap _

/-- An anchor command in the queue comes to its outcome. -/
theorem outcome_comes (he : SiteEndless measure σ ℓ) (hf : SiteFair measure σ ℓ) {i : Nat} (ha : (σ i).asks ≠ []) :
    ∃ k ≥ i, (outcomes (siteUpTo ℓ i)).length < (outcomes (siteUpTo ℓ k)).length := by
  have hq := (paired (site_run he i)).2
  obtain ⟨c, hc⟩ : ∃ c, c ∈ (σ i).sys.queue.filter isAnchor := by
    rw [← hq]
    obtain ⟨a, ha⟩ := List.exists_mem_of_ne_nil _ ha
    exact ⟨_, List.mem_map_of_mem ha⟩
  obtain ⟨hc, hanc⟩ := List.mem_filter.mp hc
  obtain ⟨x, y, hxy⟩ := List.append_of_mem hc
  obtain ⟨j, hj, -, ev, hl, hev⟩ := takes (endless_sys he) (loop_fair hf) hxy
  refine ⟨j + 1, by omega, ?_⟩
  have hle := (outcomes_prefix (ℓ := ℓ) hj).length_le
  suffices h : (outcomes [ℓ j]).length = 1 by
    rw [siteUpTo_succ, outcomes_append, List.length_append]
    omega
  have hst := (he.step j).2.2
  generalize σ (j + 1) = u at hst
  generalize ℓ j = l at *
  cases hst with
  | system hs h => dsimp only [sysLabel] at hl; rw [hl] at hs; cases hs
  | ask h => cases hl
  | @process c' out t h =>
    cases hl
    dsimp only at hev
    subst hev
    have hstep := (process_pica h).1
    have hst' := Pica.step_anc hstep
    obtain ⟨r, hr⟩ : ∃ r, out = [.anchorReply r] := by
      dsimp only at hst'
      cases hst' with
      | same _ _ h1 h2 =>
        cases c' <;> first | exact absurd rfl (h1 _) | exact absurd rfl (h2 _) | cases hanc
      | known => exact ⟨_, rfl⟩
      | create => exact ⟨_, rfl⟩
      | unknown => exact ⟨_, rfl⟩
      | destroy => exact ⟨_, rfl⟩
    subst hr
    rfl
  | _ => cases hl

theorem pairs_prefix {α β γ : Type} {f : α → γ} {p q : List (α × β)} (hl : p.length ≤ q.length)
    (h1 : p.map Prod.fst <+: q.map Prod.fst) (h2 : p.map (fun x => (f x.1, x.2)) <+: q.map (fun x => (f x.1, x.2))) : p <+: q := by
  rw [List.prefix_iff_eq_take]
  refine List.ext_getElem (by simp [hl]) fun n hn hn' => ?_
  have hq : n < q.length := by omega
  have g1 := h1.getElem (i := n) (by simpa using hn)
  have g2 := h2.getElem (i := n) (by simpa using hn)
  simp only [List.getElem_map, Prod.mk.injEq] at g1 g2
  rw [List.getElem_take]
  exact Prod.ext g1 g2.2

/-- Every answer that waits is taken. -/
theorem answer_taken (he : SiteEndless measure σ ℓ) (hf : SiteFair measure σ ℓ) {i : Nat} {P : List (Ask × Except PicaCommandError Nat)}
    (hP : (takenAnswers (siteUpTo ℓ i) ++ (σ i).answers).Perm P) : ∃ j ≥ i, P.Subperm (takenAnswers (siteUpTo ℓ j)) := by
  classical
  have grow : ∀ k ≥ i, ∃ Q, P <+: Q ∧ (takenAnswers (siteUpTo ℓ k) ++ (σ k).answers).Perm Q := by
    intro k hk
    obtain ⟨⟨p, p1, p2, p3⟩, -⟩ := paired (site_run he i)
    obtain ⟨⟨q, q1, q2, q3⟩, -⟩ := paired (site_run he k)
    have hlen : p.length ≤ q.length := by
      have := (outcomes_prefix (ℓ := ℓ) hk).length_le
      rw [← p2, ← q2] at this
      simpa using this
    have hpq : p <+: q := by
      refine pairs_prefix (f := Ask.command) hlen ?_ ?_
      · have h1 : p.map Prod.fst <+: requests (siteUpTo ℓ k) :=
          (p1 ▸ List.prefix_append _ _ : p.map Prod.fst <+: requests (siteUpTo ℓ i)).trans (requests_prefix hk)
        rw [← q1] at h1
        exact List.prefix_of_prefix_length_le h1 (List.prefix_append _ _) (by simpa using hlen)
      · rw [p2, q2]
        exact outcomes_prefix hk
    obtain ⟨z, rfl⟩ := hpq
    exact ⟨P ++ z, List.prefix_append _ _, q3.trans ((p3.symm.trans hP).append_right z)⟩
  have one : ∀ x, ∃ j ≥ i, P.count x ≤ (takenAnswers (siteUpTo ℓ j)).count x := by
    rintro ⟨a, r⟩
    refine reaches (fun n => (takenAnswers (siteUpTo ℓ n)).count (a, r)) _ i fun j hj hlt => ?_
    by_contra hno
    have hle : ∀ k ≥ j, (takenAnswers (siteUpTo ℓ k)).count (a, r) < P.count (a, r) := fun k hk => by
      by_contra hlt'
      exact hno ⟨k, hk, by omega⟩
    obtain ⟨k, hk, hl⟩ := hf.handlers a r j fun k hk => by
      refine ⟨k, le_rfl, ?_⟩
      obtain ⟨Q, h1, h2⟩ := grow k (by omega)
      have h3 := h2.count_eq (a, r)
      have h4 := h1.sublist.count_le (a, r)
      have h5 := hle k hk
      rw [List.count_append] at h3
      obtain ⟨b, c, hbc⟩ := List.append_of_mem (List.count_pos_iff.mp (show 0 < (σ k).answers.count (a, r) by omega))
      exact ⟨_, _, .inl ⟨_, rfl⟩, .answer (heard := fun _ => true) hbc⟩
    refine hno ⟨k + 1, by omega, ?_⟩
    have hx : takenAnswers [ℓ k] = [(a, r)] := by
      rcases hl with ⟨n, hl⟩ | hl <;> rw [hl] <;> rfl
    have hs : takenAnswers (siteUpTo ℓ (k + 1)) = takenAnswers (siteUpTo ℓ k) ++ takenAnswers [ℓ k] := by
      rw [siteUpTo_succ]
      exact List.filterMap_append ..
    rw [hs, hx, List.count_append, List.count_singleton_self]
    have := (takenAnswers_prefix (ℓ := ℓ) hk).sublist.count_le (a, r)
    omega
  have all : ∀ L : List (Ask × Except PicaCommandError Nat), ∃ j ≥ i, ∀ x ∈ L, P.count x ≤ (takenAnswers (siteUpTo ℓ j)).count x := by
    intro L
    induction L with
    | nil => exact ⟨i, le_rfl, by simp⟩
    | cons x L ih =>
      obtain ⟨j, hj, h1⟩ := ih
      obtain ⟨k, hk, h2⟩ := one x
      refine ⟨max j k, by omega, fun y hy => ?_⟩
      rcases List.mem_cons.mp hy with rfl | hy
      · exact h2.trans ((takenAnswers_prefix (le_max_right j k)).sublist.count_le _)
      · exact (h1 y hy).trans ((takenAnswers_prefix (le_max_left j k)).sublist.count_le _)
  obtain ⟨j, hj, h⟩ := all P
  exact ⟨j, hj, List.subperm_ext_iff.mpr h⟩

/-! ### What is said of one handle -/

/-- The reply of a successful anchor command about this handle. -/
def okay (n : Nat) : Out → Bool
  | .anchorReply (.ok k) => decide (k = n)
  | _ => false

/-- The replies about one handle are at most two. -/
theorem okay_le {p : Pica} {tr : List Pica.Event} (h : Pica.Run .new tr p) (n : Nat) :
    (tr.flatMap Pica.Event.out).countP (okay n) ≤ 2 := by
  suffices key : (tr.flatMap Pica.Event.out).countP (okay n) ≤ 2 ∧
      ((tr.flatMap Pica.Event.out).countP (okay n) ≠ 0 → n < p.counter) ∧
      ((∃ m a, p.anchors.get? m = some a ∧ a.handle = n) → (tr.flatMap Pica.Event.out).countP (okay n) ≤ 1) from key.1
  generalize hp₀ : Pica.new = p₀ at h
  induction h with
  | nil =>
    subst hp₀
    exact ⟨by simp, by simp, by simp⟩
  | @reorder q r tr hrun hro ih =>
    have hi := Pica.reachable_inv ⟨tr, hp₀ ▸ hrun⟩
    obtain ⟨hc, -, ha, -⟩ := Pica.reorder_dev hi hro
    rw [hc]
    refine ⟨ih.1, ih.2.1, ?_⟩
    rintro ⟨m, a, hm, hn⟩
    rw [AMap.get?_perm hi.ancNodup ha] at hm
    exact ih.2.2 ⟨m, a, hm, hn⟩
  | @cmd q r tr env c out hrun hst ih =>
    have hi := Pica.reachable_inv ⟨tr, hp₀ ▸ hrun⟩
    have hcnt := Pica.step_counter hst
    obtain ⟨i1, i2, i3⟩ := ih
    rw [List.flatMap_append, List.countP_append]
    generalize (tr.flatMap Pica.Event.out).countP (okay n) = x at *
    have e : [(⟨env, c, out⟩ : Pica.Event)].flatMap Pica.Event.out = out := List.append_nil _
    rw [e]
    have quiet : out.countP (okay n) = 0 → (∀ m, r.anchors.get? m = q.anchors.get? m) →
        x + out.countP (okay n) ≤ 2 ∧ (x + out.countP (okay n) ≠ 0 → n < r.counter) ∧
        ((∃ m a, r.anchors.get? m = some a ∧ a.handle = n) → x + out.countP (okay n) ≤ 1) := by
      intro h0 ha
      rw [h0]
      simp only [ha]
      exact ⟨i1, fun h => lt_of_lt_of_le (i2 h) hcnt, i3⟩
    cases hx : Pica.step_anc hst with
    | same _ _ h1 h2 h3 h4 =>
      refine quiet ?_ fun m => by rw [h3]
      rw [List.countP_eq_zero]
      intro o ho hok
      cases o with
      | anchorReply s => exact step_unanswered hi hst h1 h2 _ ho
      | _ => cases hok
    | known m h1 h2 => exact quiet rfl fun m => by rw [h2]
    | unknown m h1 h2 => exact quiet rfl fun m => by rw [h2]
    | create m h1 h2 =>
      by_cases hn : q.counter = n
      · have hx0 : x = 0 := by
          by_contra h
          have := i2 h
          omega
        subst hx0
        have h1 : [Out.anchorReply (.ok q.counter)].countP (okay n) = 1 := by simp [okay, hn]
        rw [h1, h2]
        exact ⟨by omega, fun _ => by dsimp only; omega, fun _ => by omega⟩
      · have h0 : [Out.anchorReply (.ok q.counter)].countP (okay n) = 0 := by simp [okay, hn]
        rw [h0]
        refine ⟨i1, fun h => lt_of_lt_of_le (i2 h) hcnt, ?_⟩
        rintro ⟨k, a, hk, ha⟩
        rw [h2] at hk
        dsimp only at hk
        rw [AMap.get?_insert] at hk
        split at hk
        · cases hk
          exact absurd ha hn
        · exact i3 ⟨k, a, hk, ha⟩
    | destroy m b h1 h2 =>
      by_cases hn : b.handle = n
      · have := i3 ⟨m, b, h1, hn⟩
        have h1' : [Out.anchorReply (.ok b.handle)].countP (okay n) = 1 := by simp [okay, hn]
        rw [h1']
        refine ⟨by omega, fun _ => ?_, ?_⟩
        · have := (hi.anc m b h1).2.1
          omega
        · rintro ⟨k, a, hk, ha⟩
          rw [h2] at hk
          dsimp only at hk
          rw [AMap.get?_erase] at hk
          split at hk
          · cases hk
          · rename_i hne
            exact absurd (hi.ancInj k a m b hk h1 (ha.trans hn.symm)) (by first | exact hne | exact fun e => hne e.symm)
      · have h0 : [Out.anchorReply (.ok b.handle)].countP (okay n) = 0 := by simp [okay, hn]
        rw [h0]
        refine ⟨i1, fun h => lt_of_lt_of_le (i2 h) hcnt, ?_⟩
        rintro ⟨k, a, hk, ha⟩
        rw [h2] at hk
        dsimp only at hk
        rw [AMap.get?_erase] at hk
        split at hk
        · cases hk
        · exact i3 ⟨k, a, hk, ha⟩

theorem upTo_sys (n : Nat) : upTo (fun i => sysLabel (ℓ i)) n = (siteUpTo ℓ n).map sysLabel := by
  unfold upTo siteUpTo
  rw [List.map_map]
  rfl

theorem about_le (n : Nat) (ls : List Site.Label) :
    ((broadcasts ls).filter fun e => decide (eventHandle e = n)).length ≤ (eventsOf n (processed (ls.map sysLabel))).length := by
  unfold eventsOf
  refine (List.Sublist.filter _ ?_).length_le
  induction ls with
  | nil => exact List.Sublist.refl _
  | cons l ls ih =>
    have h1 : broadcasts (l :: ls) = broadcasts [l] ++ broadcasts ls := broadcasts_append [l] ls
    have h2 : processed ((l :: ls).map sysLabel) = processed [sysLabel l] ++ processed (ls.map sysLabel) :=
      List.filterMap_append (l := [sysLabel l])
    rw [h1, h2, List.flatMap_append]
    refine List.Sublist.append ?_ ih
    cases l with
    | process ev => exact List.Sublist.refl _
    | _ => exact List.nil_sublist _

theorem okays_le (n : Nat) (ls : List Site.Label) :
    (outcomes ls).countP (fun x => decide (x.2 = .ok n)) ≤
      ((processed (ls.map sysLabel)).flatMap Pica.Event.out).countP (okay n) := by
  induction ls with
  | nil => exact Nat.le_refl _
  | cons l ls ih =>
    have h1 : outcomes (l :: ls) = outcomes [l] ++ outcomes ls := List.filterMap_append (l := [l])
    have h2 : processed ((l :: ls).map sysLabel) = processed [sysLabel l] ++ processed (ls.map sysLabel) :=
      List.filterMap_append (l := [sysLabel l])
    rw [h1, h2, List.flatMap_append, List.countP_append, List.countP_append]
    refine Nat.add_le_add ?_ ih
    cases l with
    | process ev =>
      unfold outcomes
      rw [List.filterMap_cons]
      dsimp only
      split
      · exact Nat.zero_le _
      · rename_i x hx
        split at hx
        · rename_i r hr
          cases hx
          have : (processed [sysLabel (.process ev)]).flatMap Pica.Event.out = [.anchorReply r] := by
            show ev.out ++ [] = _
            rw [hr]; rfl
          rw [this]
          cases r with
          | error e => simp
          | ok k => simp [okay]
        · cases hx
    | _ => exact Nat.zero_le _
