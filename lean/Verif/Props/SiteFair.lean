import Verif.Proofs.SiteFair
import Verif.Props.Site
/-! C107: what the web server is told and asked is dealt with. -/

namespace Pica.Props
open Pica.Spec Pica.Site

/-- C107: every connection event broadcast by the emulator is handled by the web server, in their order. -/
theorem C107_events (measure : Measure) (σ : Nat → Site) (ℓ : Nat → Site.Label) (he : SiteEndless measure σ ℓ)
    (hf : SiteFair measure σ ℓ) (i : Nat) : ∃ j ≥ i, broadcasts (siteUpTo ℓ i) <+: handled (siteUpTo ℓ j) :=
  all_handled he hf i

/-- C107: every request for an anchor gets the outcome of its own command, unless its handler is dropped. -/
theorem C107_answered (measure : Measure) (σ : Nat → Site) (ℓ : Nat → Site.Label) (he : SiteEndless measure σ ℓ)
    (hf : SiteFair measure σ ℓ) (i : Nat) :
    ∃ j ≥ i, ∃ pairs : List (Ask × Except PicaCommandError Nat), pairs.map Prod.fst = requests (siteUpTo ℓ i) ∧
      pairs.map (fun x => (x.1.command, x.2)) <+: outcomes (siteUpTo ℓ j) ∧ pairs.Subperm (takenAnswers (siteUpTo ℓ j)) := by
  -- the commands are processed
  obtain ⟨j, hj, hb⟩ := reaches (fun n => (outcomes (siteUpTo ℓ n)).length) (requests (siteUpTo ℓ i)).length i fun j hj hlt => by
    refine outcome_comes he hf fun h0 => ?_
    obtain ⟨⟨p, p1, p2, -⟩, -⟩ := paired (site_run he j)
    have h1 := (requests_prefix (ℓ := ℓ) hj).length_le
    rw [← p1, h0, List.append_nil, List.length_map] at h1
    have h2 := congrArg List.length p2
    rw [List.length_map] at h2
    omega
  obtain ⟨⟨p, p1, p2, p3⟩, -⟩ := paired (site_run he j)
  -- the answers are taken
  obtain ⟨k, hk, hs⟩ := answer_taken he hf p3
  have hlen : (requests (siteUpTo ℓ i)).length ≤ p.length := by
    have h2 := congrArg List.length p2
    rw [List.length_map] at h2
    omega
  refine ⟨k, by omega, p.take (requests (siteUpTo ℓ i)).length, ?_, ?_, (List.take_sublist _ _).subperm.trans hs⟩
  · have h1 : requests (siteUpTo ℓ i) <+: p.map Prod.fst := by
      have := requests_prefix (ℓ := ℓ) hj
      rw [← p1] at this
      exact List.prefix_of_prefix_length_le this (List.prefix_append _ _) (by simpa using hlen)
    rw [List.map_take]
    exact (List.prefix_iff_eq_take.mp h1).symm
  · rw [List.map_take, p2]
    exact (List.take_prefix _ _).trans (outcomes_prefix hk)

/-- C107: if no successful handler is dropped, if the answers about one anchor are seen in their order and as long as no
handler has panicked, the registry comes to know about each handle what the emulator has, and stays so. -/
theorem C107_registry (measure : Measure) (σ : Nat → Site) (ℓ : Nat → Site.Label) (he : SiteEndless measure σ ℓ)
    (hf : SiteFair measure σ ℓ) (ht : ∀ i, Tidy (σ i) (ℓ i)) (n : Nat) :
    ∃ j, ∀ k ≥ j, (σ k).web.poisoned = false → ∀ c m, Registered (σ k).web n c m ↔ Spec.Present (σ k).sys.pica n c m := by
  -- the events
  obtain ⟨i₁, h₁⟩ := comes_to_rest (fun k => ((broadcasts (siteUpTo ℓ k)).filter fun e => decide (eventHandle e = n)).length) 2
    (fun i j hij => ((broadcast_prefix hij).sublist.filter _).length_le) fun k => by
      refine (about_le n _).trans ?_
      rw [← upTo_sys]
      rcases C42_events _ _ (run_processed (endless_run (endless_sys he) k)) n with ⟨d, -, h⟩ | ⟨-, h | ⟨m, h⟩⟩ <;> rw [h] <;> simp
  obtain ⟨j₁, hj₁, hp₁⟩ := all_handled he hf i₁
  -- the answers
  obtain ⟨i₂, h₂⟩ := comes_to_rest (fun k => (outcomes (siteUpTo ℓ k)).countP fun x : Command × Except PicaCommandError Nat => decide (x.2 = .ok n)) 2
    (fun i j hij => (outcomes_prefix hij).sublist.countP_le) fun k => by
      refine (okays_le n _).trans ?_
      rw [← upTo_sys]
      exact okay_le (run_processed (endless_run (endless_sys he) k)) n
  obtain ⟨⟨p, p1, p2, p3⟩, -⟩ := paired (site_run he i₂)
  obtain ⟨j₂, hj₂, hp₂⟩ := answer_taken he hf p3
  refine ⟨max j₁ j₂, fun k hk hw c m => ?_⟩
  have hi := (tidy_inv (tidy_run he ht k)).web hw
  have hev : evs (σ k) n = [] := by
    have e1 := h₁ k (by omega)
    have e2 := (hp₁.sublist.filter fun e => decide (eventHandle e = n)).length_le
    have e3 : handled (siteUpTo ℓ j₁) <+: handled (siteUpTo ℓ k) := (siteUpTo_prefix (show j₁ ≤ k by omega)).filterMap _
    have e4 := (e3.sublist.filter fun e => decide (eventHandle e = n)).length_le
    rw [← handled_first (site_run he k), List.filter_append, List.length_append] at e1
    have e5 : ((σ k).events.filter fun e => decide (eventHandle e = n)) = [] := List.eq_nil_of_length_eq_zero (by omega)
    unfold evs
    rw [List.filterMap_eq_nil_iff]
    intro e hmem
    have : ¬eventHandle e = n := fun h => (List.filter_eq_nil_iff.mp e5) e hmem (decide_eq_true h)
    cases e <;> simpa [evNotice, eventHandle] using this
  have han : ans (σ k) n = [] := by
    obtain ⟨⟨q, q1, q2, q3⟩, -⟩ := paired (site_run he k)
    have e1 := h₂ k (by omega)
    have cnt : ∀ l : List (Ask × Except PicaCommandError Nat),
        (l.map fun x => (x.1.command, x.2)).countP (fun x => decide (x.2 = .ok n)) = l.countP fun x => decide (x.2 = .ok n) := by
      intro l
      rw [List.countP_map]
      rfl
    rw [← q2, ← p2, cnt, cnt] at e1
    have e2 := hp₂.countP_le fun x : Ask × Except PicaCommandError Nat => decide (x.2 = .ok n)
    have e3 := (takenAnswers_prefix (ℓ := ℓ) (show j₂ ≤ k by omega)).sublist.countP_le (p := fun x => decide (x.2 = .ok n))
    have e4 := q3.countP_eq fun x => decide (x.2 = .ok n)
    rw [List.countP_append] at e4
    have e5 : (σ k).answers.countP (fun x => decide (x.2 = .ok n)) = 0 := by omega
    rw [List.countP_eq_zero] at e5
    unfold ans
    rw [List.filterMap_eq_nil_iff]
    rintro ⟨a, r⟩ hmem
    have := e5 _ hmem
    cases r with
    | error x => rfl
    | ok h =>
      have : h ≠ n := by simpa using this
      simp [ansNotice, this]
  rw [← hi.agree n c m]
  unfold Site.due
  rw [hev, han]
  show Registered _ _ _ _ ↔ tag ((σ k).web.devices.get? n) = some (c, m)
  unfold Registered tag
  cases (σ k).web.devices.get? n with
  | none => simp
  | some i => cases i; simp

/-! ### A schedule without end -/

/-- The histories all of whose steps are of some kind. -/
inductive RunOf (measure : Measure) (T : Site → Site.Label → Prop) : List Site.Label → Site → Prop
  | nil : RunOf measure T [] .new
  | step {t u : Site} {ls : List Site.Label} {l : Site.Label} : RunOf measure T ls t → t.ended = false →
      t.sys.stopped = false → Site.Step measure t l u → T t l → RunOf measure T (ls ++ [l]) u

theorem RunOf.run {measure : Measure} {ls : List Site.Label} {s : Site} (h : Site.Run measure .new ls s) :
    RunOf measure (fun _ _ => True) ls s := by
  generalize hn : Site.new = n at h
  induction h with
  | nil => subst hn; exact .nil
  | step _ h1 h2 h3 ih => exact .step ih h1 h2 h3 trivial

theorem RunOf.tidy {measure : Measure} {ls : List Site.Label} {s : Site} (h : TidyRun measure ls s) : RunOf measure Tidy ls s := by
  induction h with
  | nil => exact .nil
  | step _ h1 h2 h3 h4 ih => exact .step ih h1 h2 h3 h4

/-- A history that leaves nothing to do can go on forever. -/
theorem forever {measure : Measure} {T : Site → Site.Label → Prop} (hT : ∀ s, T s .shuffle) {ls : List Site.Label} {s : Site}
    (h : RunOf measure T ls s) (h1 : s.ended = false) (h2 : s.sys.stopped = false) (h3 : s.sys.queue = []) (h4 : s.events = [])
    (h5 : s.answers = []) :
    ∃ σ ℓ, SiteEndless measure σ ℓ ∧ SiteFair measure σ ℓ ∧ (∀ i, T (σ i) (ℓ i)) ∧ siteUpTo ℓ ls.length = ls ∧
      ∀ k ≥ ls.length, σ k = s := by
  have key : ∀ {ls s}, RunOf measure T ls s → s.ended = false → s.sys.stopped = false →
      ∃ σ ℓ, SiteEndless measure σ ℓ ∧ (∀ i, T (σ i) (ℓ i)) ∧ siteUpTo ℓ ls.length = ls ∧ ∀ k ≥ ls.length, σ k = s := by
    intro ls s h
    induction h with
    | nil =>
      intro h1 h2
      exact ⟨fun _ => .new, fun _ => .shuffle, ⟨rfl, fun _ => ⟨h1, h2, .shuffle (List.Perm.refl _)⟩⟩, fun _ => hT _, rfl,
        fun _ _ => rfl⟩
    | @step t u ls l _ g1 g2 hst ht ih =>
      intro h1 h2
      obtain ⟨σ, ℓ, he, htidy, hup, hk⟩ := ih g1 g2
      refine ⟨fun i => if i ≤ ls.length then σ i else u, fun i => if i < ls.length then ℓ i else if i = ls.length then l else .shuffle,
        ⟨?_, fun i => ?_⟩, fun i => ?_, ?_, fun k hk => ?_⟩
      · simp [he.start]
      · rcases Nat.lt_trichotomy i ls.length with hi | hi | hi
        · simp only [if_pos hi, if_pos (Nat.le_of_lt hi), if_pos (show i + 1 ≤ ls.length from hi)]
          exact he.step i
        · subst hi
          simp only [le_refl, lt_irrefl, if_true, if_false, show ¬ls.length + 1 ≤ ls.length by omega]
          rw [hk _ le_rfl]
          exact ⟨g1, g2, hst⟩
        · simp only [if_neg (show ¬i ≤ ls.length by omega), if_neg (show ¬i < ls.length by omega),
            if_neg (show ¬i = ls.length by omega), if_neg (show ¬i + 1 ≤ ls.length by omega)]
          exact ⟨h1, h2, .shuffle (List.Perm.refl _)⟩
      · rcases Nat.lt_trichotomy i ls.length with hi | hi | hi
        · simp only [if_pos hi, if_pos (Nat.le_of_lt hi)]
          exact htidy i
        · subst hi
          simp only [le_refl, lt_irrefl, if_true, if_false]
          rw [hk _ le_rfl]
          exact ht
        · simp only [if_neg (show ¬i < ls.length by omega), if_neg (show ¬i = ls.length by omega)]
          exact hT _
      · rw [List.length_append, List.length_singleton, siteUpTo_succ]
        congr 1
        · refine Eq.trans ?_ hup
          unfold siteUpTo
          refine List.map_congr_left fun i hi => ?_
          rw [if_pos (List.mem_range.mp hi)]
        · simp
      · rw [List.length_append, List.length_singleton] at hk
        exact if_neg (by omega)
  obtain ⟨σ, ℓ, he, ht, hup, hk⟩ := key h h1 h2
  have none_left : ∀ P : Site.Label → Prop, (∀ l u, P l → ¬Site.Step measure s l u) → SiteFairTo measure σ ℓ P := by
    intro P hP i h
    obtain ⟨k, hk', l, u, hl, hst⟩ := h (max i ls.length) (Nat.le_max_left _ _)
    rw [hk k (by omega)] at hst
    exact absurd hst (hP l u hl)
  refine ⟨σ, ℓ, he, ⟨none_left _ ?_, none_left _ ?_, fun a r => none_left _ ?_⟩, ht, hup, hk⟩
  · rintro l u (⟨ev, rfl⟩ | ⟨c, x, rfl⟩) hst
    · cases hst with
      | process h => exact absurd (process_pica h).2.2.2 (by rw [h3]; simp)
    · cases hst with
      | panics h _ => rw [h3] at h; cases h
  · rintro l u (⟨e, rfl⟩ | rfl) hst
    · cases hst with
      | event h _ => rw [h4] at h; cases h
    · cases hst with
      | lags h => rw [h4] at h; exact absurd h (by simp)
  · rintro l u (⟨n, rfl⟩ | rfl) hst
    · cases hst with
      | answer h => rw [h5] at h; exact absurd h (by simp)
    · cases hst with
      | drops h => rw [h5] at h; exact absurd h (by simp)

/-- C107: an anchor that is destroyed before the handler of the request that made it has seen its answer stays in the registry
forever. -/
theorem C107_registry_false (measure : Measure) : ∃ σ ℓ, SiteEndless measure σ ℓ ∧ SiteFair measure σ ℓ ∧
    ∃ j, ∀ k ≥ j, (σ k).web.poisoned = false ∧ Registered (σ k).web 0 .anchor someMac ∧
      ¬Spec.Present (σ k).sys.pica 0 .anchor someMac := by
  obtain ⟨ls, s, hr, hf⟩ := Ex.exists_moves (measure := measure) (as := [
    .ask ⟨someMac, some .default⟩, .process, .ask ⟨someMac, none⟩, .process, .answer 1, .answer 0])
    (f := fun s => decide (s.web.poisoned = false ∧ s.ended = false ∧ s.sys.stopped = false ∧ s.events.length = 0 ∧
      s.answers.length = 0 ∧ s.sys.queue.length = 0 ∧ s.web.devices.get? 0 = some ⟨.anchor, someMac, .default⟩ ∧
      s.sys.pica.anchors.get? someMac = none)) rfl
  simp only [decide_eq_true_eq, List.length_eq_zero_iff] at hf
  obtain ⟨g1, g2, g3, g4, g5, g6, g7, g8⟩ := hf
  obtain ⟨σ, ℓ, he, hfair, -, -, hk⟩ := forever (fun _ => trivial) (RunOf.run hr) g2 g3 g6 g4 g5
  refine ⟨σ, ℓ, he, hfair, ls.length, fun k hge => ?_⟩
  rw [hk k hge]
  refine ⟨g1, ⟨_, g7⟩, ?_⟩
  rintro ⟨a, ha, -⟩
  rw [g8] at ha
  cases ha

/-- A device connects and an anchor is made, another one is made and destroyed, and nothing more happens. -/
example (measure : Measure) : ∃ σ ℓ, SiteEndless measure σ ℓ ∧ SiteFair measure σ ℓ ∧ (∀ i, Tidy (σ i) (ℓ i)) ∧
    ∃ i, (requests (siteUpTo ℓ i)).length = 3 ∧ (broadcasts (siteUpTo ℓ i)).length = 1 ∧
      ∀ k ≥ i, (σ k).web.poisoned = false ∧ (σ k).web.devices.length = 2 := by
  cases hx : Ex.moves measure .new [] [
    .system (.request .connect), .ask ⟨someMac, some .default⟩, .process, .process, .event,
    .position (.short ⟨[0, 0], rfl⟩) ⟨1, 2, 3, 4, 5, 6⟩, .answer 0, .ask ⟨.short ⟨[8, 8], rfl⟩, some .default⟩, .process, .answer 0,
    .ask ⟨.short ⟨[8, 8], rfl⟩, none⟩, .process, .answer 0] with
  | none => exact absurd hx (by intro h; cases h)
  | some z =>
    obtain ⟨ls, s, b⟩ := z
    have hz := congrArg (Option.map fun z => (z.2.2, decide (z.2.1.web.poisoned = false ∧ z.2.1.ended = false ∧
      z.2.1.sys.stopped = false ∧ z.2.1.events.length = 0 ∧ z.2.1.answers.length = 0 ∧ z.2.1.sys.queue.length = 0 ∧
      z.2.1.web.devices.length = 2 ∧ (requests z.1).length = 3 ∧ (broadcasts z.1).length = 1))) hx
    have hv : (true, true) = (b, decide (s.web.poisoned = false ∧ s.ended = false ∧
      s.sys.stopped = false ∧ s.events.length = 0 ∧ s.answers.length = 0 ∧ s.sys.queue.length = 0 ∧
      s.web.devices.length = 2 ∧ (requests ls).length = 3 ∧ (broadcasts ls).length = 1)) :=
      Option.some.inj (Eq.trans (by rfl) hz)
    obtain ⟨rfl, hw⟩ := Prod.mk.inj hv
    have hw := of_decide_eq_true hw.symm
    simp only [List.length_eq_zero_iff] at hw
    obtain ⟨g1, g2, g3, g4, g5, g6, g7, g8, g9⟩ := hw
    obtain ⟨σ, ℓ, he, hf, ht, hup, hk⟩ := forever (fun _ => trivial) (RunOf.tidy (Ex.moves_tidy hx .nil)) g2 g3 g6 g4 g5
    exact ⟨σ, ℓ, he, hf, ht, ls.length, by rw [hup]; exact g8, by rw [hup]; exact g9, fun k hge => by rw [hk k hge]; exact ⟨g1, g7⟩⟩

end Pica.Props
