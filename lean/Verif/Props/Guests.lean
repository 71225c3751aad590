import Verif.Proofs.Guests
/-! C109: hosts that come and go while the web server runs. -/

namespace Pica.Props
open Pica.Spec Pica.Site

variable {measure : Measure} {σ : Nat → Site} {ℓ : Nat → Site.Label}

/-- The events about a handle. -/
theorem about_run {ls : List Site.Label} {s : Site} (h : Site.Run measure .new ls s) (n : Nat) :
    (broadcasts ls).filter (fun e => decide (eventHandle e = n)) = eventsOf n (processed (ls.map sysLabel)) := by
  unfold eventsOf
  congr 1
  generalize hn : Site.new = z at h
  induction h with
  | nil => rfl
  | @step t u ls l hr he hst hs ih =>
    have h2 : processed ((ls ++ [l]).map sysLabel) = processed (ls.map sysLabel) ++ processed [sysLabel l] := by
      unfold processed
      rw [List.map_append, List.filterMap_append]
      rfl
    rw [broadcasts_append, h2, List.flatMap_append, ih]
    congr 1
    cases hs with
    | @system l' _ hsl _ =>
      cases l' with
      | process => exact absurd hsl (by simp [Silent])
      | _ => rfl
    | _ => rfl

theorem about_prefix {i j : Nat} (h : i ≤ j) (he : SiteEndless measure σ ℓ) (n : Nat) :
    eventsOf n (processed ((siteUpTo ℓ i).map sysLabel)) <+: eventsOf n (processed ((siteUpTo ℓ j).map sysLabel)) := by
  rw [← about_run (site_run he i), ← about_run (site_run he j)]
  exact (broadcast_prefix h).filter _

/-- The emulator at a moment of the program. -/
theorem pica_run (he : SiteEndless measure σ ℓ) (k : Nat) :
    Pica.Run .new (processed ((siteUpTo ℓ k).map sysLabel)) (σ k).sys.pica := by
  rw [← upTo_sys]
  exact run_processed (endless_run (endless_sys he) k)

/-- A handle of a device is never answered to a request for an anchor. -/
theorem never_answered (he : SiteEndless measure σ ℓ) {i n : Nat}
    (hi : eventsOf n (processed ((siteUpTo ℓ i).map sysLabel)) ≠ []) (k : Nat) (a : Ask) :
    (a, Except.ok n) ∉ takenAnswers (siteUpTo ℓ k) := by
  intro hmem
  have hmem := (takenAnswers_prefix (ℓ := ℓ) (le_max_right i k)).subset hmem
  have hne : eventsOf n (processed ((siteUpTo ℓ (max i k)).map sysLabel)) ≠ [] := fun h =>
    hi (List.prefix_nil.mp (h ▸ about_prefix (le_max_left i k) he n))
  have h0 := ((exclusive (pica_run he (max i k)) n).2).resolve_right hne
  have h1 := okays_le n (siteUpTo ℓ (max i k))
  rw [h0] at h1
  obtain ⟨⟨p, p1, p2, p3⟩, -⟩ := paired (site_run he (max i k))
  have hp : (a, Except.ok n) ∈ p := p3.subset (List.mem_append_left _ hmem)
  have ho : (a.command, (Except.ok n : Except PicaCommandError Nat)) ∈ outcomes (siteUpTo ℓ (max i k)) := by
    rw [← p2]
    exact List.mem_map_of_mem (f := fun x : Ask × Except PicaCommandError Nat => (x.1.command, x.2)) hp
  have h2 : 0 < (outcomes (siteUpTo ℓ (max i k))).countP fun x : Command × Except PicaCommandError Nat => decide (x.2 = .ok n) :=
    List.countP_pos_iff.mpr ⟨_, ho, by simp⟩
  omega

theorem toldBy_filter (n : Nat) (es : List PicaEvent) :
    toldBy n es = toldBy n (es.filter fun e => decide (eventHandle e = n)) := by
  unfold toldBy
  congr 1
  rw [List.filterMap_filter]
  congr 1
  funext e
  cases e with
  | connected k m => by_cases h : k = n <;> simp [evNotice, eventHandle, h]
  | disconnected k m => by_cases h : k = n <;> simp [evNotice, eventHandle, h]

/-- C109: a host that is gone disappears from the emulator and from the registry, and does not come back. -/
theorem C109_gone (measure : Measure) (σ : Nat → Site) (ℓ : Nat → Site.Label) (he : SiteEndless measure σ ℓ)
    (hf : SiteFair measure σ ℓ) (ht : TasksFair measure σ ℓ) (i h : Nat) (hc : (σ i).sys.conns.get? h = some .closing) :
    ∃ j ≥ i, ∀ k ≥ j, (σ k).sys.pica.devices.get? h = none ∧ (σ k).web.devices.get? h = none := by
  obtain ⟨j₀, hj₀, hgone⟩ := C88_gone _ _ (endless_sys he) (fair_sys hf ht) i h hc
  have hdev : eventsOf h (processed ((siteUpTo ℓ i).map sysLabel)) ≠ [] := by
    have hp := ((present_run (endless_run (endless_sys he) i)).conn h _ hc).1
    rcases C42_events _ _ (pica_run he i) h with ⟨d, -, e⟩ | ⟨hn, -⟩
    · rw [e]; simp
    · exact absurd hn hp
  have two : ∀ k ≥ j₀, ∃ m, eventsOf h (processed ((siteUpTo ℓ k).map sysLabel)) = [.connected h m, .disconnected h m] := by
    intro k hk
    rcases C42_events _ _ (pica_run he k) h with ⟨d, hd, -⟩ | ⟨-, e | e⟩
    · have := hgone k hk
      rw [hd] at this
      cases this
    · exact absurd (List.prefix_nil.mp (e ▸ about_prefix (show i ≤ k by omega) he h)) hdev
    · exact e
  obtain ⟨j₁, hj₁, hall⟩ := all_handled he hf j₀
  refine ⟨j₁, by omega, fun k hk => ⟨hgone k (by omega), ?_⟩⟩
  obtain ⟨m, hm⟩ := two j₀ le_rfl
  obtain ⟨m', hm'⟩ := two k (by omega)
  have hlow : [.connected h m, .disconnected h m] <+: (handled (siteUpTo ℓ k)).filter fun e => decide (eventHandle e = h) := by
    rw [← hm, ← about_run (site_run he j₀)]
    exact (hall.trans ((siteUpTo_prefix hk).filterMap _)).filter _
  have hup : ((handled (siteUpTo ℓ k)).filter fun e => decide (eventHandle e = h)) <+: [.connected h m', .disconnected h m'] := by
    rw [← hm', ← about_run (site_run he k), ← handled_first (site_run he k)]
    exact (List.prefix_append _ _).filter _
  have heq : ((handled (siteUpTo ℓ k)).filter fun e => decide (eventHandle e = h)) = [.connected h m', .disconnected h m'] :=
    hup.eq_of_length_le (by have := hlow.length_le; simpa using this)
  have htold := (registry_told (site_run he k)).2 (he.step k).1 h (never_answered he hdev k)
  rw [toldBy_filter, heq] at htold
  have : toldBy h [.connected h m', .disconnected h m'] = none := by simp [toldBy, evNotice]
  rw [this] at htold
  unfold tag at htold
  exact Option.map_eq_none_iff.mp htold

/-- C109: a host whose connection is accepted gets a device of its own, which the registry comes to have, at the origin. -/
theorem C109_appears (measure : Measure) (σ : Nat → Site) (ℓ : Nat → Site.Label) (he : SiteEndless measure σ ℓ)
    (hf : SiteFair measure σ ℓ) (i : Nat) (hq : .connect ∈ (σ i).sys.queue) :
    ∃ j ≥ i, ∃ k ≥ j, ∃ h d, (∀ n ≤ j, (σ n).sys.pica.devices.get? h = none) ∧ (σ (j + 1)).sys.pica.devices.get? h = some d ∧
      (σ (k + 1)).web.devices.get? h = some ⟨.uci, d.macAddress, .default⟩ := by
  obtain ⟨j, hj, h, d, hbefore, hafter, -⟩ := connected (endless_sys he) (loop_fair hf) hq
  have h1 : eventsOf h (processed ((siteUpTo ℓ (j + 1)).map sysLabel)) = [.connected h d.macAddress] := by
    rcases C42_events _ _ (pica_run he (j + 1)) h with ⟨d', hd', e⟩ | ⟨hn, -⟩
    · rw [show (σ (j + 1)).sys.pica.devices.get? h = some d from hafter] at hd'
      cases hd'
      exact e
    · rw [show (σ (j + 1)).sys.pica.devices.get? h = some d from hafter] at hn
      cases hn
  have h0 : eventsOf h (processed ((siteUpTo ℓ j).map sysLabel)) = [] := by
    rcases C42_events _ _ (pica_run he j) h with ⟨d', hd', -⟩ | ⟨-, e | ⟨m, e⟩⟩
    · rw [show (σ j).sys.pica.devices.get? h = none from hbefore j le_rfl] at hd'
      cases hd'
    · exact e
    · have := (about_prefix (Nat.le_succ j) he h).length_le
      rw [e, h1] at this
      simp at this
  obtain ⟨J, hJ, hall⟩ := all_handled he hf (j + 1)
  have hmem : PicaEvent.connected h d.macAddress ∈ handled (siteUpTo ℓ J) := by
    refine hall.subset (List.mem_of_mem_filter (p := fun e => decide (eventHandle e = h)) ?_)
    rw [about_run (site_run he (j + 1)), h1]
    exact List.mem_singleton_self _
  obtain ⟨l, hl, hle⟩ := List.mem_filterMap.mp hmem
  obtain ⟨k, -, rfl⟩ := List.mem_map.mp hl
  have hlk : ℓ k = .event (.connected h d.macAddress) := by
    cases hx : ℓ k with
    | event e => rw [hx] at hle; simp only [Option.some.injEq] at hle; rw [hle]
    | _ => rw [hx] at hle; cases hle
  have hst := (he.step k).2.2
  have hnext := (he.step (k + 1)).1
  rw [hlk] at hst
  refine ⟨j, hj, k, ?_, h, d, hbefore, hafter, ?_⟩
  · by_contra hlt
    have hin : PicaEvent.connected h d.macAddress ∈ broadcasts (siteUpTo ℓ j) := by
      refine (broadcast_prefix (show k ≤ j by omega)).subset ?_
      rw [← handled_first (site_run he k)]
      refine List.mem_append_right _ ?_
      generalize σ (k + 1) = u at hst
      cases hst with
      | event hes _ => rw [hes]; exact List.mem_cons_self
    have : PicaEvent.connected h d.macAddress ∈ eventsOf h (processed ((siteUpTo ℓ j).map sysLabel)) := by
      rw [← about_run (site_run he j)]
      exact List.mem_filter.mpr ⟨hin, by simp [eventHandle]⟩
    rw [h0] at this
    cases this
  · generalize σ (k + 1) = u at hst hnext
    cases hst with
    | @event _ es heard hes hsz =>
      change isPanic ((σ k).web.connection heard (.connected h d.macAddress)).2.2 = false at hnext
      show ((σ k).web.connection heard (.connected h d.macAddress)).1.devices.get? h = _
      unfold Web.connection Web.announce at *
      cases hw : (σ k).web.poisoned with
      | true => rw [hw] at hnext; cases hnext
      | false =>
        rw [hw] at hnext
        cases hh : heard 0 with
        | false => rw [hh] at hnext; cases hnext
        | true => exact AMap.get?_insert_self ..

/-! ### The emulator in the program -/

theorem beneath_map (ls : List Site.Label) (f : System.Label → Option α) (h : f .shuffle = none) :
    (beneath ls).filterMap f = (ls.map sysLabel).filterMap f := by
  induction ls with
  | nil => rfl
  | cons l ls ih =>
    have e : beneath (l :: ls) = beneath [l] ++ beneath ls := List.filterMap_append (l := [l])
    rw [e, List.filterMap_append, ih, List.map_cons, ← List.singleton_append (x := sysLabel l), List.filterMap_append]
    congr 1
    cases l <;> first | rfl | (show [] = List.filterMap f [.shuffle]; simp [h])

theorem beneath_flatMap (ls : List Site.Label) (f : System.Label → List α) (h : f .shuffle = []) :
    (beneath ls).flatMap f = (ls.map sysLabel).flatMap f := by
  induction ls with
  | nil => rfl
  | cons l ls ih =>
    have e : beneath (l :: ls) = beneath [l] ++ beneath ls := List.filterMap_append (l := [l])
    rw [e, List.flatMap_append, ih, List.map_cons, ← List.singleton_append (x := sysLabel l), List.flatMap_append]
    congr 1
    cases l <;> first | rfl | (show [] = List.flatMap f [.shuffle]; simp [h])

/-- C109: every response due to the packets received from a host is sent in the end, whatever the web server does. -/
theorem C109_answered (measure : Measure) (σ : Nat → Site) (ℓ : Nat → Site.Label) (he : SiteEndless measure σ ℓ)
    (hf : SiteFair measure σ ℓ) (ht : TasksFair measure σ ℓ) (i h : Nat) :
    ∃ j ≥ i, Spec.due false (received h (beneath (siteUpTo ℓ i))) <+:
      ((beneath (siteUpTo ℓ j)).flatMap (sentTo h)).filterMap response := by
  obtain ⟨j, hj, hp⟩ := C88_answered _ _ (endless_sys he) (fair_sys hf ht) i h
  rw [upTo_sys, upTo_sys] at hp
  refine ⟨j, hj, ?_⟩
  rw [beneath_flatMap _ _ rfl]
  unfold received at *
  rw [beneath_map _ _ rfl]
  exact hp

/-- C109: an ACTIVE session ranges, unless it ceases to be ACTIVE. -/
theorem C109_ranging (measure : Measure) (σ : Nat → Site) (ℓ : Nat → Site.Label) (he : SiteEndless measure σ ℓ)
    (hf : SiteFair measure σ ℓ) (ht : TasksFair measure σ ℓ) (i h : Nat) (sid : UInt32) :
    ∃ k ≥ i, (∃ ev, ℓ k = .process ev ∧ ev.command = .ranging h sid) ∨
      ¬∃ d x, (σ k).sys.pica.devices.get? h = some d ∧ d.sessions.get? sid = some x ∧ x.state = .sessionStateActive := by
  obtain ⟨k, hk, hr⟩ := C88_ranging _ _ (endless_sys he) (fair_sys hf ht) i h sid
  refine ⟨k, hk, hr.imp_left ?_⟩
  rintro ⟨ev, hl, hc⟩
  refine ⟨ev, ?_, hc⟩
  have hst := (he.step k).2.2
  cases hx : ℓ k with
  | system l =>
    rw [hx] at hl hst
    cases hl
    generalize σ (k + 1) = u at hst
    cases hst with
    | system hs _ => exact absurd hs (by simp [Silent])
  | process e => rw [hx] at hl; cases hl; rfl
  | _ => rw [hx] at hl; cases hl

/-- A host asks to be connected. -/
def asksIn : Site.Label → Bool
  | .system (.request .connect) => true
  | _ => false

/-- The host of handle 0 closes its connection. -/
def closesOut : Site.Label → Bool
  | .system (.closes 0) => true
  | _ => false

/-- A host connects, sends a command, gets its answer and a notification, and goes; nothing more happens. -/
example (measure : Measure) : ∃ σ ℓ, SiteEndless measure σ ℓ ∧ SiteFair measure σ ℓ ∧ TasksFair measure σ ℓ ∧
    (∃ i, .connect ∈ (σ i).sys.queue) ∧ (∃ i, (σ i).sys.conns.get? 0 = some .closing) ∧
    ∃ i, received 0 (beneath (siteUpTo ℓ i)) = [[0x20, 0x02, 0, 0]] := by
  cases hx : Ex.moves measure .new [] [
    .system (.request .connect), .process, .event, .system (.packet 0 [0x20, 0x02, 0, 0]), .process, .system (.notifies 0),
    .system (.closes 0), .system (.leaves 0), .process, .event] with
  | none => exact absurd hx (by intro h; cases h)
  | some z =>
    obtain ⟨ls, s, b⟩ := z
    have hz := congrArg (Option.map fun z => decide (z.2.1.ended = false ∧
      z.2.1.sys.stopped = false ∧ z.2.1.events.length = 0 ∧ z.2.1.answers.length = 0 ∧ z.2.1.sys.queue.length = 0 ∧
      z.2.1.sys.timers.length = 0 ∧ z.2.1.sys.ntfs.length = 0 ∧ z.2.1.sys.stops.length = 0 ∧ z.2.1.sys.conns.length = 0 ∧
      z.1.any asksIn = true ∧ z.1.any closesOut = true ∧ received 0 (beneath z.1) = [[0x20, 0x02, 0, 0]])) hx
    have hv : true = decide (s.ended = false ∧
      s.sys.stopped = false ∧ s.events.length = 0 ∧ s.answers.length = 0 ∧ s.sys.queue.length = 0 ∧
      s.sys.timers.length = 0 ∧ s.sys.ntfs.length = 0 ∧ s.sys.stops.length = 0 ∧ s.sys.conns.length = 0 ∧
      ls.any asksIn = true ∧ ls.any closesOut = true ∧ received 0 (beneath ls) = [[0x20, 0x02, 0, 0]]) :=
      Option.some.inj (Eq.trans (by rfl) hz)
    have hw := of_decide_eq_true hv.symm
    simp only [List.length_eq_zero_iff] at hw
    obtain ⟨g2, g3, g4, g5, g6, t1, t2, t3, t4, q1, q2, q3⟩ := hw
    obtain ⟨σ, ℓ, he, hf, -, hup, hk⟩ := forever (fun _ => trivial) (RunOf.run (Ex.moves_run hx .nil)) g2 g3 g6 g4 g5
    have none_left : ∀ l : System.Label, (∀ u, ¬System.Step s.sys l u) → SiteFairTo measure σ ℓ (· = .system l) := by
      intro l hno i hi
      obtain ⟨k, hge, _, u, rfl, hst⟩ := hi (max i ls.length) (le_max_left ..)
      rw [hk k (by omega)] at hst
      cases hst with
      | system _ h => exact absurd h (hno _)
    have find : ∀ p : Site.Label → Bool, ls.any p = true → ∃ i, p (ℓ i) = true := by
      intro p hp
      rw [← hup] at hp
      obtain ⟨l, hl, hpl⟩ := List.any_eq_true.mp hp
      obtain ⟨i, -, rfl⟩ := List.mem_map.mp hl
      exact ⟨i, hpl⟩
    refine ⟨σ, ℓ, he, hf, ⟨fun h => none_left _ ?_, fun t => none_left _ ?_, fun t => none_left _ ?_, fun h n => none_left _ ?_,
      fun m sid => none_left _ ?_⟩, ?_, ?_, ls.length, by rw [hup]; exact q3⟩
    · intro u h; cases h with | leaves h _ => rw [t4] at h; cases h
    · intro u h; cases h with | tick h _ => rw [t1] at h; cases h
    · intro u h; cases h with | dies h _ => rw [t1] at h; cases h
    · intro u h; cases h with | notifies h => rw [t2] at h; exact absurd h.length_eq (by simp)
    · intro u h; cases h with | inBand h _ => rw [t3] at h; cases h
    · obtain ⟨i, hi⟩ := find _ q1
      refine ⟨i + 1, ?_⟩
      have hst := (he.step i).2.2
      generalize σ (i + 1) = u at hst ⊢
      unfold asksIn at hi
      split at hi
      · rename_i hl
        rw [hl] at hst
        cases hst with
        | system _ h => cases h with | request => simp
      · cases hi
    · obtain ⟨i, hi⟩ := find _ q2
      refine ⟨i + 1, ?_⟩
      have hst := (he.step i).2.2
      generalize σ (i + 1) = u at hst ⊢
      unfold closesOut at hi
      split at hi
      · rename_i hl
        rw [hl] at hst
        cases hst with
        | system _ h => cases h with | closes => exact AMap.get?_insert_self ..
      · cases hi

end Pica.Props
