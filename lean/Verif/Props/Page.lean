import Verif.Proofs.Page
/-! C80: the page of the web server. -/

namespace Pica.Props
open Pica.Spec World

/-- C80: a page whose two requests are handled without a change of the registry between them, and that gets the state before any
event, shows the devices of the registry as soon as it has handled the events under way, as long as its stream of events
does not break and addresses are unique; no listener of it raises an exception. -/
theorem C80_partial (measure : Measure) (hm : Sane measure) (euler : Euler) {s t : World} {a b c : List Label}
    (hr : Run measure euler FitsStep s (a ++ b ++ [.state] ++ c) t)
    (hk : (AMap.keys s.web.devices).Nodup) (hmac : ((AMap.values s.web.devices).map Info.mac).Nodup)
    (ha : a = [.subscribe, .snapshot] ∨ a = [.snapshot, .subscribe]) (hb : ∀ l ∈ b, ServerStep l)
    (hc : ∀ l ∈ c, ServerStep l ∨ l = .event) :
    t.threw = s.threw ∧ (t.stream = some [] → Shows euler t.web t.page ∧ NeighborsRight measure t.web t.page) := by
  obtain ⟨⟨es, page, h1, h2, g⟩, h3⟩ := follows_all hm hr hk hmac ha hb hc
  refine ⟨h3, fun hs => ?_⟩
  rw [hs] at h1
  cases es with
  | cons => cases h1
  | nil =>
    cases h2
    exact ⟨g.shows, g.right⟩

/-- C80: under the same conditions, a device that has just been placed and every other one are neighbors of each other. -/
theorem C80_placed_partial (measure : Measure) (hm : Sane measure) (euler : Euler) {s t : World} {a b c d : List Label}
    {mac : MacAddress} {p : Position}
    (hr : Run measure euler FitsStep s (a ++ b ++ [.state] ++ c ++ [.serve (.setPosition mac p)] ++ d) t)
    (hk : (AMap.keys s.web.devices).Nodup) (hmac : ((AMap.values s.web.devices).map Info.mac).Nodup)
    (ha : a = [.subscribe, .snapshot] ∨ a = [.snapshot, .subscribe]) (hb : ∀ l ∈ b, ServerStep l)
    (hc : ∀ l ∈ c, ServerStep l ∨ l = .event) (hd : ∀ l ∈ d, l = .event) (hs : t.stream = some []) :
    ∀ i ∈ AMap.values t.web.devices, ∀ j ∈ AMap.values t.web.devices, i.mac = mac → j.mac ≠ mac →
      Lists t.page i.mac j.mac ∧ Lists t.page j.mac i.mac := by
  obtain ⟨u2, hr, h2⟩ := run_append hr
  obtain ⟨u1, hr, h1⟩ := run_append hr
  obtain ⟨⟨es, page, e1, e2, g⟩, -⟩ := follows_all hm hr hk hmac ha hb hc
  have h1 := (run_one h1).2
  intro i hi j hj him hjm
  -- what the page will have handled
  have key : ∀ {d : List Label} {t : World}, (∀ l ∈ d, l = .event) → Run measure euler FitsStep u2 d t →
      ∀ fs q, u2.stream = some (fs.map (WebText.item euler)) → Page.after euler u2.page fs = some q →
      ∃ gs, t.stream = some (gs.map (WebText.item euler)) ∧ Page.after euler t.page gs = some q ∧ t.web = u2.web := by
    intro d t hd hrun fs q hf hq
    induction hrun with
    | nil => exact ⟨fs, hf, hq, rfl⟩
    | @step t' t'' ls l _ _ hst ih =>
      obtain ⟨gs, hg1, hg2, hg3⟩ := ih fun l hl => hd l (List.mem_append_left _ hl)
      have hl : l = .event := hd l (by simp)
      subst hl
      cases hst with
      | @event x xs hx =>
        rw [hg1] at hx
        cases gs with
        | nil => cases hx
        | cons e gs =>
          cases hx
          obtain ⟨q', h3, h4⟩ := Option.bind_eq_some_iff.mp hg2
          have hstep := step_event (measure := measure) hg1 h3
          rw [understood_item]
          refine ⟨gs, ?_, ?_, ?_⟩
          · show (match t'.page.handle (Page.msg euler e) with | some page => _ | none => _ : World).stream = _
            rw [h3]
          · show Page.after euler (match t'.page.handle (Page.msg euler e) with | some page => _ | none => _ : World).page gs = _
            rw [h3]
            exact h4
          · show (match t'.page.handle (Page.msg euler e) with | some page => _ | none => _ : World).web = _
            rw [h3]
            exact hg3
  cases h1 with
  | @serve _ heard hh =>
    have := always_of (hh (by rw [e1]; simp))
    subst this
    obtain ⟨q, f1, f2⟩ := Page.good_serve hm g (op := .setPosition mac p) trivial
    obtain ⟨gs, g1, g2, g3⟩ := key hd h2 (es ++ (serve measure Web.always u1.web (.setPosition mac p)).2.1) q
      (by dsimp only; rw [e1, List.map_append]; rfl) (by dsimp only; rw [Page.after_append, e2]; exact f1)
    rw [hs] at g1
    cases gs with
    | cons => cases g1
    | nil =>
      cases g2
      rw [g3] at hi hj
      change i ∈ AMap.values (u1.web.setPosition measure Web.always mac p).1.devices at hi
      change j ∈ AMap.values (u1.web.setPosition measure Web.always mac p).1.devices at hj
      change Page.after euler page (u1.web.setPosition measure Web.always mac p).2.1 = some t.page at f1
      unfold Web.setPosition at hi hj f1
      rw [g.sound] at hi hj f1
      simp only [Bool.false_eq_true, if_false] at hi hj f1
      cases hpl : Web.place mac p u1.web.devices with
      | none =>
        rw [hpl] at hi
        obtain ⟨k, hk⟩ := AMap.mem_values.mp hi
        exact absurd him (Web.place_none.mp hpl _ hk)
      | some z =>
        obtain ⟨m', x⟩ := z
        rw [hpl] at hi hj f1
        obtain ⟨a', k, i', b', x1, x2, x3, x4⟩ := Web.place_some hpl
        obtain ⟨ess, hf, he⟩ := Web.neighbors_all hm x 1 (AMap.values m')
        simp only [show Web.always 0 = true from rfl, if_true, he] at hi hj f1
        have hx : x.mac = mac := by rw [x3]; exact x2
        obtain ⟨p1, y1, y2⟩ := Option.bind_eq_some_iff.mp f1
        have hnod : (p1.map Marker.mac).Nodup := by
          have hperm : (page.map Marker.mac).Perm ((AMap.values u1.web.devices).map fun i => macText i.mac) := by
            have := g.shows.map Prod.fst
            rw [List.map_map, List.map_map] at this
            exact this
          have hn : (page.map Marker.mac).Nodup := by
            rw [hperm.nodup_iff]
            have := g.macs.map (f := macText) fun _ _ h => macText_injective h
            rwa [List.map_map] at this
          have hin : macText mac ∈ page.map Marker.mac := by
            rw [hperm.mem_iff, ← x2]
            refine List.mem_map_of_mem (f := fun i : Info => macText i.mac) ?_
            rw [x1]
            simp [AMap.values]
          rw [Page.handle_updated, Page.change_eq hn hin] at y1
          cases y1
          rw [List.map_map]
          have : page.map (Marker.mac ∘ fun m => if m.mac = macText mac then Page.marker euler mac p m.neighbors else m) =
              page.map Marker.mac := List.map_congr_left fun m _ => by
            dsimp only [Function.comp]
            split
            · rename_i h; exact h.symm
            · rfl
          rw [this]
          exact hn
        have := (Page.lists_all hf hnod y2).1 j (List.mem_filter.mpr ⟨hj, by simpa [hx] using hjm⟩)
        rw [hx, ← him] at this
        exact this

/-- The address used below. -/
def pageMac : MacAddress := .short ⟨[0, 0], rfl⟩

theorem fits_connected {m : MacAddress} {h : Nat} : Fits .new (.connection (.connected h m)) := fun _ _ h => by cases h

theorem fits_created {m : MacAddress} {h : Nat} {p : Position} : Fits .new (.created m p h) := fun _ _ h => by cases h

/-- C80 does not hold without these conditions: a device that connects while the state is under way is never shown. -/
theorem C80_false (measure : Measure) (euler : Euler) : ∃ ls t, Run measure euler FitsStep .new ls t ∧
    t.stream = some [] ∧ t.body = none ∧ t.web.poisoned = false ∧ ¬Shows euler t.web t.page := by
  have r := Run.nil (measure := measure) (euler := euler) (ok := FitsStep) (s := .new)
  have r := r.step (l := .subscribe) trivial (.subscribe rfl)
  have r := r.step (l := .snapshot) trivial (.snapshot rfl)
  have r := r.step (l := .serve (.connection (.connected 0 pageMac))) fits_connected (.serve (heard := Web.always) fun _ _ => rfl)
  have r := r.step (l := .event) trivial (step_event rfl (Page.handle_added _ _ _ _ _))
  have r := r.step (l := .state) trivial (step_state rfl)
  refine ⟨_, _, r, rfl, rfl, rfl, fun h => ?_⟩
  have := shows_length h
  cases this

/-- C80 does not hold either for a device that connects between the two requests: it is shown twice. -/
theorem C80_false_twice (measure : Measure) (euler : Euler) : ∃ ls t, Run measure euler FitsStep .new ls t ∧
    t.stream = some [] ∧ t.body = none ∧ t.web.poisoned = false ∧ t.web.devices.length = 1 ∧ t.page.length = 2 := by
  have r := Run.nil (measure := measure) (euler := euler) (ok := FitsStep) (s := .new)
  have r := r.step (l := .subscribe) trivial (.subscribe rfl)
  have r := r.step (l := .serve (.connection (.connected 0 pageMac))) fits_connected (.serve (heard := Web.always) fun _ _ => rfl)
  have r := r.step (l := .snapshot) trivial (.snapshot rfl)
  have r := r.step (l := .state) trivial (step_state rfl)
  have r := r.step (l := .event) trivial (step_event rfl (Page.handle_added _ _ _ _ _))
  exact ⟨_, _, r, rfl, rfl, rfl, rfl, rfl⟩

/-- C80 does not hold either when the stream of events breaks: the browser opens a new one, but the page does not ask for the
state again, and a device that connected in between is never shown. -/
theorem C80_false_break (measure : Measure) (euler : Euler) : ∃ ls t, Run measure euler FitsStep .new ls t ∧
    t.stream = some [] ∧ t.body = none ∧ t.web.poisoned = false ∧ ¬Shows euler t.web t.page := by
  have r := Run.nil (measure := measure) (euler := euler) (ok := FitsStep) (s := .new)
  have r := r.step (l := .subscribe) trivial (.subscribe rfl)
  have r := r.step (l := .snapshot) trivial (.snapshot rfl)
  have r := r.step (l := .state) trivial (step_state rfl)
  have r := r.step (l := .breaks) trivial .breaks
  have r := r.step (l := .serve (.connection (.connected 0 pageMac))) fits_connected (.serve (heard := Web.always) fun _ _ => rfl)
  have r := r.step (l := .subscribe) trivial (.subscribe rfl)
  refine ⟨_, _, r, rfl, rfl, rfl, fun h => ?_⟩
  have := shows_length h
  cases this

/-- C80 does not hold either when an anchor has the address of a device: the end of the anchor takes the device off the page. -/
theorem C80_false_address (measure : Measure) (euler : Euler) : ∃ ls t, Run measure euler (fun _ _ => True) .new
    ([.subscribe, .snapshot, .state] ++ ls) t ∧ (∀ l ∈ ls, ServerStep l ∨ l = .event) ∧
    t.stream = some [] ∧ t.body = none ∧ t.web.poisoned = false ∧ ¬Shows euler t.web t.page := by
  have r := Run.nil (measure := measure) (euler := euler) (ok := fun _ _ => True) (s := .new)
  have r := r.step (l := .subscribe) trivial (.subscribe rfl)
  have r := r.step (l := .snapshot) trivial (.snapshot rfl)
  have r := r.step (l := .state) trivial (step_state rfl)
  have r := r.step (l := .serve (.created pageMac .default 0)) trivial (.serve (heard := Web.always) fun _ _ => rfl)
  have r := r.step (l := .event) trivial (step_event rfl (Page.handle_added _ _ _ _ _))
  have r := r.step (l := .serve (.connection (.connected 1 pageMac))) trivial (.serve (heard := Web.always) fun _ _ => rfl)
  have r := r.step (l := .event) trivial (step_event rfl (Page.handle_added _ _ _ _ _))
  have r := r.step (l := .serve (.destroyed pageMac 0)) trivial (.serve (heard := Web.always) fun _ _ => rfl)
  have r := r.step (l := .event) trivial (step_event rfl (Page.handle_removed _ _ _ _))
  refine ⟨[.serve (.created pageMac .default 0), .event, .serve (.connection (.connected 1 pageMac)), .event,
    .serve (.destroyed pageMac 0), .event], _, r, ?_, rfl, rfl, rfl, fun h => ?_⟩
  · intro l hl
    simp only [List.mem_cons, List.not_mem_nil, or_false] at hl
    rcases hl with rfl | rfl | rfl | rfl | rfl | rfl
    exacts [.inl trivial, .inr rfl, .inl trivial, .inr rfl, .inl trivial, .inr rfl]
  · have := shows_length h
    simp at this
    cases this

/-- C80 does not hold either for a page that listens before it has the state: a listener raises an exception at the first event
about a device that connected earlier, and the event is lost. -/
theorem C80_false_exception (measure : Measure) (euler : Euler) : ∃ ls t, Run measure euler FitsStep .new ls t ∧
    t.stream = some [] ∧ t.body = none ∧ t.web.poisoned = false ∧ t.threw = true ∧ t.page = [] ∧ t.web.devices.length = 1 := by
  have r := Run.nil (measure := measure) (euler := euler) (ok := FitsStep) (s := .new)
  have r := r.step (l := .serve (.connection (.connected 0 pageMac))) fits_connected (.serve (heard := Web.always) fun _ _ => rfl)
  have r := r.step (l := .subscribe) trivial (.subscribe rfl)
  have r := r.step (l := .serve (.setPosition pageMac ⟨5, 0, 7, 0, 0, 0⟩)) trivial (.serve (heard := Web.always) fun _ _ => rfl)
  have r := r.step (l := .event) trivial (step_throw rfl rfl)
  exact ⟨_, _, r, rfl, rfl, rfl, rfl, rfl, rfl⟩

/-- A measurement for the example. -/
def flat : Measure := fun _ _ => .ok ⟨3, 0, 0⟩

/-- An anchor made while the state is under way, and a device that is placed beside it. -/
example (euler : Euler) : Sane flat ∧ ∃ t, Run flat euler FitsStep .new
    ([.subscribe, .snapshot] ++ [.serve (.created (.short ⟨[0, 9], rfl⟩) .default 7)] ++ [.state] ++
      [.event, .serve (.connection (.connected 8 pageMac)), .event] ++
      [.serve (.setPosition pageMac ⟨5, 0, 7, 0, 0, 0⟩)] ++ [.event, .event, .event]) t ∧
    t.stream = some [] ∧ t.page.map (fun m => m.neighbors) = [[⟨macText pageMac, 3, 0, 0⟩], [⟨"00:09".toList, 3, 0, 0⟩]] := by
  refine ⟨fun _ _ => ⟨_, _, rfl, rfl, rfl⟩, ?_⟩
  have r := Run.nil (measure := flat) (euler := euler) (ok := FitsStep) (s := .new)
  have r := r.step (l := .subscribe) trivial (.subscribe rfl)
  have r := r.step (l := .snapshot) trivial (.snapshot rfl)
  have r := r.step (l := .serve (.created (.short ⟨[0, 9], rfl⟩) .default 7)) (fits_created (p := .default)) (.serve (heard := Web.always) fun _ _ => rfl)
  have r := r.step (l := .state) trivial (step_state rfl)
  have r := r.step (l := .event) trivial (step_event rfl (Page.handle_added _ _ _ _ _))
  have r := r.step (l := .serve (.connection (.connected 8 pageMac))) (by
    intro k i h
    have : k = 7 ∧ i.mac = .short ⟨[0, 9], rfl⟩ := by
      change (if 7 = k then some (⟨.anchor, .short ⟨[0, 9], rfl⟩, .default⟩ : Info) else none) = some i at h
      split at h
      · rename_i hk; cases h; exact ⟨hk.symm, rfl⟩
      · cases h
    rw [this.1, this.2]
    decide) (.serve (heard := Web.always) fun _ _ => rfl)
  have r := r.step (l := .event) trivial (step_event rfl (Page.handle_added _ _ _ _ _))
  have r := r.step (l := .serve (.setPosition pageMac ⟨5, 0, 7, 0, 0, 0⟩)) trivial (.serve (heard := Web.always) fun _ _ => rfl)
  have r := r.step (l := .event) trivial (step_event rfl rfl)
  have r := r.step (l := .event) trivial (step_event rfl rfl)
  have r := r.step (l := .event) trivial (step_event rfl rfl)
  exact ⟨_, r, rfl, rfl⟩

end Pica.Props
