import Verif.Proofs.EditorServer
/-! The objects that the page refers to stay the same. -/

namespace Pica.Editor
open Spec Page

variable {measure : Measure} {euler : Euler}

theorem target_look {s t : Editor} {r q : Option Ref} (h : ∀ x, r = some x → (q.bind t.look).map Marker.mac = (s.look x).map Marker.mac)
    (hn : r = none → q = none) : target t q = target s r := by
  cases r with
  | none => rw [hn rfl]; rfl
  | some x => exact h x rfl

theorem target_put {s : Editor} {f : Marker → Marker} (hf : ∀ m, (f m).mac = m.mac) (r : Ref) (q : Option Ref) :
    target (s.put f r) q = target s q := by
  refine target_look (fun x hx => ?_) fun h => h
  subst hx
  show ((s.put f r).look x).map _ = _
  rw [look_put]
  split
  · cases s.look x with
    | none => rfl
    | some m => exact congrArg some (hf m)
  · rfl

theorem target_macs {s : Editor} {page : Page} (hp : page.map Marker.mac = s.world.page.map Marker.mac) (q : Option Ref) :
    target { s with world := { s.world with page } } q = target s q := by
  refine target_look (fun x hx => ?_) fun h => h
  subst hx
  cases x with
  | gone k => rfl
  | listed i =>
    show page[i]?.map Marker.mac = s.world.page[i]?.map Marker.mac
    rw [← List.getElem?_map, ← List.getElem?_map, hp]

/-- A reference after a device has been removed. -/
theorem look_forget {s : Editor} {mac : Text} {r : Ref} {x : Marker} (hx : s.look r = some x) {page : Page}
    (hp : page.map Marker.mac = (s.world.page.filter fun x => decide (x.mac ≠ mac)).map Marker.mac) :
    (({ s.removed mac with world := { s.world with page } } : Editor).look (forget s.world.page s.past mac r)).map Marker.mac =
      some x.mac := by
  cases r with
  | gone k => exact congrArg _ (getElem?_append_some hx)
  | listed i =>
    by_cases hm : x.mac = mac
    · obtain ⟨k, h1, h2⟩ := forget_gone (past := s.past) hx hm
      rw [h1]
      exact congrArg (Option.map Marker.mac) h2
    · obtain ⟨j, h1, h2⟩ := forget_listed (past := s.past) hx hm
      rw [h1]
      show page[j]?.map Marker.mac = _
      rw [← List.getElem?_map, hp, List.getElem?_map, h2]
      rfl

/-- What a listener does to the references of the page. -/
theorem handle_targets {s : Editor} (h : Sound euler s) (e : WebEvent) :
    target (s.handle (msg euler e)) (s.handle (msg euler e)).selected = target s s.selected ∧
    ((∀ c m, e = .removed c m → target s s.info ≠ some (macText m)) →
      target (s.handle (msg euler e)) (s.handle (msg euler e)).info = target s s.info) ∧
    ∀ c m, e = .removed c m → target s s.info = some (macText m) → (s.handle (msg euler e)).info = none := by
  cases e with
  | added c m p =>
    rw [handle_added]
    have hk : ∀ q, (∀ r, q = some r → ∃ m, s.look r = some m) →
        target { s with world := { s.world with page := s.world.page ++ [marker euler m p []] } } q = target s q := by
      intro q hq
      refine target_look (fun x hx => ?_) fun h => h
      subst hx
      obtain ⟨y, hy⟩ := hq x rfl
      cases x with
      | gone k => rfl
      | listed i =>
        have h1 : (s.world.page ++ [marker euler m p []])[i]? = some y := getElem?_append_some hy
        show (s.world.page ++ [marker euler m p []])[i]?.map Marker.mac = _
        rw [h1, hy]
    exact ⟨hk _ fun r hr => h.refs r (.inl hr), fun _ => hk _ fun r hr => h.refs r (.inr hr), fun _ _ he => nomatch he⟩
  | removed c m =>
    rw [handle_removed]
    have hk : ∀ q, (∀ r, q = some r → ∃ m, s.look r = some m) →
        target { s.removed (macText m) with
          world := { s.world with page := (s.world.page.filter fun x => decide (x.mac ≠ macText m)).map fun x =>
            { x with neighbors := x.neighbors.filter fun n => decide (n.mac ≠ macText m) } } }
          (q.map (forget s.world.page s.past (macText m))) = target s q := by
      intro q hq
      refine target_look (fun x hx => ?_) fun h => by rw [h]; rfl
      subst hx
      obtain ⟨y, hy⟩ := hq x rfl
      rw [hy]
      refine look_forget hy ?_
      rw [List.map_map]
      rfl
    refine ⟨hk _ fun r hr => h.refs r (.inl hr), fun hn => ?_, fun c' m' he ht => ?_⟩
    · have h1 : ¬ (s.info.bind s.look).map Marker.mac = some (macText m) := hn c m rfl
      have h2 : (s.removed (macText m)).info = s.info.map (forget s.world.page s.past (macText m)) := if_neg h1
      show target _ (s.removed (macText m)).info = _
      rw [h2]
      exact hk _ fun r hr => h.refs r (.inr hr)
    · cases he
      exact if_pos ht
  | updated c m p =>
    rw [handle_updated]
    split
    · rename_i page hc
      have := target_macs (s := s) (change_macs (f := fun x => marker euler m p x.neighbors) (fun x hx => hx.symm) hc)
      exact ⟨this _, fun _ => this _, fun _ _ he => nomatch he⟩
    · exact ⟨rfl, fun _ => rfl, fun _ _ he => nomatch he⟩
  | neighbor a d x =>
    rw [handle_neighbor]
    split
    · rename_i page hc
      have := target_macs (s := s) (change_macs (by intro _ _; rfl) hc)
      exact ⟨this _, fun _ => this _, fun _ _ he => nomatch he⟩
    · exact ⟨rfl, fun _ => rfl, fun _ _ he => nomatch he⟩

theorem target_send (s : Editor) (r q : Option Ref) : target (s.send r) q = target s q := by
  unfold send
  split <;> rfl

/-- The references of the page are the same after a step, unless the mouse is pressed or the device they stand for is
removed. -/
theorem step_targets {s t : Editor} {l : Label} (h : Sound euler s) (hst : Step measure euler s l t) (hl : ∀ x, l ≠ .down x) :
    target t t.selected = target s s.selected ∧
    (target t t.info = target s s.info ∨ (l = .world .event ∧ t.info = none ∧ ∃ c m ts,
      s.world.stream = some (WebText.item euler (.removed c m) :: ts) ∧ target s s.info = some (macText m))) := by
  cases hst with
  | world h1 h2 hw =>
    cases hw with
    | state => exact absurd rfl h1
    | event => exact absurd rfl h2
    | _ => exact ⟨rfl, .inl rfl⟩
  | @state body hb =>
    unfold receive
    split
    · exact ⟨rfl, .inl rfl⟩
    · rename_i page _
      have hk : ∀ q, (∀ r, q = some r → ∃ m, s.look r = some m) →
          target { s with
            world := { s.world with body := none, page }, selected := s.selected.map (replace s.past),
            info := s.info.map (replace s.past), past := s.past ++ s.world.page } (q.map (replace s.past)) = target s q := by
        intro q hq
        refine target_look (fun x hx => ?_) fun h => by rw [h]; rfl
        subst hx
        obtain ⟨y, hy⟩ := hq x rfl
        rw [hy]
        cases x with
        | gone k => exact congrArg _ (getElem?_append_some hy)
        | listed i =>
          show (s.past ++ s.world.page)[s.past.length + i]?.map Marker.mac = _
          rw [List.getElem?_append_right (by omega), Nat.add_sub_cancel_left]
          exact congrArg _ hy
      exact ⟨hk _ fun r hr => h.refs r (.inl hr), .inl (hk _ fun r hr => h.refs r (.inr hr))⟩
  | @event x xs hs =>
    obtain ⟨es, he⟩ := h.stream _ hs
    cases es with
    | nil => cases he
    | cons e es =>
      cases he
      rw [World.understood_item]
      have h1 := handle_targets (s := { s with world := { s.world with stream := some (es.map (WebText.item euler)) } })
        ⟨h.page, h.past, fun ts hts => by cases hts; exact ⟨es, rfl⟩, h.body, h.requests, h.refs⟩ e
      refine ⟨h1.1, ?_⟩
      by_cases hr : ∃ c m, e = .removed c m ∧ target s s.info = some (macText m)
      · obtain ⟨c, m, rfl, h2⟩ := hr
        exact .inr ⟨rfl, h1.2.2 c m rfl h2, c, m, _, hs, h2⟩
      · exact .inl (h1.2.1 fun c m he h2 => hr ⟨c, m, he, h2⟩)
  | handle => exact absurd rfl (hl _)
  | marker => exact absurd rfl (hl _)
  | ground => exact absurd rfl (hl _)
  | @move x y d =>
    have hd : ∀ m : Marker, (m.drag x y).mac = m.mac := fun _ => rfl
    have hf : ∀ m : Marker, (m.lift d).mac = m.mac := fun _ => rfl
    have hp : ∀ (s : Editor) f r, (s.put f r).selected = s.selected ∧ (s.put f r).info = s.info := by
      intro s f r; cases r <;> exact ⟨rfl, rfl⟩
    have hq : ∀ (s : Editor) f r, (∀ m, (f m).mac = m.mac) →
        target (s.put f r) (s.put f r).selected = target s s.selected ∧ target (s.put f r) (s.put f r).info = target s s.info := by
      intro s f r hf
      rw [(hp s f r).1, (hp s f r).2]
      exact ⟨target_put hf r _, target_put hf r _⟩
    have : target (s.move x y d) (s.move x y d).selected = target s s.selected ∧
        target (s.move x y d) (s.move x y d).info = target s s.info := by
      unfold Editor.move
      split
      · split
        · exact ⟨rfl, rfl⟩
        · rename_i r _
          dsimp only
          split
          · split
            · have h1 := hq s _ r hd
              have h2 := hq (s.put (Marker.drag x y) r) _ r hf
              exact ⟨h2.1.trans h1.1, h2.2.trans h1.2⟩
            · exact hq s _ r hd
          · split
            · exact hq s _ r hf
            · exact ⟨rfl, rfl⟩
      · exact ⟨rfl, rfl⟩
    exact ⟨this.1, .inl this.2⟩
  | up =>
    have : ∀ q, target s.up q = target s q := by
      intro q
      unfold Editor.up
      split
      · exact target_send s s.selected q
      · rfl
    have h1 : s.up.selected = s.selected ∧ s.up.info = s.info := by
      unfold Editor.up
      split
      · exact ⟨(send_frame s s.selected).1, (send_frame s s.selected).2.1⟩
      · exact ⟨rfl, rfl⟩
    rw [h1.1, h1.2]
    exact ⟨this _, .inl (this _)⟩
  | @slide a v r hi h1 h2 =>
    have h3 : ∀ m : Marker, (a.set v m).mac = m.mac := fun _ => by cases a <;> rfl
    have h4 : (s.slide a v r).selected = s.selected ∧ (s.slide a v r).info = s.info := by
      unfold Editor.slide
      cases r <;> exact ⟨rfl, rfl⟩
    rw [h4.1, h4.2]
    exact ⟨target_put h3 r _, .inl (target_put h3 r _)⟩
  | release =>
    have h4 := send_frame s s.info
    have h5 : s.release.selected = s.selected ∧ s.release.info = s.info := ⟨h4.1, h4.2.1⟩
    rw [h5.1, h5.2]
    exact ⟨target_send s s.info _, .inl (target_send s s.info _)⟩
  | request => exact ⟨rfl, .inl rfl⟩

end Pica.Editor
