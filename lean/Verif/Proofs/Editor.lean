import Verif.Spec.Editor
import Verif.Proofs.Page
import Verif.Props.JsonBody
import Mathlib.Data.List.Forall2
/-! What the user does on the page, and what the server makes of it. -/

namespace Pica
open Spec Page

theorem filter_getElem? {α : Type} {p : α → Bool} {l : List α} {i : Nat} {a : α} (h : l[i]? = some a) (ha : p a = true) :
    (l.filter p)[((l.take i).filter p).length]? = some a := by
  obtain ⟨hi, hg⟩ := List.getElem?_eq_some_iff.mp h
  have : l = l.take i ++ a :: l.drop (i + 1) := by
    rw [← hg, List.getElem_cons_drop, List.take_append_drop]
  have hf : l.filter p = (l.take i).filter p ++ a :: (l.drop (i + 1)).filter p := by
    conv_lhs => rw [this]
    rw [List.filter_append, List.filter_cons, if_pos ha]
  rw [hf, List.getElem?_append_right (Nat.le_refl _), Nat.sub_self]
  rfl

/-- The numbers of a marker are such that the server can read them, but for an elevation that is too large. -/
structure Marker.Ranged (m : Marker) : Prop where
  mac : ∃ a, m.mac = macText a
  x : -32768 ≤ m.x ∧ m.x ≤ 32767
  y : -32768 ≤ m.y
  z : -32768 ≤ m.z ∧ m.z ≤ 32767
  yaw : -32768 ≤ m.yaw ∧ m.yaw ≤ 32767
  pitch : -128 ≤ m.pitch ∧ m.pitch ≤ 127
  roll : -32768 ≤ m.roll ∧ m.roll ≤ 32767

theorem Int16.bounds (v : Int16) : -32768 ≤ v.toInt ∧ v.toInt ≤ 32767 :=
  ⟨v.le_toInt, by have := v.toInt_lt; omega⟩

theorem Int8.bounds (v : Int8) : -128 ≤ v.toInt ∧ v.toInt ≤ 127 :=
  ⟨v.le_toInt, by have := v.toInt_lt; omega⟩

theorem Page.marker_ranged (euler : Euler) (m : MacAddress) (p : Position) (ns : List Neighbor) : (marker euler m p ns).Ranged :=
  ⟨⟨m, rfl⟩, Int16.bounds _, (Int16.bounds _).1, Int16.bounds _, Int16.bounds _, Int8.bounds _, Int16.bounds _⟩

theorem Marker.Ranged.drag {m : Marker} (h : m.Ranged) (x y : Rat) : (m.drag x y).Ranged :=
  ⟨h.mac, by unfold Marker.drag; dsimp only; omega, h.y, by unfold Marker.drag; dsimp only; omega, h.yaw, h.pitch, h.roll⟩

theorem Marker.Ranged.lift {m : Marker} (h : m.Ranged) (d : Int) : (m.lift d).Ranged :=
  ⟨h.mac, h.x, by unfold Marker.lift; dsimp only; omega, h.z, h.yaw, h.pitch, h.roll⟩

theorem Marker.Ranged.set {m : Marker} (h : m.Ranged) {a : Slider} {v : Int} (h1 : -a.limit ≤ v) (h2 : v ≤ a.limit) :
    (a.set v m).Ranged := by
  cases a <;> simp only [Slider.limit] at h1 h2
  · exact ⟨h.mac, h.x, h.y, h.z, ⟨by show _ ≤ v; omega, by show v ≤ _; omega⟩, h.pitch, h.roll⟩
  · exact ⟨h.mac, h.x, h.y, h.z, h.yaw, ⟨by show _ ≤ v; omega, by show v ≤ _; omega⟩, h.roll⟩
  · exact ⟨h.mac, h.x, h.y, h.z, h.yaw, h.pitch, ⟨by show _ ≤ v; omega, by show v ≤ _; omega⟩⟩

theorem mem_modify {α : Type} {l : List α} {i : Nat} {f : α → α} {x : α} (h : x ∈ l.modify i f) :
    x ∈ l ∨ ∃ y ∈ l, x = f y := by
  induction l generalizing i with
  | nil => cases i <;> exact .inl h
  | cons a l ih =>
    cases i with
    | zero =>
      rcases List.mem_cons.mp h with rfl | h
      · exact .inr ⟨a, List.mem_cons_self, rfl⟩
      · exact .inl (List.mem_cons_of_mem _ h)
    | succ i =>
      rcases List.mem_cons.mp h with rfl | h
      · exact .inl List.mem_cons_self
      · rcases ih h with h | ⟨y, hy, e⟩
        · exact .inl (List.mem_cons_of_mem _ h)
        · exact .inr ⟨y, List.mem_cons_of_mem _ hy, e⟩

theorem Page.mem_change {mac : Text} {f : Marker → Marker} {page page' : Page} (h : change mac f page = some page') {x : Marker}
    (hx : x ∈ page') : x ∈ page ∨ ∃ y ∈ page, y.mac = mac ∧ x = f y := by
  induction page generalizing page' with
  | nil => cases h
  | cons m r ih =>
    unfold change at h
    split at h
    · rename_i hm
      cases h
      rcases List.mem_cons.mp hx with rfl | hx
      · exact .inr ⟨m, List.mem_cons_self, hm, rfl⟩
      · exact .inl (List.mem_cons_of_mem _ hx)
    · obtain ⟨r', h1, rfl⟩ := Option.map_eq_some_iff.mp h
      rcases List.mem_cons.mp hx with rfl | hx
      · exact .inl List.mem_cons_self
      · rcases ih h1 hx with h | ⟨y, hy, e⟩
        · exact .inl (List.mem_cons_of_mem _ h)
        · exact .inr ⟨y, List.mem_cons_of_mem _ hy, e⟩

theorem Page.change_macs {mac : Text} {f : Marker → Marker} (hf : ∀ m, m.mac = mac → (f m).mac = m.mac) {page page' : Page}
    (h : change mac f page = some page') : page'.map Marker.mac = page.map Marker.mac := by
  induction page generalizing page' with
  | nil => cases h
  | cons m r ih =>
    unfold change at h
    split at h
    · rename_i hm
      cases h
      simp [hf m hm]
    · obtain ⟨r', h1, rfl⟩ := Option.map_eq_some_iff.mp h
      simp [ih h1]

namespace Editor

variable {measure : Measure} {euler : Euler} {ok : Editor → Label → Prop}

theorem handle_added (s : Editor) (c : Category) (m : MacAddress) (p : Position) :
    s.handle (msg euler (.added c m p)) =
      { s with world := { s.world with page := s.world.page ++ [marker euler m p []] } } := rfl

theorem handle_removed (s : Editor) (c : Category) (m : MacAddress) :
    s.handle (msg euler (.removed c m)) =
      { s.removed (macText m) with
        world := { s.world with page := (s.world.page.filter fun x => decide (x.mac ≠ macText m)).map fun x =>
          { x with neighbors := x.neighbors.filter fun n => decide (n.mac ≠ macText m) } } } := rfl

theorem handle_updated (s : Editor) (c : Category) (m : MacAddress) (p : Position) :
    s.handle (msg euler (.updated c m p)) =
      match change (macText m) (fun x => marker euler m p x.neighbors) s.world.page with
      | some page => { s with world := { s.world with page } }
      | none => { s with world := { s.world with threw := true } } := by
  unfold handle
  rw [Page.handle_updated]
  cases change (macText m) (fun x => marker euler m p x.neighbors) s.world.page with
  | none => rfl
  | some page => rfl

theorem handle_neighbor (s : Editor) (a d : Category × MacAddress) (x : RangingMeasurement) :
    s.handle (msg euler (.neighbor a d x)) =
      match change (macText a.2) (fun m =>
        { m with neighbors := link ⟨macText d.2, x.range.toNat, x.azimuth.toInt, x.elevation.toInt⟩ m.neighbors }) s.world.page with
      | some page => { s with world := { s.world with page } }
      | none => { s with world := { s.world with threw := true } } := by
  unfold handle
  rw [Page.handle_neighbor]
  cases change (macText a.2) (fun m =>
        { m with neighbors := link ⟨macText d.2, x.range.toNat, x.azimuth.toInt, x.elevation.toInt⟩ m.neighbors })
        s.world.page with
  | none => rfl
  | some page => rfl

/-- What holds of the page whatever happens. -/
structure Sound (euler : Euler) (s : Editor) : Prop where
  page : ∀ m ∈ s.world.page, m.Ranged
  past : ∀ m ∈ s.past, m.Ranged
  stream : ∀ ts, s.world.stream = some ts → ∃ es : List WebEvent, ts = es.map (WebText.item euler)
  body : ∀ b, s.world.body = some b → ∃ ds, b = WebText.state euler ds
  requests : ∀ q ∈ s.requests, ∃ m : Marker, m.Ranged ∧ q = m.request
  refs : ∀ r, s.selected = some r ∨ s.info = some r → ∃ m, s.look r = some m

theorem Sound.look {s : Editor} (h : Sound euler s) {r : Ref} {m : Marker} (hl : s.look r = some m) : m.Ranged := by
  cases r with
  | listed i => exact h.page m (List.mem_of_getElem? hl)
  | gone k => exact h.past m (List.mem_of_getElem? hl)

theorem sound_opened (w : Web) : Sound euler (opened w) where
  page _ h := nomatch h
  past _ h := nomatch h
  stream _ h := nomatch h
  body _ h := nomatch h
  requests _ h := nomatch h
  refs _ h := by rcases h with h | h <;> cases h

theorem look_put {s : Editor} {f : Marker → Marker} {r q : Ref} :
    (s.put f r).look q = if q = r then (s.look q).map f else s.look q := by
  cases r with
  | listed i =>
    cases q with
    | listed j =>
      show (s.world.page.modify i f)[j]? = _
      rw [List.getElem?_modify]
      by_cases h : i = j
      · subst h; simp [Editor.look]
      · have : ¬ (Ref.listed j = Ref.listed i) := by intro e; cases e; exact h rfl
        rw [if_neg this]
        simp [h, Editor.look]
    | gone k => rfl
  | gone i =>
    cases q with
    | gone j =>
      show (s.past.modify i f)[j]? = _
      rw [List.getElem?_modify]
      by_cases h : i = j
      · subst h; simp [Editor.look]
      · have : ¬ (Ref.gone j = Ref.gone i) := by intro e; cases e; exact h rfl
        rw [if_neg this]
        simp [h, Editor.look]
    | listed k => rfl

theorem sound_put {s : Editor} (h : Sound euler s) {f : Marker → Marker} (hf : ∀ m : Marker, m.Ranged → (f m).Ranged) (r : Ref) :
    Sound euler (s.put f r) := by
  have hl : ∀ q, (∃ m, s.look q = some m) → ∃ m, (s.put f r).look q = some m := by
    rintro q ⟨m, hm⟩
    rw [look_put, hm]
    split
    · exact ⟨f m, rfl⟩
    · exact ⟨m, rfl⟩
  cases r with
  | listed i =>
    refine ⟨fun m hm => ?_, h.past, h.stream, h.body, h.requests, fun q hq => hl q (h.refs q hq)⟩
    rcases mem_modify hm with hm | ⟨y, hy, rfl⟩
    · exact h.page m hm
    · exact hf y (h.page y hy)
  | gone k =>
    refine ⟨h.page, fun m hm => ?_, h.stream, h.body, h.requests, fun q hq => hl q (h.refs q hq)⟩
    rcases mem_modify hm with hm | ⟨y, hy, rfl⟩
    · exact h.past m hm
    · exact hf y (h.past y hy)

theorem sound_send {s : Editor} (h : Sound euler s) (r : Option Ref) : Sound euler (s.send r) := by
  unfold send
  cases hr : r.bind s.look with
  | none => exact ⟨h.page, h.past, h.stream, h.body, h.requests, h.refs⟩
  | some m =>
    refine ⟨h.page, h.past, h.stream, h.body, fun q hq => ?_, h.refs⟩
    rcases List.mem_append.mp hq with hq | hq
    · exact h.requests q hq
    · obtain ⟨r', -, hl⟩ := Option.bind_eq_some_iff.mp hr
      exact ⟨m, h.look hl, List.mem_singleton.mp hq⟩

/-- The fields that `send` leaves alone. -/
theorem send_frame (s : Editor) (r : Option Ref) : (s.send r).selected = s.selected ∧ (s.send r).info = s.info ∧
    (s.send r).world.page = s.world.page ∧ (s.send r).past = s.past ∧ (s.send r).world.stream = s.world.stream ∧
    (s.send r).world.web = s.world.web ∧ (s.send r).world.body = s.world.body := by
  unfold send
  split <;> exact ⟨rfl, rfl, rfl, rfl, rfl, rfl, rfl⟩

/-- A reference that stays in the list. -/
theorem forget_listed {page : Page} {past : List Marker} {mac : Text} {i : Nat} {m : Marker} (h : page[i]? = some m)
    (hm : m.mac ≠ mac) : ∃ j, forget page past mac (.listed i) = .listed j ∧
      (page.filter fun x => decide (x.mac ≠ mac))[j]? = some m := by
  refine ⟨((page.take i).filter fun m => decide (m.mac ≠ mac)).length, ?_, filter_getElem? h (by simpa using hm)⟩
  show (if page[i]?.map Marker.mac = some mac then _ else _) = _
  rw [h, if_neg (by simpa using hm)]

/-- A reference that does not. -/
theorem forget_gone {page : Page} {past : List Marker} {mac : Text} {i : Nat} {m : Marker} (h : page[i]? = some m)
    (hm : m.mac = mac) : ∃ k, forget page past mac (.listed i) = .gone k ∧
      (past ++ page.filter fun x => decide (x.mac = mac))[k]? = some m := by
  refine ⟨past.length + ((page.take i).filter fun m => decide (m.mac = mac)).length, ?_, ?_⟩
  · show (if page[i]?.map Marker.mac = some mac then _ else _) = _
    rw [h, if_pos (by simpa using hm)]
  · rw [List.getElem?_append_right (by omega), Nat.add_sub_cancel_left]
    exact filter_getElem? h (by simpa using hm)

theorem getElem?_append_some {α : Type} {l r : List α} {i : Nat} {a : α} (h : l[i]? = some a) : (l ++ r)[i]? = some a := by
  rw [List.getElem?_append_left (List.getElem?_eq_some_iff.mp h).1]
  exact h

theorem look_macs {s : Editor} {page : Page} (hp : page.map Marker.mac = s.world.page.map Marker.mac) {r : Ref}
    (h : ∃ m, s.look r = some m) : ∃ m, ({ s with world := { s.world with page } } : Editor).look r = some m := by
  obtain ⟨m, hm⟩ := h
  cases r with
  | gone k => exact ⟨m, hm⟩
  | listed i =>
    have hi := (List.getElem?_eq_some_iff.mp hm).1
    have hl : page.length = s.world.page.length := by
      have := congrArg List.length hp
      simpa using this
    have hi' : i < page.length := hl ▸ hi
    exact ⟨page[i], List.getElem?_eq_getElem hi'⟩

/-- A listener keeps what holds of the page. -/
theorem sound_handle {s : Editor} (h : Sound euler s) (e : WebEvent) : Sound euler (s.handle (msg euler e)) := by
  cases e with
  | added c m p =>
    rw [handle_added]
    refine ⟨fun x hx => ?_, h.past, h.stream, h.body, h.requests, fun r hr => ?_⟩
    · rcases List.mem_append.mp hx with hx | hx
      · exact h.page x hx
      · rw [List.mem_singleton.mp hx]; exact marker_ranged ..
    · obtain ⟨x, hx⟩ := h.refs r hr
      cases r with
      | gone k => exact ⟨x, hx⟩
      | listed i => exact ⟨x, getElem?_append_some hx⟩
  | removed c m =>
    rw [handle_removed]
    have hl : ∀ r, (∃ x, s.look r = some x) → ∃ x, ({ s.removed (macText m) with
        world := { s.world with page := (s.world.page.filter fun x => decide (x.mac ≠ macText m)).map fun x =>
          { x with neighbors := x.neighbors.filter fun n => decide (n.mac ≠ macText m) } } } : Editor).look
            (forget s.world.page s.past (macText m) r) = some x := by
      rintro r ⟨x, hx⟩
      cases r with
      | gone k => exact ⟨x, getElem?_append_some hx⟩
      | listed i =>
        by_cases hm : x.mac = macText m
        · obtain ⟨k, h1, h2⟩ := forget_gone (past := s.past) hx hm
          rw [h1]
          exact ⟨x, h2⟩
        · obtain ⟨j, h1, h2⟩ := forget_listed (past := s.past) hx hm
          rw [h1]
          refine ⟨{ x with neighbors := x.neighbors.filter fun n => decide (n.mac ≠ macText m) }, ?_⟩
          show (List.map _ _)[j]? = _
          rw [List.getElem?_map, h2]
          rfl
    refine ⟨fun x hx => ?_, fun x hx => ?_, h.stream, h.body, h.requests, fun r hr => ?_⟩
    · obtain ⟨y, hy, rfl⟩ := List.mem_map.mp hx
      have := h.page y (List.mem_filter.mp hy).1
      exact ⟨this.mac, this.x, this.y, this.z, this.yaw, this.pitch, this.roll⟩
    · rcases List.mem_append.mp hx with hx | hx
      · exact h.past x hx
      · exact h.page x (List.mem_filter.mp hx).1
    · rcases hr with hr | hr
      · obtain ⟨q, hq, rfl⟩ := Option.map_eq_some_iff.mp hr
        exact hl q (h.refs q (.inl hq))
      · change (if _ then none else _) = some r at hr
        split at hr
        · cases hr
        · obtain ⟨q, hq, rfl⟩ := Option.map_eq_some_iff.mp hr
          exact hl q (h.refs q (.inr hq))
  | updated c m p =>
    rw [handle_updated]
    split
    · rename_i page hc
      refine ⟨fun x hx => ?_, h.past, h.stream, h.body, h.requests, fun r hr => ?_⟩
      · rcases mem_change hc hx with hx | ⟨y, hy, -, rfl⟩
        · exact h.page x hx
        · exact marker_ranged ..
      · exact look_macs (change_macs (f := fun x => marker euler m p x.neighbors) (fun x hx => hx.symm) hc) (h.refs r hr)
    · exact ⟨h.page, h.past, h.stream, h.body, h.requests, h.refs⟩
  | neighbor a d x =>
    rw [handle_neighbor]
    split
    · rename_i page hc
      refine ⟨fun x hx => ?_, h.past, h.stream, h.body, h.requests, fun r hr => ?_⟩
      · rcases mem_change hc hx with hx | ⟨y, hy, -, rfl⟩
        · exact h.page x hx
        · have := h.page y hy
          exact ⟨this.mac, this.x, this.y, this.z, this.yaw, this.pitch, this.roll⟩
      · refine look_macs (change_macs ?_ hc) (h.refs r hr)
        intro _ _
        rfl
    · exact ⟨h.page, h.past, h.stream, h.body, h.requests, h.refs⟩

theorem sound_step {s t : Editor} {l : Label} (h : Sound euler s) (hst : Step measure euler s l t) : Sound euler t := by
  cases hst with
  | world h1 h2 hw =>
    cases hw with
    | @serve op heard hh =>
      refine ⟨h.page, h.past, fun ts hts => ?_, h.body, h.requests, h.refs⟩
      obtain ⟨us, hu, rfl⟩ := Option.map_eq_some_iff.mp hts
      obtain ⟨es, rfl⟩ := h.stream us hu
      exact ⟨es ++ (serve measure heard s.world.web op).2.1, by rw [List.map_append]⟩
    | shuffle => exact ⟨h.page, h.past, h.stream, h.body, h.requests, h.refs⟩
    | subscribe => exact ⟨h.page, h.past, fun ts hts => by cases hts; exact ⟨[], rfl⟩, h.body, h.requests, h.refs⟩
    | @snapshot devices => exact ⟨h.page, h.past, h.stream, fun b hb => by cases hb; exact ⟨devices, rfl⟩, h.requests, h.refs⟩
    | state => exact absurd rfl h1
    | event => exact absurd rfl h2
    | breaks => exact ⟨h.page, h.past, fun ts hts => (by cases hts), h.body, h.requests, h.refs⟩
  | @state body hb =>
    obtain ⟨ds, rfl⟩ := h.body body hb
    unfold receive
    rw [receive_state]
    refine ⟨fun x hx => ?_, fun x hx => ?_, h.stream, fun b hb => (by cases hb), h.requests, fun r hr => ?_⟩
    · obtain ⟨i, -, rfl⟩ := List.mem_map.mp hx
      exact marker_ranged ..
    · rcases List.mem_append.mp hx with hx | hx
      · exact h.past x hx
      · exact h.page x hx
    · have : ∃ q, (s.selected = some q ∨ s.info = some q) ∧ r = replace s.past q := by
        rcases hr with hr | hr
        · obtain ⟨q, hq, rfl⟩ := Option.map_eq_some_iff.mp hr
          exact ⟨q, .inl hq, rfl⟩
        · obtain ⟨q, hq, rfl⟩ := Option.map_eq_some_iff.mp hr
          exact ⟨q, .inr hq, rfl⟩
      obtain ⟨q, hq, rfl⟩ := this
      obtain ⟨m, hm⟩ := h.refs q hq
      refine ⟨m, ?_⟩
      cases q with
      | gone k => exact getElem?_append_some hm
      | listed i =>
        show (s.past ++ s.world.page)[s.past.length + i]? = _
        rw [List.getElem?_append_right (by omega), Nat.add_sub_cancel_left]
        exact hm
  | @event x xs hs =>
    obtain ⟨es, he⟩ := h.stream _ hs
    cases es with
    | nil => cases he
    | cons e es =>
      cases he
      rw [World.understood_item]
      exact sound_handle (s := { s with world := { s.world with stream := some (es.map (WebText.item euler)) } })
        ⟨h.page, h.past, fun ts hts => by cases hts; exact ⟨es, rfl⟩, h.body, h.requests, h.refs⟩ e
  | handle => exact ⟨h.page, h.past, h.stream, h.body, h.requests, h.refs⟩
  | @marker i hi =>
    refine ⟨h.page, h.past, h.stream, h.body, h.requests, fun r hr => ?_⟩
    have : r = .listed i := by rcases hr with hr | hr <;> exact (Option.some.inj hr).symm
    subst this
    exact ⟨_, List.getElem?_eq_getElem hi⟩
  | ground => exact ⟨h.page, h.past, h.stream, h.body, h.requests, fun r hr => by rcases hr with hr | hr <;> cases hr⟩
  | @move x y d =>
    unfold Editor.move
    split
    · split
      · exact ⟨h.page, h.past, h.stream, h.body, h.requests, h.refs⟩
      · rename_i r _
        have h1 : Sound euler (if s.dragging then s.put (Marker.drag x y) r else s) := by
          split
          · exact sound_put h (fun m hm => hm.drag x y) r
          · exact h
        dsimp only
        generalize (if s.dragging then s.put (Marker.drag x y) r else s) = s' at h1
        split
        · exact sound_put h1 (fun m hm => hm.lift d) r
        · exact h1
    · exact h
  | up =>
    have h1 : Sound euler (if s.dragging || s.lifting then s.send s.selected else s) := by
      split
      · exact sound_send h _
      · exact h
    exact ⟨h1.page, h1.past, h1.stream, h1.body, h1.requests, h1.refs⟩
  | slide hi h1 h2 =>
    have := sound_put h (fun m hm => hm.set h1 h2) (r := ‹Ref›)
    exact ⟨this.page, this.past, this.stream, this.body, this.requests, this.refs⟩
  | release =>
    have := sound_send h s.info
    exact ⟨this.page, this.past, this.stream, this.body, this.requests, this.refs⟩
  | @request i path body heard web es reply hq hh ha =>
    refine ⟨h.page, h.past, fun ts hts => ?_, h.body, fun q hq => h.requests q (List.mem_of_mem_eraseIdx hq), h.refs⟩
    obtain ⟨us, hu, rfl⟩ := Option.map_eq_some_iff.mp hts
    obtain ⟨fs, rfl⟩ := h.stream us hu
    exact ⟨fs ++ es, by rw [List.map_append]⟩

theorem sound_run {s t : Editor} {ls : List Label} (h : Sound euler s) (hr : Run measure euler ok s ls t) : Sound euler t := by
  induction hr with
  | nil => exact h
  | step _ _ hst ih => exact sound_step ih hst

/-! The requests of the page. -/

theorem macText_slash (a : MacAddress) : '/' ∉ macText a := by
  have key : ∀ n : Nat, n < 16 → MacAddress.upperDigit n ≠ '/' := by decide
  rw [WebText.macText_eq]
  intro hc
  unfold MacAddress.display MacAddress.trimEndColons at hc
  rw [List.mem_reverse] at hc
  have hc := (List.dropWhile_sublist _).subset hc
  rw [List.mem_reverse] at hc
  obtain ⟨b, -, hb⟩ := List.mem_flatMap.mp hc
  have h1 : b.toNat / 16 < 16 := by have := b.toNat_lt; omega
  simp only [MacAddress.showByte, List.mem_cons, List.not_mem_nil, or_false] at hb
  rcases hb with h | h | h
  · exact key _ h1 h.symm
  · exact key _ (by omega) h.symm
  · revert h; decide

/-- The server understands what the page sends. -/
theorem request_route {m : Marker} (h : m.Ranged) (hy : m.y ≤ 32767) :
    ∃ a p, m.mac = macText a ∧ SameNumbers p m ∧
      route JsonBody.parse m.request.1 (some m.request.2) = .setPosition a p := by
  obtain ⟨a, ha⟩ := h.mac
  have hx := h.x
  have hy' := h.y
  have hz := h.z
  have hyaw := h.yaw
  have hp := h.pitch
  have hr := h.roll
  let p : Position := ⟨Int16.ofInt m.x, Int16.ofInt m.y, Int16.ofInt m.z, Int16.ofInt m.yaw, Int8.ofInt m.pitch,
    Int16.ofInt m.roll⟩
  have hs : SameNumbers p m := by
    refine ⟨?_, ?_, ?_, ?_, ?_, ?_⟩
    · exact Int16.toInt_ofInt_of_le (by omega) (by omega)
    · exact Int16.toInt_ofInt_of_le (by omega) (by omega)
    · exact Int16.toInt_ofInt_of_le (by omega) (by omega)
    · exact Int16.toInt_ofInt_of_le (by omega) (by omega)
    · exact Int8.toInt_ofInt_of_le (by omega) (by omega)
    · exact Int16.toInt_ofInt_of_le (by omega) (by omega)
  refine ⟨a, p, ha, hs, ?_⟩
  have hb : m.request.2 = JsonBody.pageBody p := by
    obtain ⟨h1, h2, h3, h4, h5, h6⟩ := hs
    unfold Marker.request JsonBody.pageBody
    rw [h1, h2, h3, h4, h5, h6]
  have hpl : Props.Placing m.request.1 "set-position" a := by
    refine ⟨?_, .inr (.inl rfl), macText a, ⟨1, ?_, ?_⟩, ?_⟩
    · intro hm
      have : ∀ q ∈ staticPaths, q.take 5 ≠ "/set-".toList := by decide
      exact this _ hm rfl
    · show "/set-position/".toList ++ m.mac = _
      rw [ha]
      rfl
    · intro t ht
      cases ht
      exact macText_slash a
    · rw [WebText.macText_eq]
      exact Props.C01_parse_display a
  rw [hb, Props.C86_page hpl p]
  rfl

/-! The page and the registry. -/

/-- An event about this device puts its marker right or takes it away. -/
def Settles (es : List WebEvent) (mac : Text) : Prop :=
  ∃ e ∈ es, (∃ c a p, e = .updated c a p ∧ macText a = mac) ∨ ∃ c a, e = .removed c a ∧ macText a = mac

/-- The user is about to change this device: a request is under way, it is being moved, or it is being turned. -/
def Busy (s : Editor) (mac : Text) : Prop :=
  "/set-position/".toList ++ mac ∈ s.requests.map Prod.fst ∨
  ((s.dragging = true ∨ s.lifting = true) ∧ ∃ i, s.selected = some (.listed i) ∧ (s.world.page.map Marker.mac)[i]? = some mac) ∨
  (s.sliding = true ∧ ∃ i, s.info = some (.listed i) ∧ (s.world.page.map Marker.mac)[i]? = some mac)

/-- A marker, and what it would be without the user. -/
def Near (busy : Text → Prop) (es : List WebEvent) (m n : Marker) : Prop :=
  m.mac = n.mac ∧ m.neighbors = n.neighbors ∧ (m = n ∨ busy m.mac ∨ Settles es m.mac)

/-- At no time do two markers have the same address. -/
def Distinct (euler : Euler) (page : Page) (es : List WebEvent) : Prop :=
  ∀ pre suf, es = pre ++ suf → ∀ p, after euler page pre = some p → (p.map Marker.mac).Nodup

/-- What holds of a page that was loaded at a quiet time and is used with care. -/
structure Agrees (measure : Measure) (euler : Euler) (s : Editor) : Prop where
  shadow : ∃ es page q, s.world.stream = some (es.map (WebText.item euler)) ∧ after euler page es = some q ∧
    Good measure euler s.world.web q ∧ Distinct euler page es ∧ List.Forall₂ (Near (Busy s) es) s.world.page page
  threw : s.world.threw = false
  hold : s.dragging = true ∨ s.lifting = true → s.selected ≠ none
  fine : ∀ q ∈ s.requests, ∃ a p, q.1 = "/set-position/".toList ++ macText a ∧
    route JsonBody.parse q.1 (some q.2) = .setPosition a p

theorem near_mono {B B' : Text → Prop} {es es' : List WebEvent} {page g : Page} (h : List.Forall₂ (Near B es) page g)
    (hb : ∀ m ∈ page, B m.mac ∨ Settles es m.mac → B' m.mac ∨ Settles es' m.mac) : List.Forall₂ (Near B' es') page g := by
  induction h with
  | nil => exact .nil
  | @cons m n ms ns h _ ih =>
    refine .cons ⟨h.1, h.2.1, ?_⟩ (ih fun m hm => hb m (List.mem_cons_of_mem _ hm))
    rcases h.2.2 with h | h
    · exact .inl h
    · exact .inr (hb m List.mem_cons_self h)

theorem near_macs {B : Text → Prop} {es : List WebEvent} {page g : Page} (h : List.Forall₂ (Near B es) page g) :
    page.map Marker.mac = g.map Marker.mac := by
  induction h with
  | nil => rfl
  | cons h _ ih => rw [List.map_cons, List.map_cons, ih, h.1]

theorem near_change {R R' : Marker → Marker → Prop} {mac : Text} {f : Marker → Marker} {page g g' : Page}
    (h : List.Forall₂ R page g) (hR : ∀ m n, R m n → m.mac = n.mac) (hn : (g.map Marker.mac).Nodup)
    (h1 : ∀ m n, R m n → m.mac ≠ mac → R' m n) (h2 : ∀ m n, R m n → m.mac = mac → R' (f m) (f n))
    (hc : change mac f g = some g') : ∃ page', change mac f page = some page' ∧ List.Forall₂ R' page' g' := by
  induction h generalizing g' with
  | nil => cases hc
  | @cons m n ms ns h hs ih =>
    rw [List.map_cons, List.nodup_cons] at hn
    unfold change at hc ⊢
    rw [hR m n h]
    split at hc
    · rename_i hm
      cases hc
      rw [if_pos hm]
      refine ⟨_, rfl, .cons (h2 m n h ((hR m n h).trans hm)) ?_⟩
      have hno : mac ∉ ns.map Marker.mac := hm ▸ hn.1
      clear ih hn
      induction hs with
      | nil => exact .nil
      | @cons a b as bs ha _ ih =>
        rw [List.map_cons, List.mem_cons, not_or] at hno
        exact .cons (h1 a b ha (by rw [hR a b ha]; exact Ne.symm hno.1)) (ih hno.2)
    · rename_i hm
      rw [if_neg hm]
      obtain ⟨r, hr, rfl⟩ := Option.map_eq_some_iff.mp hc
      obtain ⟨r', hr', hf⟩ := ih hn.2 hr
      exact ⟨m :: r', by rw [hr']; rfl, .cons (h1 m n h (by rw [hR m n h]; exact hm)) hf⟩

theorem not_settled {es : List WebEvent} {e : WebEvent} {mac : Text} (h : Settles (e :: es) mac)
    (h1 : ∀ c a p, e = .updated c a p → macText a ≠ mac) (h2 : ∀ c a, e = .removed c a → macText a ≠ mac) : Settles es mac := by
  obtain ⟨x, hx, hs⟩ := h
  rcases List.mem_cons.mp hx with rfl | hx
  · rcases hs with ⟨c, a, p, e1, e2⟩ | ⟨c, a, e1, e2⟩
    · exact absurd e2 (h1 c a p e1)
    · exact absurd e2 (h2 c a e1)
  · exact ⟨x, hx, hs⟩

/-- An event on the page and on its shadow. -/
theorem near_handle {B : Text → Prop} {e : WebEvent} {es : List WebEvent} {page g g' : Page}
    (h : List.Forall₂ (Near B (e :: es)) page g) (hn : (g.map Marker.mac).Nodup) (hg : g.handle (msg euler e) = some g') :
    ∃ page', page.handle (msg euler e) = some page' ∧ List.Forall₂ (Near B es) page' g' := by
  cases e with
  | added c a p =>
    rw [Page.handle_added] at hg ⊢
    cases hg
    refine ⟨_, rfl, List.rel_append (near_mono h fun m _ hm => ?_) (.cons ⟨rfl, rfl, .inl rfl⟩ .nil)⟩
    exact hm.imp id fun hm => not_settled hm (by intro _ _ _ h; cases h) (by intro _ _ h; cases h)
  | removed c a =>
    rw [Page.handle_removed] at hg ⊢
    cases hg
    refine ⟨_, rfl, ?_⟩
    clear hn
    induction h with
    | nil => exact .nil
    | @cons m n ms ns hm _ ih =>
      rw [List.filter_cons, List.filter_cons]
      by_cases hc : n.mac = macText a
      · rw [if_neg (by rw [hm.1]; simpa using hc), if_neg (by simpa using hc)]
        exact ih
      · rw [if_pos (by rw [hm.1]; simpa using hc), if_pos (by simpa using hc)]
        refine .cons ⟨hm.1, by dsimp only; rw [hm.2.1], ?_⟩ ih
        rcases hm.2.2 with h | h | h
        · exact .inl (by rw [h])
        · exact .inr (.inl h)
        · refine .inr (.inr (not_settled h (by intro _ _ _ h; cases h) ?_))
          intro c' a' e he
          cases e
          exact hc (hm.1 ▸ he.symm)
  | updated c a p =>
    rw [Page.handle_updated] at hg ⊢
    refine near_change h (fun m n h => h.1) hn ?_ ?_ hg
    · intro m n hm hc
      refine ⟨hm.1, hm.2.1, hm.2.2.imp id (Or.imp id fun h => not_settled h ?_ (by intro _ _ h; cases h))⟩
      intro c' a' p' e he
      cases e
      exact hc he.symm
    · intro m n hm _
      exact ⟨rfl, hm.2.1, .inl (by rw [hm.2.1])⟩
  | neighbor a d x =>
    rw [Page.handle_neighbor] at hg ⊢
    have ns : ∀ m, Settles (.neighbor a d x :: es) m → Settles es m := fun m h =>
      not_settled h (by intro _ _ _ h; cases h) (by intro _ _ h; cases h)
    refine near_change h (fun m n h => h.1) hn ?_ ?_ hg
    · intro m n hm _
      exact ⟨hm.1, hm.2.1, hm.2.2.imp id (Or.imp id (ns _))⟩
    · intro m n hm _
      refine ⟨hm.1, by dsimp only; rw [hm.2.1], ?_⟩
      rcases hm.2.2 with h | h | h
      · exact .inl (by rw [h])
      · exact .inr (.inl h)
      · exact .inr (.inr (ns _ h))

theorem near_modify {B : Text → Prop} {es : List WebEvent} {page g : Page} (h : List.Forall₂ (Near B es) page g) {i : Nat}
    {f : Marker → Marker} (hf : ∀ m, (f m).mac = m.mac ∧ (f m).neighbors = m.neighbors)
    (hb : ∀ mac, (page.map Marker.mac)[i]? = some mac → B mac) : List.Forall₂ (Near B es) (page.modify i f) g := by
  induction h generalizing i with
  | nil => cases i <;> exact .nil
  | @cons m n ms ns h hs ih =>
    cases i with
    | zero =>
      refine .cons ⟨(hf m).1.trans h.1, (hf m).2.trans h.2.1, .inr (.inl ?_)⟩ hs
      rw [(hf m).1]
      exact hb m.mac rfl
    | succ i => exact .cons h (ih fun mac hm => hb mac hm)

theorem modify_macs {f : Marker → Marker} (hf : ∀ m, (f m).mac = m.mac) (page : Page) (i : Nat) :
    (page.modify i f).map Marker.mac = page.map Marker.mac := by
  induction page generalizing i with
  | nil => cases i <;> rfl
  | cons m r ih =>
    cases i with
    | zero => show (f m).mac :: _ = _; rw [hf]; rfl
    | succ i => show m.mac :: (r.modify i f).map Marker.mac = _; rw [ih]; rfl

theorem good_nodup {w : Web} {page : Page} (g : Good measure euler w page) : (page.map Marker.mac).Nodup := by
  have hperm : (page.map Marker.mac).Perm ((AMap.values w.devices).map fun i => macText i.mac) := by
    have := g.shows.map Prod.fst
    rw [List.map_map, List.map_map] at this
    exact this
  rw [hperm.nodup_iff]
  have := g.macs.map (f := macText) fun _ _ h => macText_injective h
  rwa [List.map_map] at this

theorem distinct_cons {e : WebEvent} {es : List WebEvent} {page page' : Page} (h : Distinct euler page (e :: es))
    (hp : page.handle (msg euler e) = some page') : Distinct euler page' es := by
  intro pre suf he p ha
  refine h (e :: pre) suf (by rw [he]; rfl) p ?_
  show (page.handle (msg euler e)).bind _ = _
  rw [hp]
  exact ha

theorem distinct_append {es fs : List WebEvent} {page q : Page} (h : Distinct euler page es) (hq : after euler page es = some q)
    (h' : Distinct euler q fs) : Distinct euler page (es ++ fs) := by
  intro pre suf he p ha
  rcases List.append_eq_append_iff.mp he with ⟨as, h1, h2⟩ | ⟨bs, h1, h2⟩
  · subst h1
    rw [after_append, hq] at ha
    exact h' as suf h2 p ha
  · exact h pre bs h1 p ha

/-- Events other than additions keep the addresses apart. -/
theorem distinct_plain {fs : List WebEvent} {page : Page} (hn : (page.map Marker.mac).Nodup)
    (hf : ∀ e ∈ fs, ∀ c a p, e ≠ .added c a p) : Distinct euler page fs := by
  intro pre suf he p ha
  subst he
  induction pre generalizing page with
  | nil => cases ha; exact hn
  | cons e pre ih =>
    obtain ⟨q, h1, h2⟩ := Option.bind_eq_some_iff.mp ha
    refine ih ?_ h2 (fun x hx => hf x (List.mem_cons_of_mem _ hx))
    cases e with
    | added c a p => exact absurd rfl (hf _ List.mem_cons_self c a p)
    | removed c a =>
      rw [Page.handle_removed] at h1
      cases h1
      rw [List.map_map]
      exact hn.sublist ((List.filter_sublist).map _)
    | updated c a p =>
      rw [Page.handle_updated] at h1
      rw [change_macs (f := fun x => marker euler a p x.neighbors) (fun x hx => hx.symm) h1]
      exact hn
    | neighbor a d x =>
      rw [Page.handle_neighbor] at h1
      rw [change_macs (by intro _ _; rfl) h1]
      exact hn

theorem neighbors_plain (device : Info) (heard : Nat → Bool) (n : Nat) (l : List Info) :
    ∀ e ∈ (Web.neighbors measure heard device n l).1, ∀ c a p, e ≠ .added c a p := by
  induction l generalizing n with
  | nil => intro e he; cases he
  | cons o l ih =>
    unfold Web.neighbors
    split
    · split
      · intro e he; cases he
      · split
        · intro e he; cases he
        · split
          · intro e he; cases he
          · split
            · split
              · intro e he c a p
                rcases List.mem_cons.mp he with rfl | he
                · simp
                · rcases List.mem_cons.mp he with rfl | he
                  · simp
                  · exact ih _ e he c a p
              · intro e he c a p
                rw [List.mem_singleton.mp he]
                simp
            · intro e he; cases he
    · exact ih n

/-- The events of a handler. -/
theorem distinct_serve (hm : Sane measure) {w : Web} {page : Page} (g : Good measure euler w page) {op : WebOp} (hf : Fits w op) :
    Distinct euler page (serve measure Web.always w op).2.1 := by
  obtain ⟨page', h1, h2⟩ := good_serve hm g hf
  have one : ∀ e : WebEvent, (serve measure Web.always w op).2.1 = [e] →
      Distinct euler page (serve measure Web.always w op).2.1 := by
    intro e he pre suf hp p ha
    rw [he] at hp
    cases pre with
    | nil => cases ha; exact good_nodup g
    | cons x pre =>
      have : x :: pre = (serve measure Web.always w op).2.1 := by
        rw [he]
        cases pre with
        | nil => cases hp; rfl
        | cons => simp at hp
      rw [this, h1] at ha
      cases ha
      exact good_nodup h2
  cases op with
  | connection e =>
    cases e with
    | connected h mac => exact one (.added .uci mac .default) (by simp [serve, Web.connection, g.sound, Web.announce, Web.always])
    | disconnected h mac => exact one (.removed .uci mac) (by simp [serve, Web.connection, g.sound, Web.announce, Web.always])
  | created mac p h => exact one (.added .anchor mac p) (by simp [serve, Web.created, g.sound, Web.announce, Web.always])
  | destroyed mac h => exact one (.removed .anchor mac) (by simp [serve, Web.destroyed, g.sound, Web.announce, Web.always])
  | getState =>
    refine distinct_plain (good_nodup g) fun e he => ?_
    simp [serve, Web.getState, g.sound] at he
  | setPosition mac p =>
    refine distinct_plain (good_nodup g) fun e he c a q => ?_
    change e ∈ (w.setPosition measure Web.always mac p).2.1 at he
    unfold Web.setPosition at he
    rw [g.sound] at he
    simp only [Bool.false_eq_true, if_false] at he
    split at he
    · cases he
    · rename_i devices device _
      simp only [show Web.always 0 = true from rfl, if_true] at he
      have := neighbors_plain (measure := measure) device Web.always 1 (AMap.values devices)
      split at he
      · rename_i es heq
        rw [heq] at this
        rcases List.mem_cons.mp he with rfl | he
        · simp
        · exact this e he c a q
      · rename_i es x heq
        rw [heq] at this
        rcases List.mem_cons.mp he with rfl | he
        · simp
        · exact this e he c a q

/-- A device that is on the page and not in the registry will be taken off the page. -/
theorem settled_gone {es : List WebEvent} {page q : Page} {mac : Text} (ha : after euler page es = some q)
    (hm : mac ∈ page.map Marker.mac) (hq : mac ∉ q.map Marker.mac) : Settles es mac := by
  induction es generalizing page with
  | nil => cases ha; exact absurd hm hq
  | cons e es ih =>
    obtain ⟨p, h1, h2⟩ := Option.bind_eq_some_iff.mp ha
    by_cases hp : mac ∈ p.map Marker.mac
    · obtain ⟨x, hx, hs⟩ := ih h2 hp
      exact ⟨x, List.mem_cons_of_mem _ hx, hs⟩
    · cases e with
      | added c a pos =>
        rw [Page.handle_added] at h1
        cases h1
        exact absurd (by rw [List.map_append]; exact List.mem_append_left _ hm) hp
      | removed c a =>
        refine ⟨_, List.mem_cons_self, .inr ⟨c, a, rfl, ?_⟩⟩
        rw [Page.handle_removed] at h1
        cases h1
        by_contra hne
        refine hp ?_
        obtain ⟨m, hm', rfl⟩ := List.mem_map.mp hm
        rw [List.map_map]
        exact List.mem_map.mpr ⟨m, List.mem_filter.mpr ⟨hm', by simpa using Ne.symm hne⟩, rfl⟩
      | updated c a pos =>
        rw [Page.handle_updated] at h1
        rw [change_macs (f := fun x => marker euler a pos x.neighbors) (fun x hx => hx.symm) h1] at hp
        exact absurd hm hp
      | neighbor a d x =>
        rw [Page.handle_neighbor] at h1
        rw [change_macs (by intro _ _; rfl) h1] at hp
        exact absurd hm hp

theorem busy_put {s : Editor} {f : Marker → Marker} (hf : ∀ m, (f m).mac = m.mac) {r : Ref} {mac : Text} :
    Busy (s.put f r) mac ↔ Busy s mac := by
  cases r with
  | gone k => exact Iff.rfl
  | listed i =>
    unfold Busy
    show _ ∨ (_ ∧ ∃ j, _ ∧ ((s.world.page.modify i f).map Marker.mac)[j]? = _) ∨
      (_ ∧ ∃ j, _ ∧ ((s.world.page.modify i f).map Marker.mac)[j]? = _) ↔ _
    rw [modify_macs hf]
    exact Iff.rfl

theorem agrees_put {s : Editor} (h : Agrees measure euler s) {f : Marker → Marker}
    (hf : ∀ m, (f m).mac = m.mac ∧ (f m).neighbors = m.neighbors) {r : Ref}
    (hb : ∀ i mac, r = .listed i → (s.world.page.map Marker.mac)[i]? = some mac → Busy s mac) :
    Agrees measure euler (s.put f r) := by
  obtain ⟨es, g, q, h1, h2, h3, h4, h5⟩ := h.shadow
  cases r with
  | gone k => exact ⟨⟨es, g, q, h1, h2, h3, h4, h5⟩, h.threw, h.hold, h.fine⟩
  | listed i =>
    refine ⟨⟨es, g, q, h1, h2, h3, h4, ?_⟩, h.threw, h.hold, h.fine⟩
    have : List.Forall₂ (Near (Busy s) es) (s.world.page.modify i f) g := near_modify h5 hf fun mac hm => hb i mac rfl hm
    exact near_mono this fun m _ hm => hm.imp (busy_put fun m => (hf m).1).mpr id

theorem send_some {s : Editor} {r : Ref} {m : Marker} (h : s.look r = some m) :
    s.send (some r) = { s with requests := s.requests ++ [m.request] } := by
  unfold send
  simp [h]

/-- What is being changed is sent. -/
theorem agrees_send {s : Editor} (hs : Sound euler s) (h : Agrees measure euler s) {r : Ref} {m : Marker}
    (hl : s.look r = some m) (hy : m.y ≤ 32767) {t : Editor} (ht : t.world = s.world)
    (hq : t.requests = s.requests ++ [m.request]) (hh : t.dragging = true ∨ t.lifting = true → t.selected ≠ none)
    (hb : ∀ mac, Busy s mac → Busy t mac ∨ ∃ i, r = .listed i ∧ (s.world.page.map Marker.mac)[i]? = some mac) :
    Agrees measure euler t := by
  obtain ⟨es, g, q, h1, h2, h3, h4, h5⟩ := h.shadow
  obtain ⟨a, p, ha, -, hr⟩ := request_route (hs.look hl) hy
  refine ⟨⟨es, g, q, by rw [ht]; exact h1, h2, by rw [ht]; exact h3, h4, ?_⟩, by rw [ht]; exact h.threw, hh, fun x hx => ?_⟩
  · rw [ht]
    refine near_mono h5 fun n _ hn => ?_
    rcases hn with hn | hn
    · rcases hb _ hn with hn | ⟨i, rfl, hi⟩
      · exact .inl hn
      · refine .inl (.inl ?_)
        rw [hq, List.map_append]
        refine List.mem_append_right _ (List.mem_singleton.mpr ?_)
        rw [List.getElem?_map, show s.world.page[i]? = some m from hl] at hi
        exact congrArg ("/set-position/".toList ++ ·) (Option.some.inj hi).symm
    · exact .inr hn
  · rw [hq] at hx
    rcases List.mem_append.mp hx with hx | hx
    · exact h.fine x hx
    · rw [List.mem_singleton.mp hx]
      refine ⟨a, p, ?_, hr⟩
      show "/set-position/".toList ++ m.mac = _
      rw [ha]

theorem serve_position {w : Web} (hw : w.poisoned = false) (mac : MacAddress) (p : Position) :
    (∃ c, .updated c mac p ∈ (w.setPosition measure Web.always mac p).2.1) ∨ ∀ i ∈ AMap.values w.devices, i.mac ≠ mac := by
  unfold Web.setPosition
  rw [hw]
  simp only [Bool.false_eq_true, if_false]
  cases hp : Web.place mac p w.devices with
  | none =>
    refine .inr fun i hi => ?_
    obtain ⟨k, hk⟩ := AMap.mem_values.mp hi
    exact Web.place_none.mp hp _ hk
  | some z =>
    refine .inl ⟨z.2.category, ?_⟩
    simp only [show Web.always 0 = true from rfl, if_true]
    split <;> exact List.mem_cons_self

theorem agrees_step (hm : Sane measure) {s t : Editor} {l : Label} (hs : Sound euler s) (h : Agrees measure euler s)
    (hu : InUse l) (hc : CarefulUser s l) (hst : Step measure euler s l t) : Agrees measure euler t := by
  cases hst with
  | @world l w h1 h2 hw =>
    obtain ⟨es, g, q, e1, e2, e3, e4, e5⟩ := h.shadow
    have hl : ServerStep l := hu.resolve_right h2
    cases hw with
    | @serve op heard hh =>
      have := World.always_of (hh (by rw [e1]; simp))
      subst this
      obtain ⟨p, h3, h4⟩ := good_serve hm e3 hc
      refine ⟨⟨es ++ (serve measure Web.always s.world.web op).2.1, g, p, ?_, ?_, h4,
        distinct_append e4 e2 (distinct_serve hm e3 hc), ?_⟩, h.threw, h.hold, h.fine⟩
      · dsimp only
        rw [e1, List.map_append]
        rfl
      · rw [after_append, e2]; exact h3
      · refine near_mono e5 fun m _ hm => hm.imp id ?_
        rintro ⟨e, he, hs⟩
        exact ⟨e, List.mem_append_left _ he, hs⟩
    | @shuffle m hp =>
      have hf : World.Follows measure euler { s.world with stream := some [] } q := ⟨[], q, rfl, rfl, e3⟩
      obtain ⟨⟨fs, p, f1, f2, f3⟩, -⟩ := World.follows_server hm hl (s := { s.world with stream := some [] }) trivial
        (World.Step.shuffle hp) hf
      cases fs with
      | cons => cases f1
      | nil =>
        cases f2
        exact ⟨⟨es, g, q, e1, e2, f3, e4, e5⟩, h.threw, h.hold, h.fine⟩
    | subscribe => exact absurd hl (by simp [ServerStep])
    | snapshot => exact absurd hl (by simp [ServerStep])
    | state => exact absurd rfl h1
    | event => exact absurd rfl h2
    | breaks => exact absurd hl (by simp [ServerStep])
  | state => rcases hu with hu | hu
             · exact absurd hu (by simp [ServerStep])
             · cases hu
  | @event x xs hx =>
    obtain ⟨es, g, q, e1, e2, e3, e4, e5⟩ := h.shadow
    rw [e1] at hx
    cases es with
    | nil => cases hx
    | cons e es =>
      cases hx
      obtain ⟨g', h3, h4⟩ := Option.bind_eq_some_iff.mp e2
      obtain ⟨page', h5, h6⟩ := near_handle e5 (e4 [] _ rfl g rfl) h3
      rw [World.understood_item]
      show Agrees measure euler
        (({ s with world := { s.world with stream := some (es.map (WebText.item euler)) } } : Editor).handle (msg euler e))
      generalize hs' : ({ s with world := { s.world with stream := some (es.map (WebText.item euler)) } } : Editor) = s'
      have hsp : s'.world.page = s.world.page := by rw [← hs']
      have hst : s'.world.stream = some (es.map (WebText.item euler)) := by rw [← hs']
      have hsw : s'.world.web = s.world.web := by rw [← hs']
      have hs1 : s'.dragging = s.dragging := by rw [← hs']
      have hs2 : s'.lifting = s.lifting := by rw [← hs']
      have hs3 : s'.sliding = s.sliding := by rw [← hs']
      have hs4 : s'.selected = s.selected := by rw [← hs']
      have hs5 : s'.info = s.info := by rw [← hs']
      have hs6 : s'.requests = s.requests := by rw [← hs']
      have hs7 : s'.world.threw = s.world.threw := by rw [← hs']
      have hb : ∀ mac, Busy s mac ↔ Busy s' mac := by
        intro mac
        unfold Busy
        rw [hsp, hs1, hs2, hs3, hs4, hs5, hs6]
      have h6 : List.Forall₂ (Near (Busy s') es) page' g' := near_mono h6 fun m _ hm => hm.imp (hb _).mp id
      have hold : s'.dragging = true ∨ s'.lifting = true → s'.selected ≠ none := by
        rw [hs1, hs2, hs4]; exact h.hold
      -- a listener that only changes the list
      have simple : ∀ {page : Page}, s.world.page.handle (msg euler e) = some page →
          s'.handle (msg euler e) = { s' with world := { s'.world with page } } →
          (∀ (i : Nat) mac, (s.world.page.map Marker.mac)[i]? = some mac → (page.map Marker.mac)[i]? = some mac) →
          Agrees measure euler (s'.handle (msg euler e)) := by
        intro page hp he hmac
        rw [h5] at hp
        cases hp
        rw [he]
        refine ⟨⟨es, g', q, hst, h4, by dsimp only; rw [hsw]; exact e3, distinct_cons e4 h3, ?_⟩, by dsimp only; rw [hs7]; exact h.threw,
          hold, by dsimp only; rw [hs6]; exact h.fine⟩
        refine near_mono h6 fun m _ hm => hm.imp ?_ id
        rintro (hm | ⟨hm, i, h7, h8⟩ | ⟨hm, i, h7, h8⟩)
        · exact .inl hm
        · exact .inr (.inl ⟨hm, i, h7, hmac i _ (hsp ▸ h8)⟩)
        · exact .inr (.inr ⟨hm, i, h7, hmac i _ (hsp ▸ h8)⟩)
      cases e with
      | added c a p =>
        refine simple (by rw [Page.handle_added]) (by rw [handle_added, hsp]) fun i mac hi => ?_
        rw [List.map_append]
        exact getElem?_append_some hi
      | updated c a p =>
        have h5' := h5
        rw [Page.handle_updated] at h5'
        refine simple h5 (by rw [handle_updated, hsp, h5']) fun i mac hi => ?_
        rw [change_macs (f := fun x => marker euler a p x.neighbors) (fun x hx => hx.symm) h5']
        exact hi
      | neighbor a d x =>
        have h5' := h5
        rw [Page.handle_neighbor] at h5'
        refine simple h5 (by rw [handle_neighbor, hsp, h5']) fun i mac hi => ?_
        rw [change_macs (by intro _ _; rfl) h5']
        exact hi
      | removed c a =>
        have h5' := h5
        rw [Page.handle_removed] at h5'
        cases h5'
        rw [handle_removed]
        refine ⟨⟨es, g', q, hst, h4, by dsimp only; rw [hsw]; exact e3, distinct_cons e4 h3, ?_⟩,
          by dsimp only; rw [hs7]; exact h.threw, ?_, by show ∀ q ∈ s'.requests, _; rw [hs6]; exact h.fine⟩
        · dsimp only
          rw [hsp]
          refine near_mono h6 fun m hm hb => hb.imp ?_ id
          obtain ⟨y, hy, rfl⟩ := List.mem_map.mp hm
          have hy := (List.mem_filter.mp hy).2
          have hne : y.mac ≠ macText a := by simpa using hy
          have key : ∀ i, (s'.world.page.map Marker.mac)[i]? = some y.mac → ∃ j,
              forget s'.world.page s'.past (macText a) (.listed i) = .listed j ∧
              (((s'.world.page.filter fun x => decide (x.mac ≠ macText a)).map fun x =>
                { x with neighbors := x.neighbors.filter fun n => decide (n.mac ≠ macText a) } : Page).map
                  Marker.mac)[j]? = some y.mac := by
            intro i hi
            rw [List.getElem?_map] at hi
            obtain ⟨z, hz, he⟩ := Option.map_eq_some_iff.mp hi
            obtain ⟨j, f1, f2⟩ := forget_listed (past := s'.past) hz (by rw [he]; exact hne)
            refine ⟨j, f1, ?_⟩
            rw [List.map_map, List.getElem?_map, f2]
            exact congrArg some he
          rintro (hm | ⟨hm, i, h7, h8⟩ | ⟨hm, i, h7, h8⟩)
          · exact .inl hm
          · obtain ⟨j, f1, f2⟩ := key i h8
            refine .inr (.inl ⟨hm, j, ?_, by dsimp only; rw [← hsp]; exact f2⟩)
            show s'.selected.map _ = _
            rw [h7, Option.map_some, f1]
          · obtain ⟨j, f1, f2⟩ := key i h8
            have hno : ¬ (s'.info.bind s'.look).map Marker.mac = some (macText a) := by
              rw [h7]
              show ¬ (s'.world.page[i]?).map Marker.mac = _
              rw [← List.getElem?_map, h8]
              intro e
              exact hne (Option.some.inj e)
            refine .inr (.inr ⟨?_, j, ?_, by dsimp only; rw [← hsp]; exact f2⟩)
            · show (if _ then false else s'.sliding) = true
              rw [if_neg hno]; exact hm
            · show (if _ then none else s'.info.map _) = _
              rw [if_neg hno, h7, Option.map_some, f1]
        · intro hd
          show s'.selected.map _ ≠ none
          have := hold hd
          cases hsel : s'.selected with
          | none => exact absurd hsel this
          | some r => simp
  | @handle i hi =>
    obtain ⟨es, g, q, e1, e2, e3, e4, e5⟩ := h.shadow
    refine ⟨⟨es, g, q, e1, e2, e3, e4, near_mono e5 fun m _ hm => hm.imp ?_ id⟩, h.threw, fun _ => ?_, h.fine⟩
    · rintro (hm | ⟨hm, x⟩ | hm)
      · exact .inl hm
      · exact .inr (.inl ⟨.inr rfl, x⟩)
      · exact .inr (.inr hm)
    · show s.selected ≠ none
      rw [hi]; simp
  | @marker i hi =>
    obtain ⟨es, g, q, e1, e2, e3, e4, e5⟩ := h.shadow
    refine ⟨⟨es, g, q, e1, e2, e3, e4, near_mono e5 fun m _ hm => hm.imp ?_ id⟩, h.threw, fun _ => by simp [down], h.fine⟩
    rintro (hm | ⟨hm, x⟩ | ⟨hm, x⟩)
    · exact .inl hm
    · rw [hc.1, hc.2.1] at hm; simp at hm
    · rw [hc.2.2] at hm; cases hm
  | ground =>
    obtain ⟨es, g, q, e1, e2, e3, e4, e5⟩ := h.shadow
    refine ⟨⟨es, g, q, e1, e2, e3, e4, near_mono e5 fun m _ hm => hm.imp ?_ id⟩, h.threw, fun hd => ?_, h.fine⟩
    · rintro (hm | ⟨hm, x⟩ | ⟨hm, x⟩)
      · exact .inl hm
      · rw [hc.1, hc.2.1] at hm; simp at hm
      · rw [hc.2.2] at hm; cases hm
    · change s.dragging = true ∨ s.lifting = true at hd
      rw [hc.1, hc.2.1] at hd; simp at hd
  | @move x y d =>
    unfold Editor.move
    split
    · rename_i hd
      have hd : s.dragging = true ∨ s.lifting = true := by simpa using hd
      split
      · rename_i hn
        exact absurd hn (h.hold hd)
      · rename_i r hr
        have hb : ∀ i mac, r = .listed i → (s.world.page.map Marker.mac)[i]? = some mac → Busy s mac := by
          rintro i mac rfl hi
          exact .inr (.inl ⟨hd, i, hr, hi⟩)
        have h1 : Agrees measure euler (if s.dragging then s.put (Marker.drag x y) r else s) ∧
            ∀ i mac, r = .listed i →
              ((if s.dragging then s.put (Marker.drag x y) r else s).world.page.map Marker.mac)[i]? = some mac →
              Busy (if s.dragging then s.put (Marker.drag x y) r else s) mac := by
          split
          · refine ⟨agrees_put (f := Marker.drag x y) h (fun m => ⟨rfl, rfl⟩) hb, ?_⟩
            rintro i mac rfl hi
            refine (busy_put (f := Marker.drag x y) fun m => rfl).mpr (hb i mac rfl ?_)
            have : ((s.put (Marker.drag x y) (.listed i)).world.page.map Marker.mac) = s.world.page.map Marker.mac :=
              modify_macs (f := Marker.drag x y) (fun m => rfl) _ _
            rwa [this] at hi
          · exact ⟨h, hb⟩
        dsimp only
        generalize (if s.dragging then s.put (Marker.drag x y) r else s) = s' at h1
        split
        · exact agrees_put (f := Marker.lift d) h1.1 (fun m => ⟨rfl, rfl⟩) h1.2
        · exact h1.1
    · exact h
  | up =>
    unfold Editor.up
    by_cases hd : s.dragging = true ∨ s.lifting = true
    · rw [if_pos (by simpa using hd)]
      cases hr : s.selected with
      | none => exact absurd hr (h.hold hd)
      | some r =>
        obtain ⟨m, hl⟩ := hs.refs r (.inl hr)
        rw [send_some hl]
        refine agrees_send hs h hl (hc hd r m hr hl) rfl rfl (by rintro (h | h) <;> cases h) ?_
        rintro mac (hm | ⟨-, i, h1, h2⟩ | hm)
        · exact .inl (.inl (by rw [List.map_append]; exact List.mem_append_left _ hm))
        · rw [hr] at h1
          cases h1
          exact .inr ⟨i, rfl, h2⟩
        · exact .inl (.inr (.inr hm))
    · rw [if_neg (by simpa using hd)]
      obtain ⟨es, g, q, e1, e2, e3, e4, e5⟩ := h.shadow
      refine ⟨⟨es, g, q, e1, e2, e3, e4, near_mono e5 fun m _ hm => hm.imp ?_ id⟩, h.threw, ?_, h.fine⟩
      · rintro (hm | ⟨hm, -⟩ | hm)
        · exact .inl hm
        · exact absurd hm hd
        · exact .inr (.inr hm)
      · rintro (h | h) <;> cases h
  | @slide a v r hi h1 h2 =>
    have h0 : Agrees measure euler { s with sliding := true } := by
      obtain ⟨es, g, q, e1, e2, e3, e4, e5⟩ := h.shadow
      refine ⟨⟨es, g, q, e1, e2, e3, e4, near_mono e5 fun m _ hm => hm.imp ?_ id⟩, h.threw, h.hold, h.fine⟩
      rintro (hm | hm | ⟨-, x⟩)
      · exact .inl hm
      · exact .inr (.inl hm)
      · exact .inr (.inr ⟨rfl, x⟩)
    have := agrees_put (r := r) h0 (f := a.set v) (by intro m; cases a <;> exact ⟨rfl, rfl⟩) (by
      rintro i mac rfl hm
      exact .inr (.inr ⟨rfl, i, hi, hm⟩))
    cases r <;> exact this
  | release hsl hi =>
    unfold Editor.release
    cases hr : s.info with
    | none => exact absurd hr hi
    | some r =>
      obtain ⟨m, hl⟩ := hs.refs r (.inr hr)
      rw [send_some hl]
      refine agrees_send hs h hl (hc r m hr hl) rfl rfl h.hold ?_
      rintro mac (hm | hm | ⟨-, i, h1, h2⟩)
      · exact .inl (.inl (by rw [List.map_append]; exact List.mem_append_left _ hm))
      · exact .inl (.inr (.inl hm))
      · rw [hr] at h1
        cases h1
        exact .inr ⟨i, rfl, h2⟩
  | @request i path body heard web fs reply hq hh ha =>
    obtain ⟨es, g, q, e1, e2, e3, e4, e5⟩ := h.shadow
    have := World.always_of (hh (by rw [e1]; simp))
    subst this
    obtain ⟨a, p, h1, h2⟩ := h.fine _ (List.mem_of_getElem? hq)
    dsimp only at h1 h2
    rw [h2] at ha
    have ha : serve measure Web.always s.world.web (.setPosition a p) = (web, fs, reply) := Option.some.inj ha
    obtain ⟨q', h3, h4⟩ := good_serve hm e3 (op := .setPosition a p) trivial
    have h5 := distinct_serve hm e3 (op := .setPosition a p) trivial
    rw [ha] at h3 h4 h5
    refine ⟨⟨es ++ fs, g, q', ?_, ?_, h4, distinct_append e4 e2 h5, ?_⟩, h.threw, h.hold,
      fun x hx => h.fine x (List.mem_of_mem_eraseIdx hx)⟩
    · dsimp only
      rw [e1, List.map_append]
      rfl
    · rw [after_append, e2]; exact h3
    · refine near_mono e5 fun m hm hb => ?_
      have mono : Settles es m.mac → Settles (es ++ fs) m.mac := by
        rintro ⟨e, he, hs⟩
        exact ⟨e, List.mem_append_left _ he, hs⟩
      rcases hb with hb | hb
      · by_cases hma : m.mac = macText a
        · refine .inr ?_
          rcases serve_position (measure := measure) e3.sound a p with ⟨c, hu⟩ | hno
          · refine ⟨.updated c a p, List.mem_append_right _ ?_, .inl ⟨c, a, p, rfl, hma.symm⟩⟩
            have hu : _ ∈ (serve measure Web.always s.world.web (.setPosition a p)).2.1 := hu
            rw [ha] at hu
            exact hu
          · refine mono (settled_gone e2 ?_ ?_)
            · rw [← near_macs e5]
              exact List.mem_map_of_mem hm
            · intro hq'
              obtain ⟨n, hn, hnm⟩ := List.mem_map.mp hq'
              have := e3.shows.mem_iff.mp (List.mem_map_of_mem (f := shown) hn)
              obtain ⟨j, hj, he⟩ := List.mem_map.mp this
              have he := congrArg Prod.fst he
              refine hno j hj (macText_injective ?_)
              rw [← hma, ← hnm]
              exact he
        · refine .inl ?_
          rcases hb with hb | hb | hb
          · refine .inl ?_
            obtain ⟨x, hx, he⟩ := List.mem_map.mp hb
            obtain ⟨j, hj, hg⟩ := List.mem_iff_getElem.mp hx
            obtain ⟨hi, hgi⟩ := List.getElem?_eq_some_iff.mp hq
            have hji : j ≠ i := by
              rintro rfl
              rw [hgi] at hg
              rw [← hg] at he
              dsimp only at he
              rw [h1] at he
              exact hma (List.append_cancel_left he).symm
            refine List.mem_map.mpr ⟨x, List.mem_eraseIdx_iff_getElem.mpr ⟨j, hj, hji, hg⟩, he⟩
          · exact .inr (.inl hb)
          · exact .inr (.inr hb)
      · exact .inr (mono hb)

theorem agrees_run (hm : Sane measure) {s t : Editor} {ls : List Label} (hs : Sound euler s) (h : Agrees measure euler s)
    (hu : ∀ l ∈ ls, InUse l) (hr : Run measure euler CarefulUser s ls t) : Agrees measure euler t := by
  induction hr with
  | nil => exact h
  | step hr hc hst ih =>
    exact agrees_step hm (sound_run hs hr) (ih fun l hl => hu l (List.mem_append_left _ hl)) (hu _ (by simp)) hc hst

/-! The loading of the page. -/

theorem run_append {s t : Editor} {a b : List Label} (h : Run measure euler ok s (a ++ b) t) :
    ∃ u, Run measure euler ok s a u ∧ Run measure euler ok u b t := by
  induction b using List.reverseRecOn generalizing t with
  | nil => exact ⟨t, by simpa using h, .nil⟩
  | append_singleton b l ih =>
    rw [← List.append_assoc] at h
    generalize hg : a ++ b ++ [l] = ls at h
    cases h with
    | nil => simp at hg
    | step h1 h2 h3 =>
      obtain ⟨rfl, hl⟩ := List.append_inj' hg rfl
      cases hl
      obtain ⟨u, hu, hb⟩ := ih h1
      exact ⟨u, hu, .step hb h2 h3⟩

theorem run_one {s t : Editor} {l : Label} (h : Run measure euler ok s [l] t) : ok s l ∧ Step measure euler s l t := by
  generalize hg : [l] = ls at h
  cases h with
  | nil => cases hg
  | @step _ _ ls' l' h1 h2 h3 =>
    cases ls' with
    | nil =>
      cases hg
      generalize hg' : ([] : List Label) = x at h1
      cases h1 with
      | nil => exact ⟨h2, h3⟩
      | step => simp at hg'
    | cons x xs => cases xs <;> simp at hg

/-- Steps before the page has got the state. -/
theorem run_world {s t : Editor} {ls : List World.Label} (hl : ∀ l ∈ ls, l ≠ .state ∧ l ≠ .event)
    (hr : Run measure euler CarefulUser s (ls.map .world) t) :
    World.Run measure euler FitsStep s.world ls t.world ∧ t = { s with world := t.world } := by
  induction ls using List.reverseRecOn generalizing t with
  | nil =>
    generalize hg : List.map Label.world [] = x at hr
    cases hr with
    | nil => exact ⟨.nil, rfl⟩
    | step => simp at hg
  | append_singleton ls l ih =>
    rw [List.map_append] at hr
    obtain ⟨u, h1, h2⟩ := run_append hr
    obtain ⟨i1, i2⟩ := ih (fun x hx => hl x (List.mem_append_left _ hx)) h1
    obtain ⟨h3, h4⟩ := run_one h2
    have hl := hl l (by simp)
    cases h4 with
    | world _ _ hw => exact ⟨.step i1 h3 hw, by rw [i2]⟩
    | state => exact absurd rfl hl.1
    | event => exact absurd rfl hl.2

/-- What the page will be when it has handled the events under way, if it is `page` now. -/
def Shadow (measure : Measure) (euler : Euler) (s : World) (page : Page) : Prop :=
  ∃ es q, s.stream = some (es.map (WebText.item euler)) ∧ after euler page es = some q ∧
    Good measure euler s.web q ∧ Distinct euler page es

theorem shadow_server (hm : Sane measure) {s t : World} {l : World.Label} (hl : ServerStep l) (hf : FitsStep s l)
    (hst : World.Step measure euler s l t) {page : Page} (h : Shadow measure euler s page) :
    Shadow measure euler t page ∧ t.body = s.body ∧ t.page = s.page ∧ t.threw = s.threw := by
  obtain ⟨es, q, e1, e2, e3, e4⟩ := h
  cases hst with
  | @serve op heard hh =>
    have := World.always_of (hh (by rw [e1]; simp))
    subst this
    obtain ⟨p, h3, h4⟩ := good_serve hm e3 hf
    refine ⟨⟨es ++ (serve measure Web.always s.web op).2.1, p, ?_, ?_, h4, distinct_append e4 e2 (distinct_serve hm e3 hf)⟩,
      rfl, rfl, rfl⟩
    · dsimp only
      rw [e1, List.map_append]
      rfl
    · rw [after_append, e2]; exact h3
  | @shuffle m hp =>
    have hf : World.Follows measure euler { s with stream := some [] } q := ⟨[], q, rfl, rfl, e3⟩
    obtain ⟨⟨fs, p, f1, f2, f3⟩, -⟩ := World.follows_server hm hl (s := { s with stream := some [] }) trivial
      (World.Step.shuffle hp) hf
    cases fs with
    | cons => cases f1
    | nil =>
      cases f2
      exact ⟨⟨es, q, e1, e2, f3, e4⟩, rfl, rfl, rfl⟩
  | subscribe => exact absurd hl (by simp [ServerStep])
  | snapshot => exact absurd hl (by simp [ServerStep])
  | state => exact absurd hl (by simp [ServerStep])
  | event => exact absurd hl (by simp [ServerStep])
  | breaks => exact absurd hl (by simp [ServerStep])

theorem shadow_servers (hm : Sane measure) {s t : World} {b : List World.Label} (hb : ∀ l ∈ b, ServerStep l)
    (hr : World.Run measure euler FitsStep s b t) {page : Page} (h : Shadow measure euler s page) :
    Shadow measure euler t page ∧ t.body = s.body ∧ t.page = s.page ∧ t.threw = s.threw := by
  induction hr with
  | nil => exact ⟨h, rfl, rfl, rfl⟩
  | step _ hok hst ih =>
    obtain ⟨h1, h2, h3, h4⟩ := ih fun l hl => hb l (List.mem_append_left _ hl)
    obtain ⟨g1, g2, g3, g4⟩ := shadow_server hm (hb _ (by simp)) hok hst h1
    exact ⟨g1, g2.trans h2, g3.trans h3, g4.trans h4⟩

theorem shadow_start {s t : World} {a : List World.Label} (ha : a = [.subscribe, .snapshot] ∨ a = [.snapshot, .subscribe])
    (hr : World.Run measure euler FitsStep s a t) (hk : (AMap.keys s.web.devices).Nodup)
    (hmac : ((AMap.values s.web.devices).map Info.mac).Nodup) :
    ∃ body page, t.body = some body ∧ Page.receive body = some page ∧ Shadow measure euler t page ∧ t.threw = s.threw := by
  obtain ⟨body, page, h1, h2, ⟨es, q, h3, h4, h5⟩, h6⟩ := World.follows_start ha hr hk hmac
  refine ⟨body, page, h1, h2, ⟨es, q, h3, h4, h5, ?_⟩, h6⟩
  have : t.stream = some [] := by
    rcases ha with rfl | rfl
    · obtain ⟨u, r1, r2⟩ := World.run_append (a := [_]) (b := [_]) hr
      have r1 := (World.run_one r1).2
      have r2 := (World.run_one r2).2
      cases r1
      cases r2
      rfl
    · obtain ⟨u, r1, r2⟩ := World.run_append (a := [_]) (b := [_]) hr
      have r1 := (World.run_one r1).2
      have r2 := (World.run_one r2).2
      cases r1
      cases r2
      rfl
  rw [h3] at this
  cases es with
  | cons => cases this
  | nil =>
    cases h4
    exact distinct_plain (good_nodup h5) fun e he => by cases he

/-- A page that has been loaded at a quiet time. -/
theorem agrees_all (hm : Sane measure) {w : Web} {t : Editor} {a b : List World.Label} {c : List Label}
    (hr : Run measure euler CarefulUser (opened w) ((a ++ b ++ [World.Label.state]).map Label.world ++ c) t)
    (hk : (AMap.keys w.devices).Nodup) (hmac : ((AMap.values w.devices).map Info.mac).Nodup)
    (ha : a = [.subscribe, .snapshot] ∨ a = [.snapshot, .subscribe]) (hb : ∀ l ∈ b, ServerStep l)
    (hc : ∀ l ∈ c, InUse l) : Agrees measure euler t := by
  obtain ⟨u3, hr, h4⟩ := run_append hr
  have hs := sound_run (sound_opened w) hr
  rw [List.map_append] at hr
  obtain ⟨u2, hr, h3⟩ := run_append hr
  obtain ⟨hw, he⟩ := run_world (by
    intro l hl
    rcases List.mem_append.mp hl with hl | hl
    · rcases ha with rfl | rfl <;> (simp only [List.mem_cons, List.not_mem_nil, or_false] at hl; rcases hl with rfl | rfl <;> simp)
    · have := hb l hl
      constructor <;> (rintro rfl; exact absurd this (by simp [ServerStep]))) hr
  obtain ⟨v, h1, h2⟩ := World.run_append hw
  obtain ⟨body, page, e1, e2, e3, e4⟩ := shadow_start ha h1 hk hmac
  obtain ⟨⟨es, q, f1, f2, f3, f5⟩, f6, f7, f8⟩ := shadow_servers hm hb h2 e3
  refine agrees_run hm hs ?_ hc h4
  have h3 := (run_one h3).2
  cases h3 with
  | world h => exact absurd rfl h
  | @state body' hb' =>
    rw [f6, e1] at hb'
    cases hb'
    unfold receive
    rw [e2]
    rw [he]
    refine ⟨⟨es, page, q, f1, f2, f3, f5, ?_⟩, f8.trans e4, fun hd => ?_, fun x hx => ?_⟩
    · show List.Forall₂ _ page page
      exact List.forall₂_same.mpr fun m _ => ⟨rfl, rfl, .inl rfl⟩
    · rcases hd with hd | hd <;> cases hd
    · cases hx

end Editor
end Pica
