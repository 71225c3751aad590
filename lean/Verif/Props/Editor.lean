import Verif.Proofs.EditorRefs
import Verif.Props.Euler
import Verif.Props.Page
/-! C91: moving and turning devices on the page. -/

namespace Pica.Props
open Pica.Spec Editor

/-- C91: the marker of a device that is dragged follows the mouse: it is drawn less than one unit away from it, as long as the
place below the mouse is on the grid. Otherwise it stays on the grid. Neither the elevation nor another device changes. -/
theorem C91_follows {measure : Measure} {euler : Euler} {s t : Editor} {x y : Rat} {d : Int}
    (hst : Step measure euler s (.move x y d) t) (hd : s.dragging = true) (hl : s.lifting = false) {r : Ref} {m : Marker}
    (hr : s.selected = some r) (hm : s.look r = some m) :
    ∃ m', t.look r = some m' ∧ m'.y = m.y ∧ m' = { m with x := m'.x, z := m'.z } ∧
      OnGrid (m'.x, m'.z) ∧ (OnGrid (below m.y x y) → |(drawn m').1 - x| < 1 ∧ |(drawn m').2 - y| < 1) ∧
      ∀ q, q ≠ r → t.look q = s.look q := by
  cases hst
  have ht : s.move x y d = s.put (Marker.drag x y) r := by
    unfold Editor.move
    rw [hd, hl]
    simp only [Bool.or_false, if_true]
    rw [hr]
    have : (s.put (Marker.drag x y) r).lifting = false := by cases r <;> exact hl
    simp [this]
  rw [ht]
  have h1 : -560 ≤ (m.drag x y).x ∧ (m.drag x y).x ≤ 560 ∧ -560 ≤ (m.drag x y).z ∧ (m.drag x y).z ≤ 560 := by
    unfold Marker.drag
    dsimp only
    omega
  refine ⟨m.drag x y, by rw [look_put, if_pos rfl, hm]; rfl, rfl, rfl, ?_, ?_, fun q hq => by rw [look_put, if_neg hq]⟩
  · obtain ⟨a, b, c, e⟩ := h1
    refine ⟨?_, ?_, ?_, ?_⟩ <;> dsimp only <;> assumption_mod_cast
  · rintro ⟨a, b, c, e⟩
    unfold below at a b c e
    dsimp only at a b c e
    have f1 := Int.floor_le (-x)
    have f2 := Int.lt_floor_add_one (-x)
    have f3 := Int.floor_le y
    have f4 := Int.lt_floor_add_one y
    have a' : (-560 : Int) ≤ ⌊-x⌋ + m.y := by
      have : (-560 - m.y : Int) ≤ ⌊-x⌋ := Int.le_floor.mpr (by push_cast; linarith)
      omega
    have b' : ⌊-x⌋ + m.y ≤ 560 := by
      have : ((⌊-x⌋ + m.y : Int) : Rat) ≤ ((560 : Int) : Rat) := by push_cast; linarith
      exact_mod_cast this
    have c' : (-560 : Int) ≤ ⌊y⌋ + m.y := by
      have : (-560 - m.y : Int) ≤ ⌊y⌋ := Int.le_floor.mpr (by push_cast; linarith)
      omega
    have e' : ⌊y⌋ + m.y ≤ 560 := by
      have : ((⌊y⌋ + m.y : Int) : Rat) ≤ ((560 : Int) : Rat) := by push_cast; linarith
      exact_mod_cast this
    have ex : (m.drag x y).x = ⌊-x⌋ + m.y := by unfold Marker.drag; dsimp only; omega
    have ez : (m.drag x y).z = ⌊y⌋ + m.y := by unfold Marker.drag; dsimp only; omega
    unfold drawn
    rw [ex, ez, show (m.drag x y).y = m.y from rfl]
    push_cast
    constructor <;> rw [abs_lt] <;> constructor <;> linarith

/-- C91: the handle lifts the device by twice the movement of the mouse, never below the ground. -/
theorem C91_lift {measure : Measure} {euler : Euler} {s t : Editor} {x y : Rat} {d : Int}
    (hst : Step measure euler s (.move x y d) t) (hd : s.dragging = false) (hl : s.lifting = true) {r : Ref} {m : Marker}
    (hr : s.selected = some r) (hm : s.look r = some m) :
    t.look r = some { m with y := max (m.y - 2 * d) 0 } ∧ ∀ q, q ≠ r → t.look q = s.look q := by
  cases hst
  have ht : s.move x y d = s.put (Marker.lift d) r := by
    unfold Editor.move
    rw [hd, hl]
    simp only [Bool.false_or, if_true]
    rw [hr]
    simp [hl]
  rw [ht]
  refine ⟨?_, fun q hq => by rw [look_put, if_neg hq]⟩
  rw [look_put, if_pos rfl, hm]
  show some (m.lift d) = _
  unfold Marker.lift
  congr 2
  omega

/-- C91: whatever happens on the page, what it sends for a device that is not above 32767 is a request to put this device where
the page shows it. -/
theorem C91_accepted {measure : Measure} {euler : Euler} {ok : Editor → Label → Prop} {w : Web} {ls : List Label} {t : Editor}
    (hr : Run measure euler ok (opened w) ls t) {r : Ref} {m : Marker} (hm : t.look r = some m) (hy : m.y ≤ 32767) :
    ∃ a p, m.mac = macText a ∧ SameNumbers p m ∧
      route JsonBody.parse m.request.1 (some m.request.2) = .setPosition a p :=
  request_route ((sound_run (sound_opened w) hr).look hm) hy

/-- C91: the requests under way are such, with the exception of those for devices above 32767. -/
theorem C91_requests {measure : Measure} {euler : Euler} {ok : Editor → Label → Prop} {w : Web} {ls : List Label} {t : Editor}
    (hr : Run measure euler ok (opened w) ls t) {q : Text × Bytes} (hq : q ∈ t.requests) :
    ∃ m : Marker, q = m.request ∧ (m.y ≤ 32767 → ∃ a p, m.mac = macText a ∧ SameNumbers p m ∧
      route JsonBody.parse q.1 (some q.2) = .setPosition a p) := by
  obtain ⟨m, h1, rfl⟩ := (sound_run (sound_opened w) hr).requests q hq
  exact ⟨m, rfl, request_route h1⟩

/-- C91: of these exceptions the server takes no notice. -/
theorem C91_refused {measure : Measure} {euler : Euler} {ok : Editor → Label → Prop} {w : Web} {ls : List Label} {t : Editor}
    (hr : Run measure euler ok (opened w) ls t) {r : Ref} {m : Marker} (hm : t.look r = some m) (hy : 32767 < m.y) :
    route JsonBody.parse m.request.1 (some m.request.2) = .now (.status 406) :=
  request_high ((sound_run (sound_opened w) hr).look hm) hy

/-- C91: a slider sets the angle it is named after, within its limits, and nothing else. -/
theorem C91_turn {measure : Measure} {euler : Euler} {s t : Editor} {a : Slider} {v : Int}
    (hst : Step measure euler s (.slide a v) t) :
    ∃ r, s.info = some r ∧ t.info = some r ∧ t.selected = s.selected ∧ t.requests = s.requests ∧ |v| ≤ (if a matches .pitch then 90 else 180) ∧
      (∀ m, s.look r = some m → t.look r = some
        (match a with
        | .yaw => { m with yaw := v }
        | .pitch => { m with pitch := v }
        | .roll => { m with roll := v })) ∧ ∀ q, q ≠ r → t.look q = s.look q := by
  cases hst with
  | @slide _ _ r hi h1 h2 =>
    have hf : (s.slide a v r).info = s.info ∧ (s.slide a v r).selected = s.selected ∧ (s.slide a v r).requests = s.requests := by
      cases r <;> exact ⟨rfl, rfl, rfl⟩
    refine ⟨r, hi, hf.1.trans hi, hf.2.1, hf.2.2, ?_, fun m hm => ?_, fun q hq => ?_⟩
    · cases a <;> exact abs_le.mpr ⟨h1, h2⟩
    · have : (s.put (a.set v) r).look r = _ := look_put
      rw [if_pos rfl, hm] at this
      refine Eq.trans this ?_
      cases a <;> rfl
    · have : (s.put (a.set v) r).look q = _ := look_put
      rw [if_neg hq] at this
      exact this

/-- C91: a movement of the mouse raises an exception exactly if something is held and no device is selected; then nothing else
happens. Letting go raises one exactly if something is held and there is no selected device to send. -/
theorem C91_throws {measure : Measure} {euler : Euler} {s t : Editor} (ht : s.world.threw = false) :
    (∀ x y d, Step measure euler s (.move x y d) t →
      (t.world.threw = true ↔ (s.dragging = true ∨ s.lifting = true) ∧ s.selected = none) ∧
      (s.selected = none → t.requests = s.requests ∧ t.world.page = s.world.page ∧ t.past = s.past)) ∧
    (Step measure euler s .up t →
      (t.world.threw = true ↔ (s.dragging = true ∨ s.lifting = true) ∧ s.selected.bind s.look = none) ∧
      (t.world.threw = true → t.requests = s.requests)) := by
  have put : ∀ (e : Editor) f r, (e.put f r).world.threw = e.world.threw := by intro e f r; cases r <;> rfl
  constructor
  · intro x y d hst
    cases hst
    unfold Editor.move
    cases hs : s.selected with
    | none =>
      by_cases hd : (s.dragging || s.lifting) = true
      · rw [if_pos hd]
        exact ⟨⟨fun _ => ⟨by simpa using hd, rfl⟩, fun _ => rfl⟩, fun _ => ⟨rfl, rfl, rfl⟩⟩
      · rw [if_neg hd]
        refine ⟨⟨fun h => absurd (ht.symm.trans h) nofun, fun h => absurd (by simpa using h.1) hd⟩, fun _ => ⟨rfl, rfl, rfl⟩⟩
    | some r =>
      refine ⟨⟨fun h => ?_, fun h => absurd h.2 nofun⟩, nofun⟩
      exfalso
      revert h
      dsimp only
      split_ifs <;> simp [put, ht]
  · intro hst
    cases hst
    unfold Editor.up Editor.send
    by_cases hd : (s.dragging || s.lifting) = true
    · rw [if_pos hd]
      cases hb : s.selected.bind s.look with
      | none => exact ⟨⟨fun _ => ⟨by simpa using hd, rfl⟩, fun _ => rfl⟩, fun _ => rfl⟩
      | some m => exact ⟨⟨fun h => absurd (ht.symm.trans h) nofun, fun h => absurd h.2 nofun⟩, fun h => absurd (ht.symm.trans h) nofun⟩
    · rw [if_neg hd]
      exact ⟨⟨fun h => absurd (ht.symm.trans h) nofun, fun h => absurd (by simpa using h.1) hd⟩, fun _ => rfl⟩

/-- C91: pressing the mouse on a marker selects that device. -/
theorem C91_select {measure : Measure} {euler : Euler} {s t : Editor} {i : Nat} (hst : Step measure euler s (.down (.marker i)) t) :
    ∃ m, s.world.page[i]? = some m ∧ target t t.selected = some m.mac ∧ target t t.info = some m.mac ∧ t.dragging = true ∧
      t.lifting = s.lifting ∧ t.requests = s.requests ∧ ∀ q, t.look q = s.look q := by
  cases hst with
  | marker hi =>
    have h : s.world.page[i]? = some s.world.page[i] := List.getElem?_eq_getElem hi
    have h1 : (s.down (.marker i)).look (.listed i) = some s.world.page[i] := h
    refine ⟨_, h, ?_, ?_, rfl, rfl, rfl, fun q => by cases q <;> rfl⟩
    · exact congrArg (Option.map Marker.mac) h1
    · exact congrArg (Option.map Marker.mac) h1

/-- C91: until the mouse is pressed again the same device stays selected, and the sliders stay those of the same device until
the page learns that it has been removed, whatever else is added and removed. -/
theorem C91_held {measure : Measure} {euler : Euler} {ok : Editor → Label → Prop} {w : Web} {ls : List Label} {s t : Editor} {l : Label}
    (hr : Run measure euler ok (opened w) ls s) (hst : Step measure euler s l t) (hl : ∀ x, l ≠ .down x) :
    target t t.selected = target s s.selected ∧
    (target t t.info = target s s.info ∨ (l = .world .event ∧ t.info = none ∧ ∃ c m ts,
      s.world.stream = some (WebText.item euler (.removed c m) :: ts) ∧ target s s.info = some (macText m))) :=
  step_targets (sound_run (sound_opened w) hr) hst hl

/-- C91: a page loaded at a quiet time (as in C80) and used with care raises no exception, and shows the registry as soon as the
user is idle and everything under way has been handled. -/
theorem C91_page_partial (measure : Measure) (hm : Sane measure) (euler : Euler) {w : Web} {t : Editor}
    {a b : List World.Label} {c : List Label}
    (hr : Run measure euler CarefulUser (opened w) ((a ++ b ++ [World.Label.state]).map Label.world ++ c) t)
    (hk : (AMap.keys w.devices).Nodup) (hmac : ((AMap.values w.devices).map Info.mac).Nodup)
    (ha : a = [.subscribe, .snapshot] ∨ a = [.snapshot, .subscribe]) (hb : ∀ l ∈ b, ServerStep l)
    (hc : ∀ l ∈ c, InUse l) :
    t.world.threw = false ∧ (Idle t → t.world.stream = some [] →
      Shows euler t.world.web t.world.page ∧ NeighborsRight measure t.world.web t.world.page) := by
  have h := agrees_all hm hr hk hmac ha hb hc
  refine ⟨h.threw, fun hi hs => ?_⟩
  obtain ⟨es, g, q, h1, h2, h3, -, h5⟩ := h.shadow
  rw [hs] at h1
  cases es with
  | cons => cases h1
  | nil =>
    cases h2
    have : t.world.page = g := by
      have : ∀ {p g : Page}, List.Forall₂ (Editor.Near (Editor.Busy t) []) p g → p = g := by
        intro p g hf
        induction hf with
        | nil => rfl
        | cons h _ ih =>
          rw [ih]
          rcases h.2.2 with h | h | ⟨e, he, -⟩
          · rw [h]
          · obtain ⟨i1, i2, i3, i4⟩ := hi
            rcases h with h | ⟨h, -⟩ | ⟨h, -⟩
            · rw [i4] at h; cases h
            · rw [i1, i2] at h; simp at h
            · rw [i3] at h; cases h
          · cases he
      exact this h5
    rw [this]
    exact ⟨h3.shows, h3.right⟩

/-- C91: a click on a device selects it; the request that follows leaves it where it was, and it keeps looking where it did. -/
theorem C91_click (A : Arith) {measure : Measure} {euler : Euler} (h : Shown A euler) {ok : Editor → Label → Prop} {s t : Editor}
    {i : Nat} (hr : Run measure euler ok s [.down (.marker i), .up, .request 0] t) (hq : s.requests = [])
    (hs : Shows euler s.world.web s.world.page) (hw : s.world.web.poisoned = false)
    (hn : ((AMap.values s.world.web.devices).map Info.mac).Nodup) :
    t.requests = [] ∧ t.selected = some (.listed i) ∧ t.world.page = s.world.page ∧
      List.Forall₂ (fun e e' => e.1 = e'.1 ∧ Unmoved e.2 e'.2) s.world.web.devices t.world.web.devices := by
  obtain ⟨u2, hr, h3⟩ := Editor.run_append (a := [.down (.marker i), .up]) (b := [.request 0]) hr
  obtain ⟨u1, h1, h2⟩ := Editor.run_append (a := [.down (.marker i)]) (b := [.up]) hr
  obtain ⟨-, h1⟩ := Editor.run_one h1
  obtain ⟨-, h2⟩ := Editor.run_one h2
  obtain ⟨-, h3⟩ := Editor.run_one h3
  cases h1 with
  | marker hi =>
  cases h2
  obtain ⟨m, hm⟩ : ∃ m, s.world.page[i]? = some m := ⟨_, List.getElem?_eq_getElem hi⟩
  have hup : (s.down (.marker i)).up =
      { s with selected := some (.listed i), info := some (.listed i), dragging := false, lifting := false,
               requests := s.requests ++ [m.request] } := by
    have : (s.down (.marker i)).send (some (.listed i)) =
        { s.down (.marker i) with requests := s.requests ++ [m.request] } := send_some (s := s.down (.marker i)) hm
    show { (s.down (.marker i)).send (some (.listed i)) with dragging := false, lifting := false } = _
    rw [this]
    rfl
  rw [hup] at h3
  have hmem := List.mem_of_getElem? hm
  obtain ⟨j, hj, he⟩ := List.mem_map.mp (hs.mem_iff.mp (List.mem_map_of_mem (f := shown) hmem))
  unfold facts shown at he
  simp only [Prod.mk.injEq] at he
  obtain ⟨e1, e2, e3, e4, e5, e6, e7⟩ := he
  have hrg : m.Ranged :=
    ⟨⟨j.mac, e1.symm⟩, e2 ▸ Int16.bounds _, e3 ▸ (Int16.bounds _).1, e4 ▸ Int16.bounds _, e5 ▸ Int16.bounds _, e6 ▸ Int8.bounds _,
      e7 ▸ Int16.bounds _⟩
  obtain ⟨a, p, ha, hp, hroute⟩ := request_route hrg (e3 ▸ (Int16.bounds _).2)
  obtain rfl : a = j.mac := macText_injective (ha.symm.trans e1.symm)
  obtain rfl : p = { j.position with yaw := (euler j.position).1, pitch := (euler j.position).2.1,
                                     roll := (euler j.position).2.2 } := by
    obtain ⟨p1, p2, p3, p4, p5, p6⟩ := hp
    obtain ⟨x, y, z, yaw, pitch, roll⟩ := p
    simp only [Position.mk.injEq]
    exact ⟨Int16.toInt_inj.mp (p1.trans e2.symm), Int16.toInt_inj.mp (p2.trans e3.symm), Int16.toInt_inj.mp (p3.trans e4.symm),
      Int16.toInt_inj.mp (p4.trans e5.symm), Int8.toInt_inj.mp (p5.trans e6.symm), Int16.toInt_inj.mp (p6.trans e7.symm)⟩
  obtain ⟨g1, g2, g3, g4⟩ := request_step h3 (q := m.request) (by dsimp only; rw [hq]; rfl) hroute hw hn
  refine ⟨by rw [g1]; dsimp only; rw [hq]; rfl, g2, g3, ?_⟩
  rw [g4]
  dsimp only
  rw [List.forall₂_map_right_iff, List.forall₂_same]
  intro e hmem
  by_cases hmac : e.2.mac = j.mac
  · rw [if_pos hmac]
    obtain rfl : e.2 = j := List.inj_on_of_nodup_map hn (AMap.mem_values.mpr ⟨e.1, hmem⟩) hj hmac
    exact ⟨rfl, rfl, rfl, rfl, rfl, rfl, fun hp q => C87_again A euler h e.2.position hp q⟩
  · rw [if_neg hmac]
    exact ⟨rfl, rfl, rfl, rfl, rfl, rfl, fun _ _ => rfl⟩

/-- C91: a device is where it was last put, if the server handles the requests in the order in which they were sent. -/
theorem C91_last_partial (measure : Measure) (hm : Sane measure) (euler : Euler) {w : Web} {s s' t : Editor}
    {a b : List World.Label} {c ls : List Label}
    (hr : Run measure euler CarefulUser (opened w) ((a ++ b ++ [World.Label.state]).map Label.world ++ c) s)
    (hk : (AMap.keys w.devices).Nodup) (hmac : ((AMap.values w.devices).map Info.mac).Nodup)
    (ha : a = [.subscribe, .snapshot] ∨ a = [.snapshot, .subscribe]) (hb : ∀ l ∈ b, ServerStep l) (hc : ∀ l ∈ c, InUse l)
    {r : Ref} {m : Marker} (hl : s.look r = some m) {l : Label} (hg : LetsGo s r l) (hok : CarefulUser s l)
    (hst : Step measure euler s l s') (hr' : Run measure euler CarefulUser s' ls t) (hls : ∀ l ∈ ls, InOrder l) (hq : t.requests = []) :
    ∀ i ∈ AMap.values t.world.web.devices, macText i.mac = m.mac → SameNumbers i.position m := by
  have hS := sound_run (sound_opened w) hr
  have hA := agrees_all hm hr hk hmac ha hb hc
  have hrg := hS.look hl
  have hS' := sound_step hS hst
  have hA' : Agrees measure euler s' := agrees_step hm hS hA (by cases l <;> trivial) hok hst
  have hreq : s'.requests = s.requests ++ [m.request] ∧ m.y ≤ 32767 := by
    cases hst with
    | up =>
      obtain ⟨h1, h2⟩ := hg
      refine ⟨?_, hok h1 r m h2 hl⟩
      unfold Editor.up
      have : (s.dragging || s.lifting) = true := by rcases h1 with h | h <;> rw [h] <;> simp
      rw [this, if_pos rfl, h2, send_some hl]
    | release =>
      refine ⟨?_, hok r m hg hl⟩
      unfold Editor.release
      rw [show s.info = some r from hg, send_some hl]
    | _ => exact hg.elim
  obtain ⟨ad, p, had, hp, hroute⟩ := request_route hrg hreq.2
  have hx : ∀ {u : Editor} {ls : List Label}, Run measure euler CarefulUser s' ls u → (∀ l ∈ ls, InOrder l) →
      Agrees measure euler u ∧ ((∃ qs, u.requests = qs ++ [m.request]) ∨ (u.requests = [] ∧
        ∀ i ∈ AMap.values u.world.web.devices, macText i.mac = m.mac → SameNumbers i.position m)) := by
    intro u ls hru hls
    induction hru with
    | nil => exact ⟨hA', .inl ⟨_, hreq.1⟩⟩
    | @step v u ls l hrv hcv hsv ih =>
      obtain ⟨iA, ih⟩ := ih fun l hl => hls l (List.mem_append_left _ hl)
      have hl := hls l (by simp)
      have hin : InUse l := by
        cases l with
        | world l => rcases hl with rfl | rfl <;> [exact .inl trivial; exact .inr rfl]
        | _ => trivial
      refine ⟨agrees_step hm (sound_run hS' hrv) iA hin hcv hsv, ?_⟩
      have keep : u.requests = v.requests → u.world.web.devices.Perm v.world.web.devices →
          (∃ qs, u.requests = qs ++ [m.request]) ∨ (u.requests = [] ∧
            ∀ i ∈ AMap.values u.world.web.devices, macText i.mac = m.mac → SameNumbers i.position m) := by
        intro h1 h2
        rw [h1]
        rcases ih with ih | ⟨ih1, ih2⟩
        · exact .inl ih
        · refine .inr ⟨ih1, fun i hi => ih2 i ?_⟩
          obtain ⟨k, hk⟩ := AMap.mem_values.mp hi
          exact AMap.mem_values.mpr ⟨k, h2.mem_iff.mp hk⟩
      cases hsv with
      | world h1 h2 h3 =>
        rcases hl with rfl | rfl
        · cases h3 with
          | shuffle h3 => exact keep rfl h3
        · exact absurd rfl h2
      | state => rcases hl with h | h <;> cases h
      | event h1 =>
        rename_i x xs
        have := handles_frame (understood x) { v with world := { v.world with stream := some xs } }
        exact keep this.1 (by rw [this.2])
      | handle => exact keep rfl (.refl _)
      | marker => exact keep rfl (.refl _)
      | ground => exact keep rfl (.refl _)
      | move =>
        rename_i x y d
        have := move_frame v x y d
        exact keep this.1 (by rw [this.2])
      | up => exact hl.elim
      | slide =>
        rename_i ax x q _ _ _
        have := put_frame v (ax.set x) q
        exact keep this.1 (by show List.Perm (v.put (ax.set x) q).world.web.devices _; rw [this.2])
      | release => exact hl.elim
      | request h1 h2 h3 =>
        rcases ih with ⟨qs, ih⟩ | ⟨ih1, -⟩
        · obtain rfl : _ = 0 := hl
          cases qs with
          | cons q qs => exact .inl ⟨qs, by dsimp only; rw [ih]; rfl⟩
          | nil =>
            obtain ⟨es, g, q, f1, f2, f3, -⟩ := iA.shadow
            obtain ⟨g1, -, -, g4⟩ := request_step (Step.request h1 h2 h3 : Step measure euler v _ _) (q := m.request)
              (by rw [ih]; rfl) hroute f3.sound f3.macs
            refine .inr ⟨g1.trans (by rw [ih]; rfl), fun i hi him => ?_⟩
            rw [g4] at hi
            obtain ⟨k, hk⟩ := AMap.mem_values.mp hi
            obtain ⟨e, he, hek⟩ := List.mem_map.mp hk
            split at hek
            · cases hek
              exact hp
            · rename_i hne
              cases hek
              exact absurd (macText_injective (him.trans had)) hne
        · obtain rfl : _ = 0 := hl
          rw [ih1] at h1
          cases h1
  obtain ⟨-, ⟨qs, h⟩ | ⟨-, h⟩⟩ := hx hr' hls
  · rw [hq] at h; simp at h
  · exact h

namespace Tour

/-- A server with one device. -/
def web (p : Position) : Web := ⟨[(0, ⟨.uci, pageMac, p⟩)], false⟩

/-- The page of this server, with one marker. -/
def page (p : Position) (m : Marker) : Editor :=
  ⟨⟨web p, [m], some [], none, false⟩, none, none, false, false, false, [], []⟩

/-- The steps of the loading. -/
def load : List Label := [World.Label.subscribe, .snapshot, .state].map Label.world

variable {measure : Measure} {euler : Euler} {ok : Editor → Label → Prop}

theorem loaded (hok : ∀ s l, FitsStep s.world l → ok s (.world l)) (p : Position) :
    Run measure euler ok (opened (web p)) load (page p (Page.marker euler pageMac p [])) := by
  have r := Run.nil (measure := measure) (euler := euler) (ok := ok) (s := opened (web p))
  have r := r.step (l := .world .subscribe) (hok _ _ trivial) (.world (by simp) (by simp) (.subscribe rfl))
  have r := r.step (l := .world .snapshot) (hok _ _ trivial) (.world (by simp) (by simp) (.snapshot rfl))
  have h := Step.state (measure := measure) (euler := euler) (s := ⟨⟨web p, [], some [],
    some (WebText.state euler [⟨.uci, pageMac, p⟩]), false⟩, none, none, false, false, false, [], []⟩) rfl
  unfold Editor.receive at h
  rw [Page.receive_state] at h
  exact r.step (l := .world .state) (hok _ _ trivial) h

section
variable {pg : Page} {es : List Text} {sel inf : Option Ref} {dr li sl : Bool} {past : List Marker} {rs : List (Text × Bytes)}

/-- The server handles a request of the page. -/
theorem served (p : Position) {q : Position} {i : Nat} {m : Marker}
    (hq : rs[i]? = some m.request) (hr : route JsonBody.parse m.request.1 (some m.request.2) = .setPosition pageMac q) :
    Step measure euler ⟨⟨web p, pg, some es, none, false⟩, sel, inf, dr, li, sl, past, rs⟩ (.request i)
      ⟨⟨web q, pg, some (es ++ [WebText.item euler (.updated .uci pageMac q)]), none, false⟩, sel, inf, dr, li, sl, past,
        rs.eraseIdx i⟩ :=
  .request (path := m.request.1) (body := m.request.2) (heard := Web.always) (web := web q) (es := [.updated .uci pageMac q])
    (reply := .status 200) hq (fun _ _ => rfl) (by
      rw [hr]
      simp [Web.act, Web.setPosition, web, Web.place, Web.neighbors, AMap.values, Web.always])

/-- The page handles the event that follows. -/
theorem updated {w : Web} {q : Position} {m : Marker} {ts : List Text} (hm : m.mac = macText pageMac) :
    Step measure euler ⟨⟨w, [m], some (WebText.item euler (.updated .uci pageMac q) :: ts), none, false⟩, sel, inf, dr, li, sl,
        past, rs⟩ (.world .event)
      ⟨⟨w, [Page.marker euler pageMac q m.neighbors], some ts, none, false⟩, sel, inf, dr, li, sl, past, rs⟩ := by
  have := Step.event (measure := measure) (euler := euler) (s := ⟨⟨w, [m],
    some (WebText.item euler (.updated .uci pageMac q) :: ts), none, false⟩, sel, inf, dr, li, sl, past, rs⟩) rfl
  rw [World.understood_item, List.foldl_cons, List.foldl_nil, Editor.handle_updated] at this
  simp only [Page.change, hm, if_true] at this
  exact this

end

end Tour

/-- The request for a marker as it was made. -/
theorem Tour.route (euler : Euler) (p : Position) (ns : List Neighbor) : ∃ q,
    SameNumbers q (Page.marker euler pageMac p ns) ∧
    Pica.route JsonBody.parse (Page.marker euler pageMac p ns).request.1 (some (Page.marker euler pageMac p ns).request.2) =
      .setPosition pageMac q := by
  obtain ⟨a, q, h1, h2, h3⟩ := request_route (Page.marker_ranged euler pageMac p ns) (Int16.bounds _).2
  obtain rfl := macText_injective (m := pageMac) h1
  exact ⟨q, h2, h3⟩

/-- The mouse is pressed on the marker of a device, and its yaw is set: a run in which C91_select, C91_turn and C91_held speak
of something. -/
example (measure : Measure) (euler : Euler) : ∃ ls s t,
    Run measure euler CarefulUser (opened (Tour.web .default)) (Tour.load ++ ls) s ∧ Step measure euler s (.slide .yaw 30) t ∧
    target s s.info = some (macText pageMac) ∧ target t t.info = target s s.info ∧
    (t.info.bind t.look).map Marker.yaw = some 30 := by
  have r := Tour.loaded (measure := measure) (euler := euler) (ok := CarefulUser) (fun _ _ h => h) .default
  have r := r.step (l := .down (.marker 0)) ⟨rfl, rfl, rfl⟩ (.marker Nat.zero_lt_one)
  exact ⟨_, _, _, r, .slide rfl (by decide) (by decide), rfl, rfl, rfl⟩

/-- C91 does not hold of a device lifted above 32767: the server refuses the request, and the page goes on to show a position
that the device does not have. -/
theorem C91_high_false (measure : Measure) (euler : Euler) : ∃ ls t,
    Run measure euler (fun s l => l = .up ∨ CarefulUser s l) (opened (Tour.web .default)) (Tour.load ++ ls) t ∧
    (∀ l ∈ ls, InUse l) ∧ t.world.threw = false ∧ Idle t ∧ t.world.stream = some [] ∧
    ¬ Shows euler t.world.web t.world.page := by
  obtain ⟨p, hp, hr⟩ := Tour.route euler .default []
  have r := Tour.loaded (measure := measure) (euler := euler) (ok := fun s l => l = .up ∨ CarefulUser s l)
    (fun _ _ h => .inr h) .default
  have r := r.step (l := .down (.marker 0)) (.inr ⟨rfl, rfl, rfl⟩) (.marker Nat.zero_lt_one)
  have r := r.step (l := .up) (.inl rfl) .up
  have r := r.step (l := .request 0) (.inr trivial) (Tour.served .default rfl hr)
  have r := r.step (l := .world .event) (.inr trivial) (Tour.updated rfl)
  have r := r.step (l := .down .handle) (.inr ⟨rfl, rfl, rfl⟩) (.handle rfl)
  have r := r.step (l := .move 0 0 (-16384)) (.inr trivial) .move
  have r := r.step (l := .up) (.inl rfl) .up
  have hy : p.y.toInt = 0 := hp.2.1
  have h2 := request_high (m := (Page.marker euler pageMac p []).lift (-16384))
    ((Page.marker_ranged euler pageMac p []).lift _) (by
      show _ < p.y.toInt - min (-16384 * 2) p.y.toInt
      rw [hy]; decide)
  have r := r.step (l := .request 0) (.inr trivial) (.request (heard := Web.always) (es := []) (reply := .status 406)
    rfl (fun _ _ => rfl) (by
      show Web.act _ _ _ (route JsonBody.parse ((Page.marker euler pageMac p []).lift (-16384)).request.1
        (some ((Page.marker euler pageMac p []).lift (-16384)).request.2)) = _
      rw [h2]; rfl))
  refine ⟨[.down (.marker 0), .up, .request 0, .world .event, .down .handle, .move 0 0 (-16384), .up, .request 0], _, r, ?_,
    rfl, ⟨rfl, rfl, rfl, rfl⟩, rfl, ?_⟩
  · intro l hl
    simp only [List.mem_cons, List.not_mem_nil, or_false] at hl
    rcases hl with rfl | rfl | rfl | rfl | rfl | rfl | rfl | rfl <;> first | trivial | exact .inr rfl
  · intro h
    have h : List.Perm [shown ((Page.marker euler pageMac p []).lift (-16384))] [facts euler ⟨.uci, pageMac, p⟩] := h
    have h := congrArg (fun x => x.2.2.1) (List.singleton_perm_singleton.mp h)
    have h : p.y.toInt - min (-16384 * 2) p.y.toInt = p.y.toInt := h
    rw [hy] at h
    exact absurd h (by decide)

/-- C91 does not hold if a second button of the mouse is pressed while a device is dragged: the device is no longer selected, the
end of the movement raises an exception, and the page goes on to show a position that the device does not have. -/
theorem C91_buttons_false (measure : Measure) (euler : Euler) : ∃ ls t,
    Run measure euler (fun s l => l = .down .ground ∨ CarefulUser s l) (opened (Tour.web .default)) (Tour.load ++ ls) t ∧
    (∀ l ∈ ls, InUse l) ∧ t.world.threw = true ∧ Idle t ∧ t.world.stream = some [] ∧
    ¬ Shows euler t.world.web t.world.page := by
  have r := Tour.loaded (measure := measure) (euler := euler) (ok := fun s l => l = .down .ground ∨ CarefulUser s l)
    (fun _ _ h => .inr h) .default
  have r := r.step (l := .down (.marker 0)) (.inr ⟨rfl, rfl, rfl⟩) (.marker Nat.zero_lt_one)
  have r := r.step (l := .move (-5) 0 0) (.inr trivial) .move
  have r := r.step (l := .down .ground) (.inl rfl) .ground
  have r := r.step (l := .up) (.inr fun _ _ _ h => by cases h) .up
  refine ⟨[.down (.marker 0), .move (-5) 0 0, .down .ground, .up], _, r, ?_, rfl, ⟨rfl, rfl, rfl, rfl⟩, rfl, ?_⟩
  · intro l hl
    simp only [List.mem_cons, List.not_mem_nil, or_false] at hl
    rcases hl with rfl | rfl | rfl | rfl <;> trivial
  · intro h
    have h : List.Perm [shown ((Page.marker euler pageMac .default []).drag (-5) 0)] [facts euler ⟨.uci, pageMac, .default⟩] := h
    have h := congrArg (fun x => x.2.1) (List.singleton_perm_singleton.mp h)
    have h : min (max (⌊-(-5 : Rat)⌋ + 0) (-600 + 40)) (600 - 40) = 0 := h
    rw [neg_neg, show (5 : Rat) = ((5 : Int) : Rat) by norm_num, Int.floor_intCast] at h
    exact absurd h (by decide)

/-- C91 does not hold of two quick movements: if the server handles the second request first, the device ends where it was put
first. -/
theorem C91_last_false (measure : Measure) (euler : Euler) : ∃ ls s l s' ls' t r m,
    Run measure euler CarefulUser (opened (Tour.web .default)) (Tour.load ++ ls) s ∧ (∀ l ∈ ls, InUse l) ∧
    s.look r = some m ∧ LetsGo s r l ∧ CarefulUser s l ∧ Step measure euler s l s' ∧
    Run measure euler CarefulUser s' ls' t ∧ (∀ l ∈ ls', InUse l) ∧ Idle t ∧ t.world.stream = some [] ∧
    ∃ i ∈ AMap.values t.world.web.devices, macText i.mac = m.mac ∧ ¬ SameNumbers i.position m := by
  obtain ⟨p, hp, hr⟩ := Tour.route euler .default []
  have hg : ((Page.marker euler pageMac .default []).lift (-1)).Ranged := (Page.marker_ranged euler pageMac .default []).lift _
  have hy : ((Page.marker euler pageMac .default []).lift (-1)).y = 2 := rfl
  obtain ⟨a, q, ha, hq, hr2⟩ := request_route hg (by rw [hy]; decide)
  obtain rfl := macText_injective (m := a) (n := pageMac) (ha.symm.trans rfl)
  have r := Tour.loaded (measure := measure) (euler := euler) (ok := CarefulUser) (fun _ _ h => h) .default
  have r := r.step (l := .down (.marker 0)) ⟨rfl, rfl, rfl⟩ (.marker Nat.zero_lt_one)
  have r := r.step (l := .up) (fun _ r m h1 h2 => by cases h1; cases h2; show (0 : Int) ≤ 32767; decide) .up
  have r := r.step (l := .down .handle) ⟨rfl, rfl, rfl⟩ (.handle rfl)
  have r := r.step (l := .move 0 0 (-1)) trivial .move
  have r' := Run.nil (measure := measure) (euler := euler) (ok := CarefulUser)
    (s := ⟨⟨Tour.web .default, [(Page.marker euler pageMac .default []).lift (-1)], some [], none, false⟩, some (.listed 0),
      some (.listed 0), false, false, false, [],
      [(Page.marker euler pageMac .default []).request, ((Page.marker euler pageMac .default []).lift (-1)).request]⟩)
  have r' := r'.step (l := .request 1) trivial (Tour.served .default rfl hr2)
  have r' := r'.step (l := .request 0) trivial (Tour.served q rfl hr)
  have r' := r'.step (l := .world .event) trivial (Tour.updated rfl)
  have r' := r'.step (l := .world .event) trivial (Tour.updated rfl)
  refine ⟨[.down (.marker 0), .up, .down .handle, .move 0 0 (-1)], _, .up, _,
    [.request 1, .request 0, .world .event, .world .event], _, .listed 0, (Page.marker euler pageMac .default []).lift (-1), r,
    ?_, rfl, ⟨.inr rfl, rfl⟩, fun _ r m h1 h2 => ?_, .up, r', ?_, ⟨rfl, rfl, rfl, rfl⟩, rfl, ⟨.uci, pageMac, p⟩, ?_, rfl, ?_⟩
  · intro l hl
    simp only [List.mem_cons, List.not_mem_nil, or_false] at hl
    rcases hl with rfl | rfl | rfl | rfl <;> trivial
  · cases h1; cases h2; exact hy.trans_le (by decide)
  · intro l hl
    simp only [List.mem_cons, List.not_mem_nil, or_false] at hl
    rcases hl with rfl | rfl | rfl | rfl <;> first | trivial | exact .inr rfl
  · exact List.mem_cons_self
  · intro h
    have h1 := h.2.1.trans hy
    have h2 : p.y.toInt = 0 := hp.2.1
    rw [h2] at h1
    exact absurd h1 (by decide)

/-- A device is dragged to a place between the lines, and the server told. -/
example (measure : Measure) (euler : Euler) : ∃ s l s' t q,
    Run measure euler CarefulUser (opened (Tour.web .default)) (Tour.load ++ [.down (.marker 0), .move (-11/2) 7 1]) s ∧
    s.dragging = true ∧ s.lifting = false ∧ s.selected = some (.listed 0) ∧ OnGrid (below 0 (-11/2) 7) ∧
    s.look (.listed 0) = some { Page.marker euler pageMac .default [] with x := 5, z := 7 } ∧
    LetsGo s (.listed 0) l ∧ CarefulUser s l ∧ Step measure euler s l s' ∧
    Run measure euler CarefulUser s' [.request 0, .world .event] t ∧ Idle t ∧ t.world.stream = some [] ∧
    t.world.web = Tour.web q ∧ q.x.toInt = 5 ∧ q.z.toInt = 7 ∧ t.world.page = [Page.marker euler pageMac q []] := by
  let m : Marker := { Page.marker euler pageMac .default [] with x := 5, z := 7 }
  have hd : (Page.marker euler pageMac .default []).drag (-11/2) 7 = m := by
    have h1 : ⌊(-(-11/2) : Rat)⌋ = 5 := by rw [Int.floor_eq_iff]; norm_num
    have h2 : ⌊(7 : Rat)⌋ = 7 := by rw [Int.floor_eq_iff]; norm_num
    unfold Marker.drag
    rw [h1, h2]
    rfl
  have hg : m.Ranged := hd ▸ (Page.marker_ranged euler pageMac .default []).drag _ _
  obtain ⟨a, q, ha, hq, hr⟩ := request_route hg (by show (0 : Int) ≤ 32767; decide)
  obtain rfl := macText_injective (m := pageMac) ha
  have r := Tour.loaded (measure := measure) (euler := euler) (ok := CarefulUser) (fun _ _ h => h) .default
  have r := r.step (l := .down (.marker 0)) ⟨rfl, rfl, rfl⟩ (.marker Nat.zero_lt_one)
  have r := r.step (l := .move (-11/2) 7 1) trivial .move
  have e : ((Tour.page .default (Page.marker euler pageMac .default [])).down (.marker 0)).move (-11/2) 7 1 =
      ⟨⟨Tour.web .default, [m], some [], none, false⟩, some (.listed 0), some (.listed 0), true, false, false, [], []⟩ := by
    show (⟨⟨Tour.web .default, [(Page.marker euler pageMac .default []).drag (-11/2) 7], some [], none, false⟩,
      some (.listed 0), some (.listed 0), true, false, false, [], []⟩ : Editor) = _
    rw [hd]
  rw [e] at r
  have r' := Run.nil (measure := measure) (euler := euler) (ok := CarefulUser)
    (s := ⟨⟨Tour.web .default, [m], some [], none, false⟩, some (.listed 0), some (.listed 0), false, false, false, [],
      [m.request]⟩)
  have r' := r'.step (l := .request 0) trivial (Tour.served .default rfl hr)
  have r' := r'.step (l := .world .event) trivial (Tour.updated rfl)
  refine ⟨_, .up, _, _, q, r, rfl, rfl, rfl, ?_, rfl, ⟨.inl rfl, rfl⟩, fun _ r n h1 h2 => ?_, .up, r', ⟨rfl, rfl, rfl, rfl⟩, rfl,
    rfl, hq.1, hq.2.2.1, rfl⟩
  · unfold below OnGrid
    norm_num
  · cases h1; cases h2; show (0 : Int) ≤ 32767; decide

/-- A click on a device that is turned over. -/
example (measure : Measure) : ∃ t, Run measure (exactAngles .ieee) (fun _ _ => True)
    (Tour.page ⟨1, 2, 3, 10, -120, 0⟩ (Page.marker (exactAngles .ieee) pageMac ⟨1, 2, 3, 10, -120, 0⟩ []))
      [.down (.marker 0), .up, .request 0] t ∧
    Shows (exactAngles .ieee) (Tour.web ⟨1, 2, 3, 10, -120, 0⟩)
      [Page.marker (exactAngles .ieee) pageMac ⟨1, 2, 3, 10, -120, 0⟩ []] ∧ ∃ q, q.pitch.toInt = -60 ∧ t.world.web = Tour.web q := by
  obtain ⟨q, hq, hr⟩ := Tour.route (exactAngles .ieee) ⟨1, 2, 3, 10, -120, 0⟩ []
  have r := Run.nil (measure := measure) (euler := exactAngles .ieee) (ok := fun _ _ => True)
    (s := Tour.page ⟨1, 2, 3, 10, -120, 0⟩ (Page.marker (exactAngles .ieee) pageMac ⟨1, 2, 3, 10, -120, 0⟩ []))
  have r := r.step (l := .down (.marker 0)) trivial (.marker Nat.zero_lt_one)
  have r := r.step (l := .up) trivial .up
  have r := r.step (l := .request 0) trivial (Tour.served _ rfl hr)
  refine ⟨_, r, List.Perm.refl _, q, ?_, rfl⟩
  obtain ⟨h0, -⟩ := C87_over .ieee _ (exactAngles_shown _) ⟨1, 2, 3, 10, -120, 0⟩ (by decide)
  exact hq.2.2.2.2.1.trans (h0.trans (by decide))

/-- The handle, and the ground. -/
example (measure : Measure) (euler : Euler) (s : Editor) (m : Marker) (hs : s.lifting = true) (hd : s.dragging = false)
    (hr : s.selected = some (.listed 0)) (hm : s.look (.listed 0) = some m) (hy : m.y = 10) :
    ∃ t n, Step measure euler s (.move 0 0 100) t ∧ t.look (.listed 0) = some n ∧ n.y = 0 := by
  have h := C91_lift (measure := measure) (euler := euler) (x := 0) (y := 0) (d := 100) .move hd hs hr hm
  exact ⟨_, _, .move, h.1, by rw [hy]; rfl⟩

/-- A movement after a second button has been pressed. -/
example (measure : Measure) (euler : Euler) : ∃ s t,
    Run measure euler (fun s l => l = .down .ground ∨ CarefulUser s l) (opened (Tour.web .default))
      (Tour.load ++ [.down (.marker 0), .down .ground]) s ∧
    s.world.threw = false ∧ s.dragging = true ∧ s.selected = none ∧ Step measure euler s (.move 3 4 0) t ∧ t.world.threw = true := by
  have r := Tour.loaded (measure := measure) (euler := euler) (ok := fun s l => l = .down .ground ∨ CarefulUser s l)
    (fun _ _ h => .inr h) .default
  have r := r.step (l := .down (.marker 0)) (.inr ⟨rfl, rfl, rfl⟩) (.marker Nat.zero_lt_one)
  have r := r.step (l := .down .ground) (.inl rfl) .ground
  exact ⟨_, _, r, rfl, rfl, rfl, .move, (((C91_throws (measure := measure) (euler := euler) rfl).1 _ _ _ .move).1).mpr ⟨.inl rfl, rfl⟩⟩

end Pica.Props
