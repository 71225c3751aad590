import Verif.Spec.Page
import Verif.Proofs.Http
import Verif.Props.WebText
import Verif.Props.MacAddress
import Mathlib.Data.List.Nodup
/-! The page of the web server follows the registry. -/

namespace Pica
open Spec

theorem macText_injective {m n : MacAddress} (h : macText m = macText n) : m = n := by
  rw [WebText.macText_eq, WebText.macText_eq] at h
  exact Props.C01_display_injective m n h

namespace Page

/-- What a listener gets for an event. -/
def msg (euler : Euler) (e : WebEvent) : Text × Option Spec.Json.Value := ((eventContent euler e).1, some (eventContent euler e).2)

/-- A new marker. -/
def marker (euler : Euler) (m : MacAddress) (p : Position) (ns : List Neighbor) : Marker :=
  ⟨macText m, p.x.toInt, p.y.toInt, p.z.toInt, (euler p).1.toInt, (euler p).2.1.toInt, (euler p).2.2.toInt, ns⟩

theorem parse_fields (euler : Euler) (c : Category) (m : MacAddress) (p : Position) :
    parseDevice (.obj (deviceFields euler c m p)) = some (marker euler m p []) := rfl

theorem handle_added (euler : Euler) (page : Page) (c : Category) (m : MacAddress) (p : Position) :
    page.handle (msg euler (.added c m p)) = some (page ++ [marker euler m p []]) := rfl

theorem handle_removed (euler : Euler) (page : Page) (c : Category) (m : MacAddress) :
    page.handle (msg euler (.removed c m)) = some ((page.filter fun x => decide (x.mac ≠ macText m)).map fun x =>
      { x with neighbors := x.neighbors.filter fun n => decide (n.mac ≠ macText m) }) := rfl

theorem handle_updated (euler : Euler) (page : Page) (c : Category) (m : MacAddress) (p : Position) :
    page.handle (msg euler (.updated c m p)) = change (macText m) (fun x => marker euler m p x.neighbors) page := rfl

theorem handle_neighbor (euler : Euler) (page : Page) (s d : Category × MacAddress) (x : RangingMeasurement) :
    page.handle (msg euler (.neighbor s d x)) = change (macText s.2) (fun m =>
      { m with neighbors := link ⟨macText d.2, x.range.toNat, x.azimuth.toInt, x.elevation.toInt⟩ m.neighbors }) page := rfl

theorem receive_state (euler : Euler) (devices : List Info) :
    receive (WebText.state euler devices) = some (devices.map fun i => marker euler i.mac i.position []) := by
  unfold receive
  rw [Props.C79_state]
  show List.mapM parseDevice (devices.map fun i => .obj (deviceFields euler i.category i.mac i.position)) = _
  induction devices with
  | nil => rfl
  | cons i is ih =>
    rw [List.map_cons, List.mapM_cons, ih, parse_fields]
    rfl

theorem change_eq {mac : Text} {f : Marker → Marker} {page : Page} (hn : (page.map Marker.mac).Nodup)
    (hm : mac ∈ page.map Marker.mac) : change mac f page = some (page.map fun m => if m.mac = mac then f m else m) := by
  induction page with
  | nil => cases hm
  | cons m r ih =>
    rw [List.map_cons, List.nodup_cons] at hn
    unfold change
    by_cases h : m.mac = mac
    · rw [if_pos h, List.map_cons, if_pos h]
      have : r.map (fun m => if m.mac = mac then f m else m) = r := by
        conv_rhs => rw [← List.map_id r]
        refine List.map_congr_left fun x hx => if_neg fun hx' => hn.1 ?_
        rw [h, ← hx']
        exact List.mem_map_of_mem hx
      rw [this]
    · rw [if_neg h, List.map_cons, if_neg h, ih hn.2]
      · rfl
      · rcases List.mem_cons.mp hm with hm | hm
        · exact absurd hm.symm h
        · exact hm

theorem mem_link {n : Neighbor} {ns : List Neighbor} (hn : (ns.map Neighbor.mac).Nodup) {x : Neighbor} (hx : x ∈ link n ns) :
    x = n ∨ (x ∈ ns ∧ x.mac ≠ n.mac) := by
  induction ns with
  | nil => exact .inl (by simpa [link] using hx)
  | cons m r ih =>
    rw [List.map_cons, List.nodup_cons] at hn
    unfold link at hx
    split at hx
    · rename_i h
      rcases List.mem_cons.mp hx with rfl | hx
      · exact .inl rfl
      · refine .inr ⟨List.mem_cons_of_mem _ hx, fun hc => hn.1 ?_⟩
        rw [h, ← hc]
        exact List.mem_map_of_mem hx
    · rename_i h
      rcases List.mem_cons.mp hx with rfl | hx
      · exact .inr ⟨List.mem_cons_self, h⟩
      · exact (ih hn.2 hx).imp id fun h => ⟨List.mem_cons_of_mem _ h.1, h.2⟩

theorem nodup_link {n : Neighbor} {ns : List Neighbor} (hn : (ns.map Neighbor.mac).Nodup) :
    ((link n ns).map Neighbor.mac).Nodup := by
  induction ns with
  | nil => simp [link]
  | cons m r ih =>
    have hn' := hn
    rw [List.map_cons, List.nodup_cons] at hn'
    unfold link
    split
    · rename_i h
      rw [List.map_cons, ← h]
      exact hn
    · rename_i h
      rw [List.map_cons, List.nodup_cons]
      refine ⟨fun hc => ?_, ih hn'.2⟩
      obtain ⟨x, hx, he⟩ := List.mem_map.mp hc
      rcases mem_link hn'.2 hx with rfl | hx
      · exact h he.symm
      · exact hn'.1 (he ▸ List.mem_map_of_mem hx.1)

/-- The measurement of two devices is what the page has. -/
def Right (measure : Measure) (i j : Info) (n : Neighbor) : Prop :=
  ∃ x, measure i.position j.position = .ok x ∧ n.distance = x.range.toNat ∧ n.azimuth = x.azimuth.toInt ∧
    n.elevation = x.elevation.toInt

/-- As `NeighborsRight`, except for some pairs of addresses. -/
def Semi (measure : Measure) (is : List Info) (stale : MacAddress → MacAddress → Prop) (page : Page) : Prop :=
  ∀ m ∈ page, (m.neighbors.map Neighbor.mac).Nodup ∧
    ∀ n ∈ m.neighbors, ∃ i ∈ is, ∃ j ∈ is, macText i.mac = m.mac ∧ macText j.mac = n.mac ∧ i.mac ≠ j.mac ∧
      (Right measure i j n ∨ stale i.mac j.mac)

theorem semi_right {measure : Measure} {w : Web} {page : Page} :
    NeighborsRight measure w page ↔ Semi measure (AMap.values w.devices) (fun _ _ => False) page := by
  constructor
  · intro h m hm
    refine ⟨(h m hm).1, fun n hn => ?_⟩
    obtain ⟨i, hi, j, hj, x, h1, h2, h3, h4⟩ := (h m hm).2 n hn
    exact ⟨i, hi, j, hj, h1, h2, h3, .inl ⟨x, h4⟩⟩
  · intro h m hm
    refine ⟨(h m hm).1, fun n hn => ?_⟩
    obtain ⟨i, hi, j, hj, h1, h2, h3, h4⟩ := (h m hm).2 n hn
    obtain ⟨x, h4⟩ := h4.resolve_right id
    exact ⟨i, hi, j, hj, x, h1, h2, h3, h4⟩

theorem semi_mono {measure : Measure} {is : List Info} {st st' : MacAddress → MacAddress → Prop} {page : Page}
    (h : Semi measure is st page) (hs : ∀ i ∈ is, ∀ j ∈ is, i.mac ≠ j.mac → st i.mac j.mac → st' i.mac j.mac) :
    Semi measure is st' page := fun m hm => ⟨(h m hm).1, fun n hn => by
  obtain ⟨i, hi, j, hj, h1, h2, h3, h4⟩ := (h m hm).2 n hn
  exact ⟨i, hi, j, hj, h1, h2, h3, h4.imp id (hs i hi j hj h3)⟩⟩

/-- One event about a neighbor. -/
theorem semi_neighbor {measure : Measure} {euler : Euler} {is : List Info} {st : MacAddress → MacAddress → Prop} {page : Page}
    (hs : Semi measure is st page) (hp : (page.map shown).Perm (is.map (facts euler))) (hn : (is.map Info.mac).Nodup)
    {i j : Info} (hi : i ∈ is) (hj : j ∈ is) (hij : i.mac ≠ j.mac) {x : RangingMeasurement}
    (hx : measure i.position j.position = .ok x) {a b : Category} :
    ∃ page', page.handle (msg euler (.neighbor (a, i.mac) (b, j.mac) x)) = some page' ∧
      page'.map shown = page.map shown ∧ Semi measure is (fun s d => st s d ∧ ¬(s = i.mac ∧ d = j.mac)) page' := by
  have hperm : (page.map Marker.mac).Perm (is.map fun i => macText i.mac) := by
    have := hp.map Prod.fst
    rw [List.map_map, List.map_map] at this
    exact this
  have hnod : (page.map Marker.mac).Nodup := by
    rw [hperm.nodup_iff]
    have := hn.map (f := macText) fun _ _ h => macText_injective h
    rwa [List.map_map] at this
  have hin : macText i.mac ∈ page.map Marker.mac := hperm.mem_iff.mpr (List.mem_map_of_mem (f := fun i : Info => macText i.mac) hi)
  rw [handle_neighbor, change_eq hnod hin]
  refine ⟨_, rfl, ?_, ?_⟩
  · rw [List.map_map]
    refine List.map_congr_left fun m _ => ?_
    dsimp only [Function.comp]
    split <;> rfl
  · intro m' hm'
    obtain ⟨m, hm, rfl⟩ := List.mem_map.mp hm'
    obtain ⟨h1, h2⟩ := hs m hm
    by_cases hc : m.mac = macText i.mac
    · rw [if_pos hc]
      refine ⟨nodup_link h1, fun n hn' => ?_⟩
      rcases mem_link h1 hn' with rfl | ⟨hn', hne⟩
      · exact ⟨i, hi, j, hj, hc.symm, rfl, hij, .inl ⟨x, hx, rfl, rfl, rfl⟩⟩
      · obtain ⟨i', hi', j', hj', e1, e2, e3, e4⟩ := h2 n hn'
        exact ⟨i', hi', j', hj', e1, e2, e3, e4.imp id fun h => ⟨h, fun h' => hne (by rw [← e2, h'.2])⟩⟩
    · rw [if_neg hc]
      refine ⟨h1, fun n hn' => ?_⟩
      obtain ⟨i', hi', j', hj', e1, e2, e3, e4⟩ := h2 n hn'
      exact ⟨i', hi', j', hj', e1, e2, e3, e4.imp id fun h => ⟨h, fun h' => hc (by rw [← e1, h'.1])⟩⟩

/-- The events, one after the other. -/
def after (euler : Euler) : Page → List WebEvent → Option Page
  | page, [] => some page
  | page, e :: es => (page.handle (msg euler e)).bind fun page => after euler page es

theorem after_append {euler : Euler} {page : Page} {es fs : List WebEvent} :
    after euler page (es ++ fs) = (after euler page es).bind fun page => after euler page fs := by
  induction es generalizing page with
  | nil => rfl
  | cons e es ih =>
    rw [List.cons_append, after, after]
    cases page.handle (msg euler e) with
    | none => rfl
    | some p => exact ih

/-- The events about all neighbors. -/
theorem semi_all {measure : Measure} {euler : Euler} {is : List Info} {device : Info} (hd : device ∈ is)
    (hn : (is.map Info.mac).Nodup) {others : List Info} {ess : List (List WebEvent)}
    (hf : List.Forall₂ (About measure device) others ess) (ho : ∀ o ∈ others, o ∈ is ∧ o.mac ≠ device.mac)
    {st : MacAddress → MacAddress → Prop} {page : Page}
    (hs : Semi measure is st page) (hp : (page.map shown).Perm (is.map (facts euler))) :
    ∃ page', after euler page ess.flatten = some page' ∧ page'.map shown = page.map shown ∧
      Semi measure is (fun s d => st s d ∧ ∀ o ∈ others, ¬(s = device.mac ∧ d = o.mac) ∧ ¬(s = o.mac ∧ d = device.mac))
        page' := by
  induction hf generalizing st page with
  | nil => exact ⟨page, rfl, rfl, semi_mono hs fun _ _ _ _ _ h => ⟨h, fun o ho => by cases ho⟩⟩
  | @cons o es os ess hab _ ih =>
    obtain ⟨l, m, hl, hm, rfl⟩ := hab
    obtain ⟨ho1, ho2⟩ := ho o List.mem_cons_self
    obtain ⟨p1, e1, q1, s1⟩ := semi_neighbor (a := device.category) (b := o.category) hs hp hn hd ho1 (Ne.symm ho2) hl
    obtain ⟨p2, e2, q2, s2⟩ := semi_neighbor (a := o.category) (b := device.category) s1 (q1 ▸ hp) hn ho1 hd ho2 hm
    obtain ⟨p3, e3, q3, s3⟩ := ih (fun x hx => ho x (List.mem_cons_of_mem _ hx)) s2 (by rw [q2, q1]; exact hp)
    refine ⟨p3, ?_, by rw [q3, q2, q1], semi_mono s3 ?_⟩
    · show (page.handle _).bind _ = _
      rw [e1]
      show (p1.handle _).bind _ = _
      rw [e2]
      exact e3
    · rintro i - j - - ⟨⟨⟨h1, h2⟩, h3⟩, h4⟩
      refine ⟨h1, fun x hx => ?_⟩
      rcases List.mem_cons.mp hx with rfl | hx
      · exact ⟨h2, h3⟩
      · exact h4 x hx

/-- The page agrees with the registry. -/
structure Good (measure : Measure) (euler : Euler) (w : Web) (page : Page) : Prop where
  sound : w.poisoned = false
  keys : (AMap.keys w.devices).Nodup
  macs : ((AMap.values w.devices).map Info.mac).Nodup
  shows : Shows euler w page
  right : NeighborsRight measure w page

theorem insert_fresh {m : AMap Nat Info} {k : Nat} {v : Info} (h : m.get? k = none) : m.insert k v = m ++ [(k, v)] := by
  induction m with
  | nil => rfl
  | cons e m ih =>
    obtain ⟨k', v'⟩ := e
    rw [AMap.get?_cons] at h
    split at h
    · cases h
    · rename_i hk
      rw [AMap.insert, if_neg hk, ih h]
      rfl

variable {measure : Measure} {euler : Euler}

theorem good_add {w : Web} {page : Page} (g : Good measure euler w page) {c : Category} {mac : MacAddress} {p : Position}
    {h : Nat} (hf : ∀ k i, w.devices.get? k = some i → k ≠ h ∧ i.mac ≠ mac) :
    ∃ page', after euler page [.added c mac p] = some page' ∧
      Good measure euler { w with devices := w.devices.insert h ⟨c, mac, p⟩ } page' := by
  have hno : w.devices.get? h = none := by
    cases hg : w.devices.get? h with
    | none => rfl
    | some i => exact absurd rfl (hf h i hg).1
  have hv : AMap.values (w.devices.insert h ⟨c, mac, p⟩) = AMap.values w.devices ++ [⟨c, mac, p⟩] := by
    rw [insert_fresh hno]
    simp [AMap.values]
  refine ⟨page ++ [marker euler mac p []], rfl, g.sound, AMap.nodup_insert g.keys _ _, ?_, ?_, ?_⟩
  · show (List.map _ (AMap.values (w.devices.insert h _))).Nodup
    rw [hv, List.map_append, List.nodup_append]
    refine ⟨g.macs, by simp, ?_⟩
    intro a ha b hb
    obtain ⟨i, hi, rfl⟩ := List.mem_map.mp ha
    obtain ⟨k, hk⟩ := AMap.mem_values.mp hi
    simp only [List.map_cons, List.map_nil, List.mem_singleton] at hb
    rw [hb]
    exact (hf k i (AMap.get?_of_mem g.keys hk)).2
  · show (List.map _ _).Perm (List.map _ (AMap.values (w.devices.insert h _)))
    rw [hv, List.map_append, List.map_append]
    exact g.shows.append (.refl _)
  · intro m hm
    rcases List.mem_append.mp hm with hm | hm
    · refine ⟨(g.right m hm).1, fun n hn => ?_⟩
      obtain ⟨i, hi, j, hj, r⟩ := (g.right m hm).2 n hn
      refine ⟨i, ?_, j, ?_, r⟩
      · show i ∈ AMap.values (w.devices.insert h _)
        rw [hv]
        exact List.mem_append_left _ hi
      · show j ∈ AMap.values (w.devices.insert h _)
        rw [hv]
        exact List.mem_append_left _ hj
    · rw [List.mem_singleton.mp hm]
      exact ⟨List.nodup_nil, fun n hn => by cases hn⟩

theorem good_remove {w : Web} {page : Page} (g : Good measure euler w page) {c : Category} {mac : MacAddress}
    {h : Nat} (hf : ∀ k i, w.devices.get? k = some i → (k = h ↔ i.mac = mac)) :
    ∃ page', after euler page [.removed c mac] = some page' ∧
      Good measure euler { w with devices := w.devices.erase h } page' := by
  have hv : AMap.values (w.devices.erase h) = (AMap.values w.devices).filter fun i => decide (i.mac ≠ mac) := by
    unfold AMap.values AMap.erase
    rw [List.filter_map]
    congr 1
    refine List.filter_congr fun e he => ?_
    have := hf e.1 e.2 (AMap.get?_of_mem g.keys he)
    simp only [Function.comp, ne_eq, this]
  refine ⟨_, rfl, g.sound, AMap.nodup_erase g.keys _, ?_, ?_, ?_⟩
  · show (List.map _ (AMap.values (w.devices.erase h))).Nodup
    rw [hv]
    exact g.macs.sublist (List.Sublist.map _ List.filter_sublist)
  · show (List.map _ _).Perm (List.map _ (AMap.values (w.devices.erase h)))
    have h1 : ((page.filter fun x => decide (x.mac ≠ macText mac)).map fun x =>
        { x with neighbors := x.neighbors.filter fun n => decide (n.mac ≠ macText mac) }).map shown =
        (page.map shown).filter fun t => decide (t.1 ≠ macText mac) := by
      rw [List.map_map, List.filter_map]
      rfl
    have h2 : ((AMap.values w.devices).filter fun i => decide (i.mac ≠ mac)).map (facts euler) =
        ((AMap.values w.devices).map (facts euler)).filter fun t => decide (t.1 ≠ macText mac) := by
      rw [List.filter_map]
      congr 1
      refine List.filter_congr fun i _ => ?_
      exact decide_eq_decide.mpr (not_congr ⟨fun h => congrArg macText h, macText_injective⟩)
    rw [hv, h1, h2]
    exact g.shows.filter _
  · intro m' hm'
    obtain ⟨m, hm, rfl⟩ := List.mem_map.mp hm'
    obtain ⟨hm, hne⟩ := List.mem_filter.mp hm
    obtain ⟨h1, h2⟩ := g.right m hm
    refine ⟨h1.sublist (List.Sublist.map _ List.filter_sublist), fun n hn => ?_⟩
    obtain ⟨hn, hne'⟩ := List.mem_filter.mp hn
    obtain ⟨i, hi, j, hj, x, e1, e2, r⟩ := h2 n hn
    simp only [decide_eq_true_eq] at hne hne'
    refine ⟨i, ?_, j, ?_, x, e1, e2, r⟩
    · show i ∈ AMap.values (w.devices.erase h)
      rw [hv]
      exact List.mem_filter.mpr ⟨hi, by simpa using fun h => hne (by rw [← e1, h])⟩
    · show j ∈ AMap.values (w.devices.erase h)
      rw [hv]
      exact List.mem_filter.mpr ⟨hj, by simpa using fun h => hne' (by rw [← e2, h])⟩

theorem good_move (hm : Sane measure) {w : Web} {page : Page} (g : Good measure euler w page) (mac : MacAddress) (p : Position) :
    ∃ page', after euler page (w.setPosition measure Web.always mac p).2.1 = some page' ∧
      Good measure euler (w.setPosition measure Web.always mac p).1 page' := by
  unfold Web.setPosition
  rw [g.sound]
  simp only [Bool.false_eq_true, if_false]
  cases hpl : Web.place mac p w.devices with
  | none => exact ⟨page, rfl, g⟩
  | some z =>
    obtain ⟨m', x⟩ := z
    obtain ⟨a, k, i, b, e1, e2, e3, e4⟩ := Web.place_some hpl
    obtain ⟨ess, hf, he⟩ := Web.neighbors_all hm x 1 (AMap.values m')
    have hx : x.mac = mac := by rw [e3]; exact e2
    have hvals : AMap.values m' = (AMap.values w.devices).map fun i => if i.mac = mac then { i with position := p } else i := by
      have hmacs := g.macs
      rw [e1] at hmacs
      rw [e4, e1]
      simp only [AMap.values, List.map_append, List.map_cons] at hmacs ⊢
      rw [List.nodup_append] at hmacs
      obtain ⟨-, hb, hab⟩ := hmacs
      rw [List.nodup_cons] at hb
      have h1 : ∀ v ∈ a.map Prod.snd, (if v.mac = mac then { v with position := p } else v) = v := fun v hv =>
        if_neg fun h => hab _ (List.mem_map_of_mem hv) _ List.mem_cons_self (by rw [h, e2])
      have h2 : ∀ v ∈ b.map Prod.snd, (if v.mac = mac then { v with position := p } else v) = v := fun v hv =>
        if_neg fun h => hb.1 (by rw [e2, ← h]; exact List.mem_map_of_mem hv)
      rw [List.map_congr_left h1, List.map_congr_left h2, if_pos e2, List.map_id', List.map_id', e3]
    have hkeys : AMap.keys m' = AMap.keys w.devices := by
      rw [e4, e1]
      simp [AMap.keys]
    have hmacs' : ((AMap.values m').map Info.mac).Nodup := by
      have : (AMap.values m').map Info.mac = (AMap.values w.devices).map Info.mac := by
        rw [hvals, List.map_map]
        refine List.map_congr_left fun v _ => ?_
        dsimp only [Function.comp]
        split <;> rfl
      rw [this]
      exact g.macs
    have hi : i ∈ AMap.values w.devices := by rw [e1]; simp [AMap.values]
    have hxm : x ∈ AMap.values m' := by rw [e4]; simp [AMap.values]
    simp only [show Web.always 0 = true from rfl, if_true, he]
    -- the marker that moves
    have hperm : (page.map Marker.mac).Perm ((AMap.values w.devices).map fun i => macText i.mac) := by
      have := g.shows.map Prod.fst
      rw [List.map_map, List.map_map] at this
      exact this
    have hnod : (page.map Marker.mac).Nodup := by
      rw [hperm.nodup_iff]
      have := g.macs.map (f := macText) fun _ _ h => macText_injective h
      rwa [List.map_map] at this
    have hin : macText mac ∈ page.map Marker.mac := by
      rw [hperm.mem_iff, ← e2]
      exact List.mem_map_of_mem (f := fun i : Info => macText i.mac) hi
    have hup : page.handle (msg euler (.updated x.category mac p)) =
        some (page.map fun m => if m.mac = macText mac then marker euler mac p m.neighbors else m) := by
      rw [handle_updated, change_eq hnod hin]
    generalize hq : (page.map fun m => if m.mac = macText mac then marker euler mac p m.neighbors else m) = q at hup
    have hshow : (q.map shown).Perm ((AMap.values m').map (facts euler)) := by
      let f := fun t : List Char × Int × Int × Int × Int × Int × Int =>
        if t.1 = macText mac then shown (marker euler mac p []) else t
      have h1 : q.map shown = (page.map shown).map f := by
        rw [← hq, List.map_map, List.map_map]
        refine List.map_congr_left fun m _ => ?_
        show shown (if m.mac = macText mac then _ else m) = if m.mac = macText mac then _ else shown m
        split <;> rfl
      have h2 : (AMap.values m').map (facts euler) = ((AMap.values w.devices).map (facts euler)).map f := by
        rw [hvals, List.map_map, List.map_map]
        refine List.map_congr_left fun v _ => ?_
        show facts euler (if v.mac = mac then _ else v) = if macText v.mac = macText mac then _ else facts euler v
        by_cases hv : v.mac = mac
        · rw [if_pos hv, if_pos (by rw [hv]), ← hv]
          rfl
        · rw [if_neg hv, if_neg fun h => hv (macText_injective h)]
      rw [h1, h2]
      exact g.shows.map f
    have hsemi : Semi measure (AMap.values m') (fun s d => s = mac ∨ d = mac) q := by
      intro m' hm'
      rw [← hq] at hm'
      obtain ⟨m, hm, rfl⟩ := List.mem_map.mp hm'
      have hmac : (if m.mac = macText mac then marker euler mac p m.neighbors else m).mac = m.mac := by
        split
        · rename_i h; exact h.symm
        · rfl
      have hnb : (if m.mac = macText mac then marker euler mac p m.neighbors else m).neighbors = m.neighbors := by
        split <;> rfl
      rw [hmac, hnb]
      obtain ⟨h1, h2⟩ := g.right m hm
      refine ⟨h1, fun n hn => ?_⟩
      obtain ⟨i', hi', j', hj', y, r1, r2, r3, r4⟩ := h2 n hn
      have keep : ∀ v ∈ AMap.values w.devices, (if v.mac = mac then { v with position := p } else v) ∈ AMap.values m' := by
        intro v hv
        rw [hvals]
        exact List.mem_map_of_mem hv
      have hm1 : ∀ v : Info, (if v.mac = mac then { v with position := p } else v).mac = v.mac := by
        intro v
        split <;> rfl
      refine ⟨_, keep i' hi', _, keep j' hj', by rw [hm1]; exact r1, by rw [hm1]; exact r2, by rw [hm1, hm1]; exact r3, ?_⟩
      by_cases hi : i'.mac = mac
      · exact .inr (.inl (by rw [hm1]; exact hi))
      · by_cases hj : j'.mac = mac
        · exact .inr (.inr (by rw [hm1]; exact hj))
        · rw [if_neg hi, if_neg hj]
          exact .inl ⟨y, r4⟩
    obtain ⟨p', e5, e6, e7⟩ := semi_all (euler := euler) hxm hmacs' hf (fun o ho => by
      obtain ⟨h1, h2⟩ := List.mem_filter.mp ho
      exact ⟨h1, by simpa using h2⟩) hsemi hshow
    refine ⟨p', ?_, rfl, ?_, hmacs', ?_, ?_⟩
    · show (page.handle (msg euler (.updated x.category mac p))).bind _ = _
      rw [hup]
      exact e5
    · show (AMap.keys m').Nodup
      rw [hkeys]
      exact g.keys
    · unfold Shows
      rw [e6]
      exact hshow
    · rw [semi_right]
      refine semi_mono e7 ?_
      rintro i hi j hj hij ⟨h1 | h1, h2⟩
      · exact (h2 j (List.mem_filter.mpr ⟨hj, by simpa [hx, ← h1] using hij.symm⟩)).1 ⟨by rw [hx, h1], rfl⟩
      · exact (h2 i (List.mem_filter.mpr ⟨hi, by simpa [hx, ← h1] using hij⟩)).2 ⟨rfl, by rw [hx, h1]⟩

theorem good_serve (hm : Sane measure) {w : Web} {page : Page} (g : Good measure euler w page) {op : WebOp} (hf : Fits w op) :
    ∃ page', after euler page (serve measure Web.always w op).2.1 = some page' ∧
      Good measure euler (serve measure Web.always w op).1 page' := by
  cases op with
  | connection e =>
    cases e with
    | connected h mac =>
      obtain ⟨p, h1, h2⟩ := good_add (c := .uci) (p := .default) g hf
      refine ⟨p, ?_⟩
      simp only [serve, Web.connection, g.sound, Bool.false_eq_true, if_false]
      rw [g.sound] at h2
      exact ⟨h1, h2⟩
    | disconnected h mac =>
      obtain ⟨p, h1, h2⟩ := good_remove (c := .uci) g hf
      refine ⟨p, ?_⟩
      simp only [serve, Web.connection, g.sound, Bool.false_eq_true, if_false]
      rw [g.sound] at h2
      exact ⟨h1, h2⟩
  | setPosition mac p => exact good_move hm g mac p
  | created mac p h =>
    obtain ⟨q, h1, h2⟩ := good_add (c := .anchor) (p := p) g hf
    refine ⟨q, ?_⟩
    simp only [serve, Web.created, g.sound, Bool.false_eq_true, if_false]
    rw [g.sound] at h2
    exact ⟨h1, h2⟩
  | destroyed mac h =>
    obtain ⟨q, h1, h2⟩ := good_remove (c := .anchor) g hf
    refine ⟨q, ?_⟩
    simp only [serve, Web.destroyed, g.sound, Bool.false_eq_true, if_false]
    rw [g.sound] at h2
    exact ⟨h1, h2⟩
  | getState =>
    refine ⟨page, ?_⟩
    simp only [serve, Web.getState, g.sound, Bool.false_eq_true, if_false]
    exact ⟨rfl, g⟩

/-- The page has the second address among the neighbors of the first. -/
theorem lists_neighbor {page page' : Page} {s d : Category × MacAddress} {x : RangingMeasurement}
    (hn : (page.map Marker.mac).Nodup) (h : page.handle (msg euler (.neighbor s d x)) = some page') :
    Lists page' s.2 d.2 ∧ ∀ a b, Lists page a b → Lists page' a b := by
  rw [handle_neighbor] at h
  have hin : macText s.2 ∈ page.map Marker.mac := by
    clear hn
    induction page generalizing page' with
    | nil => cases h
    | cons m r ih =>
      unfold change at h
      split at h
      · rename_i hm; exact List.mem_map.mpr ⟨m, List.mem_cons_self, hm⟩
      · obtain ⟨r', h1, -⟩ := Option.map_eq_some_iff.mp h
        exact List.mem_cons_of_mem _ (ih h1)
  rw [change_eq hn hin] at h
  cases h
  have self : ∀ (n : Neighbor) (ns : List Neighbor), ∃ y ∈ link n ns, y.mac = n.mac := by
    intro n ns
    induction ns with
    | nil => exact ⟨n, List.mem_singleton.mpr rfl, rfl⟩
    | cons m r ih =>
      unfold link
      split
      · exact ⟨n, List.mem_cons_self, rfl⟩
      · obtain ⟨y, h1, h2⟩ := ih
        exact ⟨y, List.mem_cons_of_mem _ h1, h2⟩
  have keep : ∀ (n : Neighbor) (ns : List Neighbor) y, y ∈ ns → ∃ z ∈ link n ns, z.mac = y.mac := by
    intro n ns y hy
    induction ns with
    | nil => cases hy
    | cons m r ih =>
      unfold link
      split
      · rename_i hm
        rcases List.mem_cons.mp hy with rfl | hy
        · exact ⟨n, List.mem_cons_self, hm.symm⟩
        · exact ⟨y, List.mem_cons_of_mem _ hy, rfl⟩
      · rcases List.mem_cons.mp hy with rfl | hy
        · exact ⟨y, List.mem_cons_self, rfl⟩
        · obtain ⟨z, h1, h2⟩ := ih hy
          exact ⟨z, List.mem_cons_of_mem _ h1, h2⟩
  constructor
  · obtain ⟨m, hm, he⟩ := List.mem_map.mp hin
    refine ⟨_, List.mem_map_of_mem hm, ?_⟩
    rw [if_pos he]
    exact ⟨he, self _ _⟩
  · rintro a b ⟨m, hm, h1, n, h2, h3⟩
    refine ⟨_, List.mem_map_of_mem hm, ?_⟩
    split
    · refine ⟨h1, ?_⟩
      obtain ⟨z, hz, hzm⟩ := keep _ _ n h2
      exact ⟨z, hz, hzm.trans h3⟩
    · exact ⟨h1, n, h2, h3⟩

theorem lists_all {device : Info} {others : List Info} {ess : List (List WebEvent)}
    (hf : List.Forall₂ (About measure device) others ess) {page page' : Page} (hn : (page.map Marker.mac).Nodup)
    (h : after euler page ess.flatten = some page') :
    (∀ o ∈ others, Lists page' device.mac o.mac ∧ Lists page' o.mac device.mac) ∧
      ∀ a b, Lists page a b → Lists page' a b := by
  have macs : ∀ {p q : Page} {s d : Category × MacAddress} {x : RangingMeasurement}, (p.map Marker.mac).Nodup →
      p.handle (msg euler (.neighbor s d x)) = some q → (q.map Marker.mac).Nodup := by
    intro p q s d x hp hq
    rw [handle_neighbor] at hq
    have : q.map Marker.mac = p.map Marker.mac := by
      clear hp
      induction p generalizing q with
      | nil => cases hq
      | cons m r ih =>
        unfold change at hq
        split at hq
        · cases hq; rfl
        · obtain ⟨r', h1, rfl⟩ := Option.map_eq_some_iff.mp hq
          rw [List.map_cons, List.map_cons, ih h1]
    rw [this]
    exact hp
  induction hf generalizing page with
  | nil =>
    cases h
    exact ⟨fun o ho => absurd ho List.not_mem_nil, fun _ _ h => h⟩
  | @cons o es os ess hab _ ih =>
    obtain ⟨l, m, hl, hm, rfl⟩ := hab
    obtain ⟨p1, h1, h⟩ := Option.bind_eq_some_iff.mp h
    obtain ⟨p2, h2, h⟩ := Option.bind_eq_some_iff.mp h
    have n1 := macs hn h1
    obtain ⟨a1, a2⟩ := lists_neighbor hn h1
    obtain ⟨b1, b2⟩ := lists_neighbor n1 h2
    obtain ⟨c1, c2⟩ := ih (macs n1 h2) h
    refine ⟨fun x hx => ?_, fun a b hab => c2 _ _ (b2 _ _ (a2 _ _ hab))⟩
    rcases List.mem_cons.mp hx with rfl | hx
    · exact ⟨c2 _ _ (b2 _ _ a1), c2 _ _ b1⟩
    · exact c1 x hx

end Page

namespace World
open Page

variable {measure : Measure} {euler : Euler} {ok : World → Label → Prop}

theorem run_append {s t : World} {a b : List Label} (h : Run measure euler ok s (a ++ b) t) :
    ∃ u, Run measure euler ok s a u ∧ Run measure euler ok u b t := by
  induction b using List.reverseRecOn generalizing t with
  | nil => exact ⟨t, by simpa using h, .nil⟩
  | append_singleton b l ih =>
    rw [← List.append_assoc] at h
    generalize hg : a ++ b ++ [l] = ls at h
    cases h with
    | nil => simp at hg
    | step h1 h2 h3 =>
      obtain ⟨rfl, hl⟩ := List.append_inj' hg rfl
      cases hl
      obtain ⟨u, hu, hb⟩ := ih h1
      exact ⟨u, hu, .step hb h2 h3⟩

theorem run_one {s t : World} {l : Label} (h : Run measure euler ok s [l] t) : ok s l ∧ Step measure euler s l t := by
  generalize hg : [l] = ls at h
  cases h with
  | nil => cases hg
  | @step _ _ ls' l' h1 h2 h3 =>
    cases ls' with
    | nil =>
      cases hg
      generalize hg' : ([] : List Label) = x at h1
      cases h1 with
      | nil => exact ⟨h2, h3⟩
      | step => simp at hg'
    | cons x xs => cases xs <;> simp at hg

/-- The page will agree with the registry when it has handled the events under way, if it is `page` now. -/
def Follows (measure : Measure) (euler : Euler) (s : World) (page : Page) : Prop :=
  ∃ es page', s.stream = some (es.map (WebText.item euler)) ∧ after euler page es = some page' ∧ Good measure euler s.web page'

theorem always_of {heard : Nat → Bool} (h : ∀ i, heard i = true) : heard = Web.always := funext h

theorem follows_server (hm : Sane measure) {s t : World} {l : Label} (hl : ServerStep l) (hf : FitsStep s l)
    (hst : Step measure euler s l t) {page : Page} (h : Follows measure euler s page) :
    Follows measure euler t page ∧ t.page = s.page ∧ t.body = s.body ∧ t.threw = s.threw := by
  obtain ⟨es, page', h1, h2, g⟩ := h
  cases hst with
  | @serve op heard hh =>
    have := always_of (hh (by rw [h1]; simp))
    subst this
    obtain ⟨p, h3, h4⟩ := good_serve hm g hf
    refine ⟨⟨es ++ (serve measure Web.always s.web op).2.1, p, ?_, ?_, h4⟩, rfl, rfl, rfl⟩
    · dsimp only
      rw [h1, List.map_append]
      rfl
    · rw [after_append, h2]
      exact h3
  | @shuffle m hp =>
    refine ⟨⟨es, page', h1, h2, g.sound, ?_, ?_, ?_, ?_⟩, rfl, rfl, rfl⟩
    · show (AMap.keys m).Nodup
      exact ((hp.map Prod.fst).nodup_iff).mpr g.keys
    · exact (((hp.map Prod.snd).map Info.mac).nodup_iff).mpr g.macs
    · exact g.shows.trans ((hp.map Prod.snd).map (facts euler)).symm
    · intro x hx
      refine ⟨(g.right x hx).1, fun n hn => ?_⟩
      obtain ⟨i, hi, j, hj, r⟩ := (g.right x hx).2 n hn
      exact ⟨i, (hp.map Prod.snd).mem_iff.mpr hi, j, (hp.map Prod.snd).mem_iff.mpr hj, r⟩
  | subscribe => exact absurd hl (by simp [ServerStep])
  | snapshot => exact absurd hl (by simp [ServerStep])
  | state => exact absurd hl (by simp [ServerStep])
  | event => exact absurd hl (by simp [ServerStep])
  | breaks => exact absurd hl (by simp [ServerStep])

theorem understood_item (euler : Euler) (e : WebEvent) : understood (WebText.item euler e) = [msg euler e] := by
  have := Props.C79_events euler [e]
  simpa [msg] using this

theorem follows_event {s t : World} (hst : Step measure euler s .event t) (h : Follows measure euler s s.page) :
    Follows measure euler t t.page ∧ t.body = s.body ∧ t.threw = s.threw := by
  obtain ⟨es, page', h1, h2, g⟩ := h
  cases hst with
  | @event x xs hs =>
    cases es with
    | nil => rw [h1] at hs; cases hs
    | cons e es =>
      rw [h1] at hs
      cases hs
      obtain ⟨p, h3, h4⟩ := Option.bind_eq_some_iff.mp h2
      rw [understood_item]
      show Follows measure euler (match s.page.handle (msg euler e) with | some page => _ | none => _)
        (match s.page.handle (msg euler e) with | some page => _ | none => _ : World).page ∧
        (match s.page.handle (msg euler e) with | some page => _ | none => _ : World).body = _ ∧
        (match s.page.handle (msg euler e) with | some page => _ | none => _ : World).threw = _
      rw [h3]
      exact ⟨⟨es, page', rfl, h4, g⟩, rfl, rfl⟩

/-- The start: both requests have been handled and the registry was the same. -/
theorem follows_start {s t : World} {a : List Label} (ha : a = [.subscribe, .snapshot] ∨ a = [.snapshot, .subscribe])
    (hr : Run measure euler ok s a t) (hk : (AMap.keys s.web.devices).Nodup)
    (hmac : ((AMap.values s.web.devices).map Info.mac).Nodup) :
    ∃ body page, t.body = some body ∧ receive body = some page ∧ Follows measure euler t page ∧ t.threw = s.threw := by
  have start : ∀ {w : Web} {ds : List Info}, w.getState.2.2 = .state ds → (AMap.keys w.devices).Nodup →
      ((AMap.values w.devices).map Info.mac).Nodup →
      Good measure euler w ((AMap.values w.devices).map fun i => marker euler i.mac i.position []) ∧
      ds = AMap.values w.devices := by
    intro w ds hw h1 h2
    unfold Web.getState at hw
    split at hw
    · cases hw
    · rename_i hp
      cases hw
      refine ⟨⟨by simpa using hp, h1, h2, ?_, ?_⟩, rfl⟩
      · unfold Shows
        rw [List.map_map]
        exact .refl _
      · intro m hm
        obtain ⟨i, -, rfl⟩ := List.mem_map.mp hm
        exact ⟨List.nodup_nil, fun n hn => by cases hn⟩
  rcases ha with rfl | rfl
  · obtain ⟨u, h1, h2⟩ := run_append (a := [_]) (b := [_]) hr
    have h1 := (run_one h1).2
    have h2 := (run_one h2).2
    cases h1 with
    | subscribe =>
      cases h2 with
      | snapshot hd =>
        obtain ⟨g, rfl⟩ := start hd hk hmac
        exact ⟨_, _, rfl, receive_state _ _, ⟨[], _, rfl, rfl, g⟩, rfl⟩
  · obtain ⟨u, h1, h2⟩ := run_append (a := [_]) (b := [_]) hr
    have h1 := (run_one h1).2
    have h2 := (run_one h2).2
    cases h1 with
    | snapshot hd =>
      cases h2 with
      | subscribe =>
        obtain ⟨g, rfl⟩ := start hd hk hmac
        exact ⟨_, _, rfl, receive_state _ _, ⟨[], _, rfl, rfl, g⟩, rfl⟩

theorem follows_servers (hm : Sane measure) {s t : World} {b : List Label} (hb : ∀ l ∈ b, ServerStep l)
    (hr : Run measure euler FitsStep s b t) {page : Page} (h : Follows measure euler s page) :
    Follows measure euler t page ∧ t.page = s.page ∧ t.body = s.body ∧ t.threw = s.threw := by
  induction hr with
  | nil => exact ⟨h, rfl, rfl, rfl⟩
  | step _ hok hst ih =>
    obtain ⟨h1, h2, h3, h4⟩ := ih fun l hl => hb l (List.mem_append_left _ hl)
    obtain ⟨g1, g2, g3, g4⟩ := follows_server hm (hb _ (by simp)) hok hst h1
    exact ⟨g1, g2.trans h2, g3.trans h3, g4.trans h4⟩

theorem follows_both (hm : Sane measure) {s t : World} {c : List Label} (hc : ∀ l ∈ c, ServerStep l ∨ l = .event)
    (hr : Run measure euler FitsStep s c t) (h : Follows measure euler s s.page) :
    Follows measure euler t t.page ∧ t.threw = s.threw := by
  induction hr with
  | nil => exact ⟨h, rfl⟩
  | step _ hok hst ih =>
    obtain ⟨h1, h4⟩ := ih fun l hl => hc l (List.mem_append_left _ hl)
    rcases hc _ (List.mem_append_right _ (List.mem_singleton.mpr rfl)) with hl | rfl
    · obtain ⟨g1, g2, -, g4⟩ := follows_server hm hl hok hst h1
      exact ⟨g2 ▸ g1, g4.trans h4⟩
    · obtain ⟨g1, -, g4⟩ := follows_event hst h1
      exact ⟨g1, g4.trans h4⟩

/-- A page that has been loaded at a quiet time. -/
theorem follows_all (hm : Sane measure) {s t : World} {a b c : List Label}
    (hr : Run measure euler FitsStep s (a ++ b ++ [.state] ++ c) t)
    (hk : (AMap.keys s.web.devices).Nodup) (hmac : ((AMap.values s.web.devices).map Info.mac).Nodup)
    (ha : a = [.subscribe, .snapshot] ∨ a = [.snapshot, .subscribe]) (hb : ∀ l ∈ b, ServerStep l)
    (hc : ∀ l ∈ c, ServerStep l ∨ l = .event) : Follows measure euler t t.page ∧ t.threw = s.threw := by
  obtain ⟨u3, hr, h4⟩ := run_append hr
  obtain ⟨u2, hr, h3⟩ := run_append hr
  obtain ⟨u1, h1, h2⟩ := run_append hr
  obtain ⟨body, page, e1, e2, e3, e4⟩ := follows_start ha h1 hk hmac
  obtain ⟨f1, -, f3, f4⟩ := follows_servers hm hb h2 e3
  have h3 := (run_one h3).2
  cases h3 with
  | state hbody =>
    rw [f3, e1] at hbody
    cases hbody
    rw [e2] at h4
    obtain ⟨g1, g2⟩ := follows_both hm hc h4 (by obtain ⟨es, q, x1, x2, x3⟩ := f1; exact ⟨es, q, x1, x2, x3⟩)
    exact ⟨g1, g2.trans (f4.trans e4)⟩

/-! Steps written out. -/

theorem step_state {s : World} {ds : List Info} (h : s.body = some (WebText.state euler ds)) :
    Step measure euler s .state { s with body := none, page := ds.map fun i => marker euler i.mac i.position [] } := by
  have := Step.state (measure := measure) (euler := euler) h
  rw [receive_state] at this
  exact this

theorem step_event {s : World} {e : WebEvent} {ts : List Text} {page : Page} (h : s.stream = some (WebText.item euler e :: ts))
    (hp : s.page.handle (msg euler e) = some page) :
    Step measure euler s .event { s with stream := some ts, page } := by
  have := Step.event (measure := measure) (euler := euler) h
  rw [understood_item] at this
  have hd : ({ s with stream := some ts } : World).dispatch [msg euler e] = { s with stream := some ts, page } := by
    show (match s.page.handle (msg euler e) with | some page => _ | none => _) = _
    rw [hp]
  rw [hd] at this
  exact this

theorem step_throw {s : World} {e : WebEvent} {ts : List Text} (h : s.stream = some (WebText.item euler e :: ts))
    (hp : s.page.handle (msg euler e) = none) : Step measure euler s .event { s with stream := some ts, threw := true } := by
  have := Step.event (measure := measure) (euler := euler) h
  rw [understood_item] at this
  have hd : ({ s with stream := some ts } : World).dispatch [msg euler e] = { s with stream := some ts, threw := true } := by
    show (match s.page.handle (msg euler e) with | some page => _ | none => _) = _
    rw [hp]
  rw [hd] at this
  exact this

theorem shows_length {w : Web} {page : Page} (h : Shows euler w page) : page.length = w.devices.length := by
  have := h.length_eq
  simpa [AMap.values] using this

end World
end Pica
