import Verif.Spec.Guests
import Verif.Props.SiteFair
import Verif.Props.Fair
/-! Lemmas about hosts in the program of the web server. -/

namespace Pica.Props
open Pica.Spec Pica.Site

variable {measure : Measure} {σ : Nat → Site} {ℓ : Nat → Site.Label}

theorem silent_fair {l : System.Label} (hs : Silent l) (hf : SiteFairTo measure σ ℓ (· = .system l)) :
    FairTo (fun i => (σ i).sys) (fun i => sysLabel (ℓ i)) (· = l) := by
  intro i hi
  obtain ⟨j, hj, hl⟩ := hf i fun j hj => by
    obtain ⟨k, hk, l', u, rfl, hst⟩ := hi j hj
    exact ⟨k, hk, _, _, rfl, .system hs hst⟩
  exact ⟨j, hj, by show sysLabel (ℓ j) = l; rw [hl]; rfl⟩

/-- The emulator is treated fairly in a fair schedule of the program. -/
theorem fair_sys (hf : SiteFair measure σ ℓ) (ht : TasksFair measure σ ℓ) :
    Fair (fun i => (σ i).sys) (fun i => sysLabel (ℓ i)) where
  loop := loop_fair hf
  leaves h := silent_fair trivial (ht.leaves h)
  tick t := silent_fair trivial (ht.tick t)
  dies t := silent_fair trivial (ht.dies t)
  notifies h n := silent_fair trivial (ht.notifies h n)
  inBand m s := silent_fair trivial (ht.inBand m s)

/-- A handle is that of a device or that of an anchor. -/
theorem exclusive {p : Pica} {tr : List Pica.Event} (h : Pica.Run .new tr p) (n : Nat) :
    (eventsOf n tr ≠ [] → n < p.counter) ∧ ((tr.flatMap Pica.Event.out).countP (okay n) = 0 ∨ eventsOf n tr = []) := by
  suffices key : (eventsOf n tr ≠ [] → n < p.counter) ∧
      ((tr.flatMap Pica.Event.out).countP (okay n) ≠ 0 → n < p.counter) ∧
      ((tr.flatMap Pica.Event.out).countP (okay n) = 0 ∨ eventsOf n tr = []) ∧
      ((∃ m a, p.anchors.get? m = some a ∧ a.handle = n) → (tr.flatMap Pica.Event.out).countP (okay n) ≠ 0) from ⟨key.1, key.2.2.1⟩
  generalize hp₀ : Pica.new = p₀ at h
  induction h with
  | nil =>
    subst hp₀
    refine ⟨fun h => absurd rfl h, by simp, .inr rfl, ?_⟩
    rintro ⟨m, a, hm, -⟩
    cases hm
  | @reorder q r tr hrun hro ih =>
    have hi := Pica.reachable_inv ⟨tr, hp₀ ▸ hrun⟩
    obtain ⟨hc, -, ha, -⟩ := Pica.reorder_dev hi hro
    rw [hc]
    refine ⟨ih.1, ih.2.1, ih.2.2.1, ?_⟩
    rintro ⟨m, a, hm, hn⟩
    rw [AMap.get?_perm hi.ancNodup ha] at hm
    exact ih.2.2.2 ⟨m, a, hm, hn⟩
  | @cmd q r tr env c out hrun hst ih =>
    have hi := Pica.reachable_inv ⟨tr, hp₀ ▸ hrun⟩
    have hcnt := Pica.step_counter hst
    have h42 := C42_events q tr (hp₀ ▸ hrun) n
    obtain ⟨i1, i2, i3, i4⟩ := ih
    have happ : eventsOf n (tr ++ [⟨env, c, out⟩]) = eventsOf n tr ++ (said q c).filter fun e => decide (eventHandle e = n) := by
      unfold eventsOf
      rw [List.flatMap_append, List.filter_append, List.flatMap_cons, List.flatMap_nil, List.append_nil, (step_said hi hst).1]
    have e : [(⟨env, c, out⟩ : Pica.Event)].flatMap Pica.Event.out = out := List.append_nil _
    rw [List.flatMap_append, List.countP_append, e, happ]
    generalize (tr.flatMap Pica.Event.out).countP (okay n) = x at *
    -- what the step says of the device
    have hsaid : (said q c).filter (fun e => decide (eventHandle e = n)) ≠ [] →
        (∀ m, c ≠ .createAnchor m) ∧ (∀ m, c ≠ .destroyAnchor m) ∧ n < r.counter ∧ x = 0 := by
      intro hne
      cases c with
      | connect =>
        have hn : n = q.counter := by
          by_contra hc
          exact hne (by simp [said, eventHandle, Ne.symm hc])
        refine ⟨by simp, by simp, ?_, ?_⟩
        · cases hst; rw [hn]; exact Nat.lt_succ_self _
        · by_contra hx
          have := i2 hx
          omega
      | disconnect y =>
        have hd : ∃ d, q.devices.get? n = some d := by
          cases hg : q.devices.get? y with
          | none => exact absurd (by simp [said, hg]) hne
          | some d =>
            by_cases hy : y = n
            · exact ⟨d, hy ▸ hg⟩
            · exact absurd (by simp [said, hg, eventHandle, hy]) hne
        obtain ⟨d, hd⟩ := hd
        refine ⟨by simp, by simp, lt_of_lt_of_le (hi.dev _ _ hd).2.1 hcnt, ?_⟩
        rcases h42 with ⟨_, -, h⟩ | ⟨h, -⟩
        · exact i3.resolve_right (by rw [h]; simp)
        · rw [hd] at h; cases h
      | _ => exact absurd rfl hne
    have hev : eventsOf n tr ++ (said q c).filter (fun e => decide (eventHandle e = n)) ≠ [] → n < r.counter := by
      intro h
      by_cases h1 : eventsOf n tr = []
      · rw [h1, List.nil_append] at h
        exact (hsaid h).2.2.1
      · exact lt_of_lt_of_le (i1 h1) hcnt
    -- a step that says nothing about anchors with this handle
    have quiet : out.countP (okay n) = 0 →
        ((∃ m a, r.anchors.get? m = some a ∧ a.handle = n) → ∃ m a, q.anchors.get? m = some a ∧ a.handle = n) → 
        (eventsOf n tr ++ (said q c).filter (fun e => decide (eventHandle e = n)) ≠ [] → n < r.counter) ∧
        (x + out.countP (okay n) ≠ 0 → n < r.counter) ∧
        (x + out.countP (okay n) = 0 ∨ eventsOf n tr ++ (said q c).filter (fun e => decide (eventHandle e = n)) = []) ∧
        ((∃ m a, r.anchors.get? m = some a ∧ a.handle = n) → x + out.countP (okay n) ≠ 0) := by
      intro h0 ha
      rw [h0]
      refine ⟨hev, fun h => lt_of_lt_of_le (i2 h) hcnt, ?_, fun h => i4 (ha h)⟩
      by_cases hs : (said q c).filter (fun e => decide (eventHandle e = n)) = []
      · rw [hs, List.append_nil]
        exact i3
      · exact .inl (hsaid hs).2.2.2
    cases hx : Pica.step_anc hst with
    | same _ _ h1 h2 h3 h4 =>
      refine quiet ?_ fun ⟨m, a, hm, hn⟩ => ⟨m, a, by rwa [h3] at hm, hn⟩
      rw [List.countP_eq_zero]
      intro o ho hok
      cases o with
      | anchorReply s => exact step_unanswered hi hst h1 h2 _ ho
      | _ => cases hok
    | known m h1 h2 => exact quiet rfl fun ⟨m, a, hm, hn⟩ => ⟨m, a, by rwa [h2] at hm, hn⟩
    | unknown m h1 h2 => exact quiet rfl fun ⟨m, a, hm, hn⟩ => ⟨m, a, by rwa [h2] at hm, hn⟩
    | create m h1 h2 =>
      by_cases hn : q.counter = n
      · have h1 : [Out.anchorReply (.ok q.counter)].countP (okay n) = 1 := by simp [okay, hn]
        rw [h1]
        refine ⟨hev, fun _ => by rw [h2]; dsimp only; omega, .inr ?_, fun _ => by omega⟩
        show eventsOf n tr ++ [] = []
        rw [List.append_nil]
        by_contra hne
        have := i1 hne
        omega
      · refine quiet (by simp [okay, hn]) ?_
        rintro ⟨k, a, hk, ha⟩
        rw [h2] at hk
        dsimp only at hk
        rw [AMap.get?_insert] at hk
        split at hk
        · cases hk
          exact absurd ha hn
        · exact ⟨k, a, hk, ha⟩
    | destroy m b h1 h2 =>
      have hold : (∃ m a, r.anchors.get? m = some a ∧ a.handle = n) → ∃ m a, q.anchors.get? m = some a ∧ a.handle = n := by
        rintro ⟨k, a, hk, ha⟩
        rw [h2] at hk
        dsimp only at hk
        rw [AMap.get?_erase] at hk
        split at hk
        · cases hk
        · exact ⟨k, a, hk, ha⟩
      by_cases hn : b.handle = n
      · have hx := i4 ⟨m, b, h1, hn⟩
        refine ⟨hev, fun _ => lt_of_lt_of_le (i2 hx) hcnt, .inr ?_, fun _ => by omega⟩
        show eventsOf n tr ++ [] = []
        rw [List.append_nil]
        exact i3.resolve_left hx
      · exact quiet (by simp [okay, hn]) hold

/-- What the last of these events says of a handle. -/
def toldBy (n : Nat) (es : List PicaEvent) : Tag :=
  (es.filterMap (evNotice n)).getLastD none

theorem toldBy_snoc (n : Nat) (es : List PicaEvent) (e : PicaEvent) :
    toldBy n (es ++ [e]) = (evNotice n e).getD (toldBy n es) := by
  unfold toldBy
  rw [List.filterMap_append]
  cases h : evNotice n e with
  | none => simp [h]
  | some t => simp [h]

/-- An event that is handled without a panic changes the entry of its handle. -/
theorem connection_tag {w : Web} {heard : Nat → Bool} {e : PicaEvent} (hp : isPanic (w.connection heard e).2.2 = false)
    (hn : (AMap.keys w.devices).Nodup) :
    w.poisoned = false ∧ (AMap.keys (w.connection heard e).1.devices).Nodup ∧
    ∀ n, tag ((w.connection heard e).1.devices.get? n) = (evNotice n e).getD (tag (w.devices.get? n)) := by
  unfold Web.connection Web.announce at *
  cases hw : w.poisoned with
  | true => rw [hw] at hp; cases hp
  | false =>
    rw [hw] at hp
    cases hh : heard 0 with
    | false => rw [hh] at hp; cases e <;> cases hp
    | true =>
      refine ⟨rfl, ?_, fun n => ?_⟩
      · cases e
        · exact AMap.nodup_insert hn _ _
        · exact AMap.nodup_erase hn _
      · cases e with
        | connected k m =>
          show tag (AMap.get? (AMap.insert w.devices k _) n) = _
          rw [AMap.get?_insert]
          by_cases hk : n = k
          · subst hk; simp [evNotice, tag]
          · simp [evNotice, hk, Ne.symm hk]
        | disconnected k m =>
          show tag (AMap.get? (AMap.erase w.devices k) n) = _
          rw [AMap.get?_erase]
          by_cases hk : n = k
          · subst hk; simp [evNotice, tag]
          · simp [evNotice, hk, Ne.symm hk]

theorem answered_other (w : Web) (heard : Nat → Bool) (a : Ask) (r : Except PicaCommandError Nat)
    (hn : (AMap.keys w.devices).Nodup) :
    (AMap.keys (answered w heard a r).1.devices).Nodup ∧
    ∀ n, r ≠ .ok n → (answered w heard a r).1.devices.get? n = w.devices.get? n := by
  unfold answered Web.created Web.destroyed Web.announce Web.poison
  cases r with
  | error x =>
    cases a.create <;> cases x <;> exact ⟨hn, fun _ _ => rfl⟩
  | ok k =>
    have hne : ∀ n, (Except.ok k : Except PicaCommandError Nat) ≠ .ok n → n ≠ k := fun n h e => h (by rw [e])
    cases a.create with
    | none =>
      dsimp only
      repeat' split
      · exact ⟨hn, fun _ _ => rfl⟩
      · exact ⟨AMap.nodup_erase hn _, fun n h => AMap.get?_erase_of_ne (hne n h)⟩
      · exact ⟨AMap.nodup_erase hn _, fun n h => AMap.get?_erase_of_ne (hne n h)⟩
    | some p =>
      dsimp only
      repeat' split
      · exact ⟨hn, fun _ _ => rfl⟩
      · exact ⟨AMap.nodup_insert hn _ _, fun n h => AMap.get?_insert_of_ne (hne n h)⟩
      · exact ⟨AMap.nodup_insert hn _ _, fun n h => AMap.get?_insert_of_ne (hne n h)⟩

theorem setPosition_keeps (w : Web) (heard : Nat → Bool) (mac : MacAddress) (p : Position) :
    AMap.keys (w.setPosition measure heard mac p).1.devices = AMap.keys w.devices ∧
    ∀ k, tag ((w.setPosition measure heard mac p).1.devices.get? k) = tag (w.devices.get? k) := by
  unfold Web.setPosition
  split
  · exact ⟨rfl, fun _ => rfl⟩
  · cases hpl : Web.place mac p w.devices with
    | none => exact ⟨rfl, fun _ => rfl⟩
    | some x =>
      obtain ⟨n, i⟩ := x
      obtain ⟨g1, g2⟩ := place_tag hpl
      dsimp only
      split
      · split <;> exact ⟨g1, g2⟩
      · exact ⟨g1, g2⟩

/-- The registry has of a handle that no anchor gets what the last event about it says. -/
theorem registry_told {ls : List Site.Label} {s : Site} (h : Site.Run measure .new ls s) :
    (AMap.keys s.web.devices).Nodup ∧ (s.ended = false → ∀ n, (∀ a, (a, Except.ok n) ∉ takenAnswers ls) →
      tag (s.web.devices.get? n) = toldBy n (handled ls)) := by
  generalize hn : Site.new = z at h
  induction h with
  | nil => subst hn; exact ⟨List.nodup_nil, fun _ _ _ => rfl⟩
  | @step t u ls l hr he hst hs ih =>
    obtain ⟨ih1, ih2⟩ := ih
    have ih2 := ih2 he
    have split : ∀ n, (∀ a, (a, Except.ok n) ∉ takenAnswers (ls ++ [l])) → ∀ a, (a, Except.ok n) ∉ takenAnswers ls :=
      fun n h a ha => h a (by unfold takenAnswers at *; rw [List.filterMap_append]; exact List.mem_append_left _ ha)
    rw [handled_append]
    cases hs with
    | @event e es heard hes hsz =>
      refine ⟨?_, fun hp n hno => ?_⟩
      · have : (AMap.keys (t.web.connection heard e).1.devices).Nodup := by
          unfold Web.connection Web.announce Web.poison
          repeat' split
          all_goals first | exact ih1 | exact AMap.nodup_insert ih1 _ _ | exact AMap.nodup_erase ih1 _
        exact this
      · obtain ⟨-, -, h3⟩ := connection_tag (w := t.web) (heard := heard) (e := e) hp ih1
        show tag ((t.web.connection heard e).1.devices.get? n) = toldBy n (handled ls ++ [e])
        rw [h3, toldBy_snoc, ih2 n (split n hno)]
    | @answer a r before after heard hans =>
      obtain ⟨g1, g2⟩ := answered_other t.web heard a r ih1
      refine ⟨g1, fun _ n hno => ?_⟩
      show tag ((answered t.web heard a r).1.devices.get? n) = toldBy n (handled ls ++ [])
      rw [List.append_nil, g2 n ?_, ih2 n (split n hno)]
      rintro rfl
      exact hno a (by unfold takenAnswers; rw [List.filterMap_append]; exact List.mem_append_right _ (by simp))
    | @position mac p heard =>
      obtain ⟨g1, g2⟩ := setPosition_keeps (measure := measure) t.web heard mac p
      refine ⟨by show (AMap.keys (t.web.setPosition measure heard mac p).1.devices).Nodup; rw [g1]; exact ih1, fun _ n hno => ?_⟩
      show tag ((t.web.setPosition measure heard mac p).1.devices.get? n) = toldBy n (handled ls ++ [])
      rw [List.append_nil, g2, ih2 n (split n hno)]
    | @shuffle m hm =>
      refine ⟨(hm.map _).nodup_iff.mpr ih1, fun _ n hno => ?_⟩
      show tag (AMap.get? m n) = toldBy n (handled ls ++ [])
      rw [List.append_nil, AMap.get?_perm ih1 hm, ih2 n (split n hno)]
    | process h =>
      refine ⟨by rw [(hear_frame _ _).2.1]; exact ih1, fun _ n hno => ?_⟩
      rw [(hear_frame _ _).2.1]
      show tag (t.web.devices.get? n) = toldBy n (handled ls ++ [])
      rw [List.append_nil, ih2 n (split n hno)]
    | _ =>
      refine ⟨ih1, fun _ n hno => ?_⟩
      show tag (t.web.devices.get? n) = toldBy n (handled ls ++ [])
      rw [List.append_nil, ih2 n (split n hno)]

end Pica.Props
