import Verif.Spec.Http
import Verif.Proofs.Map
import Mathlib.Data.List.Forall2
/-! The handlers of the web server. -/

namespace Pica
open Spec

namespace Web

/-- Somebody listens all the time. -/
def always : Nat → Bool := fun _ => true

theorem place_none {mac : MacAddress} {p : Position} {m : AMap Nat Info} :
    place mac p m = none ↔ ∀ e ∈ m, e.2.mac ≠ mac := by
  induction m with
  | nil => simp [place]
  | cons e m ih =>
    obtain ⟨h, i⟩ := e
    unfold place
    split
    · rename_i he; simp [he]
    · rename_i he; simp [he, ih]

theorem place_some {mac : MacAddress} {p : Position} {m m' : AMap Nat Info} {x : Info}
    (h : place mac p m = some (m', x)) :
    ∃ a k i b, m = a ++ (k, i) :: b ∧ i.mac = mac ∧ x = { i with position := p } ∧ m' = a ++ (k, x) :: b := by
  induction m generalizing m' with
  | nil => cases h
  | cons e m ih =>
    obtain ⟨k, i⟩ := e
    unfold place at h
    split at h
    · rename_i he
      cases h
      exact ⟨[], k, i, m, rfl, he, rfl, rfl⟩
    · obtain ⟨⟨m₁, x₁⟩, h1, h2⟩ := Option.map_eq_some_iff.mp h
      cases h2
      obtain ⟨a, k', i', b, e1, e2, e3, e4⟩ := ih h1
      exact ⟨(k, i) :: a, k', i', b, by rw [e1]; rfl, e2, e3, by rw [e4]; rfl⟩

theorem neighbors_all {measure : Measure} (hm : Sane measure) (device : Info) (n : Nat) (l : List Info) :
    ∃ ess : List (List WebEvent),
      List.Forall₂ (About measure device) (l.filter fun o => decide (o.mac ≠ device.mac)) ess ∧
      neighbors measure always device n l = (ess.flatten, none) := by
  induction l generalizing n with
  | nil => exact ⟨[], .nil, rfl⟩
  | cons o l ih =>
    unfold neighbors
    by_cases h : o.mac ≠ device.mac
    · obtain ⟨a, b, ha, hb, hr⟩ := hm device.position o.position
      obtain ⟨ess, hf, he⟩ := ih (n + 2)
      refine ⟨[.neighbor (device.category, device.mac) (o.category, o.mac) a,
        .neighbor (o.category, o.mac) (device.category, device.mac) b] :: ess, ?_, ?_⟩
      · rw [List.filter_cons_of_pos (by simpa using h)]
        exact .cons ⟨a, b, ha, hb, rfl⟩ hf
      · rw [if_pos h, ha]
        dsimp only
        rw [hb]
        dsimp only
        rw [if_neg (not_not.mpr hr), he]
        rfl
    · obtain ⟨ess, hf, he⟩ := ih n
      refine ⟨ess, ?_, ?_⟩
      · rw [List.filter_cons_of_neg (by simpa using h)]; exact hf
      · rw [if_neg h, he]

/-- Exactly the events sent with a listener arrive; the first without one is a panic. -/
theorem neighbors_heard {measure : Measure} (hm : Sane measure) (heard : Nat → Bool) (device : Info) (n : Nat)
    (l : List Info) :
    ((neighbors measure heard device n l).2 = none ↔
      ∀ i < (neighbors measure always device n l).1.length, heard (n + i) = true) ∧
    ((neighbors measure heard device n l).2 = none → neighbors measure heard device n l = neighbors measure always device n l) ∧
    ((neighbors measure heard device n l).2 ≠ none → (neighbors measure heard device n l).2 = some .noListener) := by
  induction l generalizing n with
  | nil => exact ⟨by simp [neighbors], fun _ => rfl, fun h => absurd rfl h⟩
  | cons o l ih =>
    unfold neighbors
    by_cases h : o.mac ≠ device.mac
    · obtain ⟨a, b, ha, hb, hr⟩ := hm device.position o.position
      rw [if_pos h, if_pos h, ha]
      dsimp only
      rw [hb]
      dsimp only
      rw [if_neg (not_not.mpr hr), if_neg (not_not.mpr hr), if_pos (show always n = true from rfl),
        if_pos (show always (n + 1) = true from rfl)]
      by_cases h0 : heard n = true
      · rw [if_pos h0]
        by_cases h1 : heard (n + 1) = true
        · rw [if_pos h1]
          obtain ⟨i1, i2, i3⟩ := ih (n + 2)
          dsimp only
          refine ⟨i1.trans ?_, fun hn => by rw [i2 hn], i3⟩
          constructor
          · intro hi i hlt
            match i with
            | 0 => exact h0
            | 1 => exact h1
            | i + 2 =>
              have := hi i (by simpa using hlt)
              rwa [show n + 2 + i = n + (i + 2) by omega] at this
          · intro hi i hlt
            rw [show n + 2 + i = n + (i + 2) by omega]
            exact hi (i + 2) (by simpa using hlt)
        · rw [if_neg h1]
          refine ⟨⟨fun hc => (Option.some_ne_none _ hc).elim, fun hi => absurd (hi 1 (by simp)) h1⟩, fun hc => (Option.some_ne_none _ hc).elim, fun _ => rfl⟩
      · rw [if_neg h0]
        refine ⟨⟨fun hc => (Option.some_ne_none _ hc).elim, fun hi => absurd (hi 0 (by simp)) h0⟩, fun hc => (Option.some_ne_none _ hc).elim, fun _ => rfl⟩
    · rw [if_neg h, if_neg h]
      exact ih n

theorem announce_served (w : Web) (heard : Nat → Bool) (e : WebEvent) (c : Nat) :
    (Answered (w.announce heard e (.status c)).2.2 ↔ heard 0 = true) ∧
    ((w.announce heard e (.status c)).1.poisoned = true ↔ w.poisoned = true ∨ heard 0 = false) := by
  unfold announce
  cases h : heard 0
  · exact ⟨⟨fun hs => absurd rfl (hs _), fun hc => by cases hc⟩, by simp [poison]⟩
  · exact ⟨⟨fun _ => rfl, fun _ x => by intro hx; cases hx⟩, by simp⟩

end Web

end Pica
