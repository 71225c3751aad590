import Verif.Props.Fair
import Verif.Spec.Stops
/-! C89: in-band stops are sent as often as asked for. -/

namespace Pica.Props
open Pica.System Pica.Spec

theorem applyAll_stops (mac : MacAddress) (sid : UInt32) (out : List Out) (s : System) :
    stopsLeft mac sid (out.foldl apply s) = stopsLeft mac sid s + (out.map (stopsIn mac sid)).sum := by
  induction out generalizing s with
  | nil => rfl
  | cons o out ih =>
    rw [List.foldl_cons, ih, List.map_cons, List.sum_cons]
    have : stopsLeft mac sid (apply s o) = stopsLeft mac sid s + stopsIn mac sid o := by
      unfold apply
      split
      case h_4 => simp [stopsLeft, stopsIn]
      all_goals first | rfl | skip
      rename_i h1 h2 h3 h4 h5
      unfold stopsIn
      split
      · exact absurd rfl (h4 _ _ _ _)
      · rfl
    omega

theorem asked_append (mac : MacAddress) (sid : UInt32) (ls : List Label) (l : Label) :
    stopsAsked mac sid (ls ++ [l]) = stopsAsked mac sid ls + stopsAsked mac sid [l] := by
  unfold stopsAsked processed
  rw [List.filterMap_append, List.flatMap_append, List.map_append, List.sum_append]

/-- C89: the stops asked for are those sent and those still to be sent. -/
theorem C89_count (ls : List Label) (s : System) (hr : Run .new ls s) (mac : MacAddress) (sid : UInt32) :
    stopsAsked mac sid ls = stopsSent mac sid ls + stopsLeft mac sid s := by
  generalize hn : System.new = n at hr
  induction hr with
  | nil => subst hn; rfl
  | @step t u ls l _ _ hst ih =>
    rw [asked_append, ih]
    unfold stopsSent
    rw [List.countP_append]
    cases hst with
    | @inBand m x k hk _ =>
      have hp := ((List.perm_cons_erase hk).map fun x => if x.1 = mac ∧ x.2.1 = sid then x.2.2 else 0).sum_nat
      simp only [List.map_cons, List.sum_cons] at hp
      simp only [stopsAsked, processed, stopsLeft, List.map_cons, List.sum_cons, List.countP_cons, List.countP_nil,
        List.filterMap_cons, List.filterMap_nil, List.flatMap_nil, List.map_nil, List.sum_nil] at hp ⊢
      by_cases e : m = mac ∧ x = sid
      · simp only [e, and_self, if_true, decide_true] at hp ⊢
        omega
      · simp only [e, if_false, decide_false] at hp ⊢
        simp only [Bool.false_eq_true, if_false]
        omega
    | @process est c q p out hq hs =>
      rw [applyAll_stops]
      simp only [stopsAsked, processed, List.filterMap_cons, List.filterMap_nil, List.flatMap_cons, List.flatMap_nil,
        List.append_nil, List.countP_cons, List.countP_nil]
      have : stopsLeft mac sid { t with pica := p, queue := q, spawned := t.spawned + 1 } = stopsLeft mac sid t := rfl
      rw [this]
      simp only [Bool.false_eq_true, if_false]
      omega
    | _ => rfl

/-- C89: if every task gets its turn, all of them are sent. -/
theorem C89_sent (σ : Nat → System) (ℓ : Nat → Label) (he : Endless σ ℓ) (hf : Fair σ ℓ) (i : Nat) (mac : MacAddress)
    (sid : UInt32) : ∃ j ≥ i, stopsAsked mac sid (upTo ℓ i) ≤ stopsSent mac sid (upTo ℓ j) := by
  let P : Label → Bool := fun l => match l with
    | .inBand m s => decide (m = mac ∧ s = sid)
    | _ => false
  have hc := fun k => C89_count _ _ (endless_run he k) mac sid
  have h1 : ∀ k, stopsLeft mac sid (σ k) ≤ stopsLeft mac sid (σ (k + 1)) + if P (ℓ k) = true then 1 else 0 := by
    intro k
    have e1 := hc k
    have e2 := hc (k + 1)
    have : upTo ℓ (k + 1) = upTo ℓ k ++ [ℓ k] := by unfold upTo; rw [List.range_succ, List.map_append]; rfl
    rw [this, asked_append] at e2
    have h3 : stopsSent mac sid (upTo ℓ k ++ [ℓ k]) = stopsSent mac sid (upTo ℓ k) + if P (ℓ k) = true then 1 else 0 := by
      unfold stopsSent
      rw [List.countP_append, List.countP_singleton]
      rfl
    omega
  have h2 : ∀ k, (∀ j ≥ k, 0 < stopsLeft mac sid (σ j)) → ∃ j ≥ k, P (ℓ j) = true := by
    intro k hpos
    obtain ⟨j, hj, hl⟩ := hf.inBand mac sid k fun m hm => by
      obtain ⟨n, hn, hroom⟩ := room_again he hf m
      have hp := hpos n (by omega)
      obtain ⟨x, hx, hx0⟩ : ∃ x ∈ (σ n).stops, (if x.1 = mac ∧ x.2.1 = sid then x.2.2 else 0) ≠ 0 := by
        by_contra hno
        have hz : ∀ y ∈ (σ n).stops.map (fun x => if x.1 = mac ∧ x.2.1 = sid then x.2.2 else 0), y = 0 := by
          intro y hy
          obtain ⟨x, hx, rfl⟩ := List.mem_map.mp hy
          by_contra h0
          exact hno ⟨x, hx, h0⟩
        exact absurd (List.sum_eq_zero_iff_forall_eq_nat.mpr hz) (by unfold stopsLeft at hp; omega)
      obtain ⟨m', s', c⟩ := x
      dsimp only at hx0
      split at hx0
      · rename_i e
        obtain ⟨rfl, rfl⟩ := e
        obtain ⟨c', rfl⟩ := Nat.exists_eq_succ_of_ne_zero hx0
        exact ⟨n, hn, _, _, rfl, .inBand hx hroom⟩
      · exact absurd rfl hx0
    exact ⟨j, hj, by rw [hl]; simp [P]⟩
  obtain ⟨j, hj, hle⟩ := used_up P _ h1 h2 i
  refine ⟨j, hj, ?_⟩
  rw [hc i]
  exact hle

/-- A controlee is removed; it is sent the one stop that is asked for. -/
example : Endless (states visit) (steps visit) ∧ Fair (states visit) (steps visit) ∧
    stopsAsked (.short ⟨[0x00, 0xb1], rfl⟩) 7 (upTo (steps visit) 19) = 1 ∧
    stopsSent (.short ⟨[0x00, 0xb1], rfl⟩) 7 (upTo (steps visit) 19) = 0 ∧
    stopsSent (.short ⟨[0x00, 0xb1], rfl⟩) 7 (upTo (steps visit) 20) = 1 :=
  ⟨visit_endless, visit_fair, by decide +kernel, by decide +kernel, by decide +kernel⟩

end Pica.Props
