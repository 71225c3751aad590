import Verif.Proofs.SystemExamples
import Verif.Model.Clock
/-! Concrete schedules with times. -/

namespace Pica
namespace Ex
open Pica.System

/-- The step at the time `t`, if it is possible. -/
def clk (s : Clock) (t : Nat) (a : Act) : Option (Label × Clock) :=
  match act s.sys a with
  | none => none
  | some (l, u) =>
    match a with
    | .notifies i =>
      match l, s.naps[i]? with
      | .notifies h n, some (h', n', due) =>
        if h' = h ∧ n' = n ∧ due ≤ t then some (l, { s with sys := u, now := t, naps := s.naps.eraseIdx i }) else none
      | _, _ => none
    | _ =>
      match l with
      | .tick k =>
        match s.wakes.get? k.id with
        | some (i, due) =>
          if due ≤ t then
            some (l, { s with
              sys := u
              now := t
              wakes := if k.aborted then s.wakes.erase k.id else s.wakes.insert k.id (i, t + i) })
          else none
        | none => none
      | .process ev => some (l,
        { sys := u, now := t, naps := s.naps ++ ev.out.filterMap (Clock.nap t), wakes := ev.out.foldl (Clock.alarm t) s.wakes })
      | .notifies _ _ => none
      | l => some (l, { s with sys := u, now := t })

theorem clk_step {s u : Clock} {t : Nat} {a : Act} {l : Label} (h : clk s t a = some (l, u)) : Clock.Step t s l u := by
  unfold clk at h
  cases ha : act s.sys a with
  | none => rw [ha] at h; cases h
  | some z =>
    obtain ⟨l', v⟩ := z
    rw [ha] at h
    have hst := act_step ha
    dsimp only at h
    split at h
    · rename_i i
      split at h
      · rename_i hn
        split at h
        · rename_i hc
          obtain ⟨rfl, rfl, hd⟩ := hc
          cases h
          obtain ⟨hi, e⟩ := List.getElem?_eq_some_iff.mp hn
          exact .notifies (e ▸ (List.getElem_cons_eraseIdx_perm hi).symm) hd hst
        · cases h
      · cases h
    · split at h
      · split at h
        · rename_i hw
          split at h
          · cases h; exact .tick hw (by assumption) hst
          · cases h
        · cases h
      · cases h; exact .process hst
      · cases h
      · rename_i h1 h2 h3
        cases h
        refine .plain ?_ hst
        unfold Clock.Plain
        split
        · exact h3 _ _ rfl
        · exact h1 _ rfl
        · exact h2 _ rfl
        · trivial

/-- Play a list of steps with their times. -/
def clocked (late : Nat) (s : Clock) (ls : List (Nat × Label)) : List (Nat × Act) → Option (List (Nat × Label) × Clock)
  | [] => some (ls, s)
  | (t, a) :: as =>
    if s.sys.stopped = false ∧ s.now ≤ t ∧ (s.naps.all fun x => decide (t ≤ x.2.2 + late)) = true then
      match clk s t a with
      | some (l, u) => clocked late u (ls ++ [(t, l)]) as
      | none => none
    else none

theorem clocked_run {late : Nat} {as : List (Nat × Act)} {n s u : Clock} {ls ls' : List (Nat × Label)} (hr : Clock.Run late n ls s)
    (h : clocked late s ls as = some (ls', u)) : Clock.Run late n ls' u := by
  induction as generalizing s ls with
  | nil => cases h; exact hr
  | cons a as ih =>
    obtain ⟨t, a⟩ := a
    unfold clocked at h
    split at h
    · rename_i hc
      obtain ⟨h1, h2, h3⟩ := hc
      cases ha : clk s t a with
      | none => rw [ha] at h; cases h
      | some z =>
        obtain ⟨l, v⟩ := z
        rw [ha] at h
        exact ih (.step hr h1 h2 (fun x hx => of_decide_eq_true (List.all_eq_true.mp h3 x hx)) (clk_step ha)) h
    · cases h

/-- What can be computed of a schedule holds of it. -/
theorem exists_clocked {late : Nat} {as : List (Nat × Act)} {f : List (Nat × Label) → Clock → Bool}
    (h : (clocked late .new [] as).any (fun z => f z.1 z.2) = true) : ∃ ls s, Clock.Run late .new ls s ∧ f ls s = true := by
  cases hx : clocked late .new [] as with
  | none => rw [hx] at h; cases h
  | some z => obtain ⟨ls, s⟩ := z; rw [hx] at h; exact ⟨ls, s, clocked_run .nil hx, h⟩

/-- The same time for several steps. -/
def at' (t : Nat) (as : List Act) : List (Nat × Act) := as.map fun a => (t, a)

end Ex
end Pica
