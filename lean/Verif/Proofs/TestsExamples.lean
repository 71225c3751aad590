import Verif.Proofs.ClockExamples
import Verif.Proofs.Map
import Verif.Model.Tests
/-! Concrete runs of the tests. -/

namespace Pica
namespace Ex
open Tests

/-- What happens next in a run. -/
inductive Do where
  | emu (a : Act)
  | sends (h : Nat)
  | gets (h : Nat)
  | times (h : Nat)

/-- `Free`, computed. -/
def free (s : Test) : System.Label → Bool
  | .packet _ _ | .fails _ => false
  | .closes h => (s.hosts.get? h).any fun H => decide (H.todo = [])
  | _ => true

theorem free_of {s : Test} {l : System.Label} (h : free s l = true) : Free s l := by
  cases l with
  | packet => cases h
  | fails => cases h
  | closes k =>
    unfold free at h
    dsimp only at h
    cases hH : s.hosts.get? k with
    | none => rw [hH] at h; cases h
    | some H => rw [hH] at h; exact ⟨H, hH, of_decide_eq_true h⟩
  | _ => trivial

/-- The step at the time `t`, if it is possible. -/
def tst (script : Nat → List Statement) (s : Test) (t : Nat) : Do → Option (Label × Test)
  | .emu a =>
    match clk s.clock t a with
    | none => none
    | some (l, u) => if free s l = true then some (.emulator l, ⟨u, stamp t s.stamps l, Tests.after script t s.hosts l⟩) else none
  | .sends h =>
    match s.hosts.get? h with
    | some H =>
      match H.failed, H.todo with
      | false, .send c :: todo =>
        match c.wire with
        | some b =>
          match clk s.clock t (.packet h b) with
          | some (.packet h' b', u) =>
            if h' = h ∧ b' = b then
              some (.sends h, ⟨u, s.stamps ++ [t], s.hosts.insert h { H with todo := todo, since := t, able := t }⟩)
            else none
          | _ => none
        | none => none
      | _, _ => none
    | none => none
  | .gets h =>
    match s.hosts.get? h with
    | some H =>
      match H.failed, H.todo with
      | false, .expect x _ :: todo =>
        match H.box x with
        | (a, b) :: rest =>
          some (.gets h, ⟨{ s.clock with now := t }, s.stamps, s.hosts.insert h
            (if accepts x b then { H.take x rest with todo := todo, since := t, able := max H.able a } else { H with failed := true })⟩)
        | [] => none
      | _, _ => none
    | none => none
  | .times h =>
    match s.hosts.get? h with
    | some H =>
      match H.failed, H.todo with
      | false, .expect x timeout :: _ =>
        match H.box x with
        | [] =>
          if H.since + timeout ≤ t then
            some (.times h, ⟨{ s.clock with now := t }, s.stamps, s.hosts.insert h { H with failed := true }⟩)
          else none
        | _ :: _ => none
      | _, _ => none
    | none => none

theorem tst_step {script : Nat → List Statement} {s u : Test} {t : Nat} {a : Do} {l : Label}
    (h : tst script s t a = some (l, u)) : Step script t s l u := by
  cases a with
  | emu a =>
    unfold tst at h; dsimp only at h
    split at h
    · cases h
    · rename_i hc
      split at h
      · cases h
        exact .emulator (free_of (by assumption)) (clk_step hc)
      · cases h
  | sends k =>
    unfold tst at h; dsimp only at h
    split at h
    · rename_i H hH
      split at h
      · rename_i h1 h2
        split at h
        · rename_i b hb
          split at h
          · rename_i hc
            split at h
            · rename_i e
              obtain ⟨rfl, rfl⟩ := e
              cases h
              exact .sends hH h1 h2 hb (clk_step hc)
            · cases h
          · cases h
        · cases h
      · cases h
    · cases h
  | gets k =>
    unfold tst at h; dsimp only at h
    split at h
    · rename_i H hH
      split at h
      · rename_i h1 h2
        split at h
        · rename_i h3
          cases h
          exact .gets hH h1 h2 h3
        · cases h
      · cases h
    · cases h
  | times k =>
    unfold tst at h; dsimp only at h
    split at h
    · rename_i H hH
      split at h
      · rename_i h1 h2
        split at h
        · rename_i h3
          split at h
          · cases h
            exact .times hH h1 h2 h3 (by assumption)
          · cases h
        · cases h
      · cases h
    · cases h

/-- `Host.Quick`, computed. -/
def quick (lag t : Nat) (H : Tests.Host) : Bool :=
  H.failed || match H.todo with
  | .send _ :: _ => decide (t ≤ H.since + lag)
  | .expect x _ :: _ => (H.box x).head?.all fun y => decide (t ≤ max H.able y.1 + lag)
  | [] => true

/-- `InTime`, computed. -/
def inTime (late lag t : Nat) (s : Test) : Bool :=
  decide (s.clock.now ≤ t) && s.clock.naps.all (fun x => decide (t ≤ x.2.2 + late)) &&
  s.stamps.all (fun a => decide (t ≤ a + lag)) &&
  s.clock.sys.timers.all (fun k => match s.clock.wakes.get? k.id with
    | some (_, due) => decide (t ≤ due + lag)
    | none => true) &&
  s.hosts.all (fun x => quick lag t x.2)

theorem quick_of {lag t : Nat} {H : Tests.Host} (h : quick lag t H = true) : H.Quick lag t := by
  intro hf
  unfold quick at h
  rw [hf, Bool.false_or] at h
  constructor
  · intro c todo e
    rw [e] at h
    exact of_decide_eq_true h
  · intro x n todo e y ys hy
    rw [e] at h
    dsimp only at h
    rw [hy] at h
    exact of_decide_eq_true h

theorem inTime_of {late lag t : Nat} {s : Test} (h : inTime late lag t s = true) : InTime late lag t s := by
  unfold inTime at h
  simp only [Bool.and_eq_true] at h
  obtain ⟨⟨⟨⟨h1, h2⟩, h3⟩, h4⟩, h5⟩ := h
  refine ⟨of_decide_eq_true h1, fun x hx => of_decide_eq_true (List.all_eq_true.mp h2 x hx),
    fun x hx => of_decide_eq_true (List.all_eq_true.mp h3 x hx), ?_, ?_⟩
  · intro k hk i due hw
    have := List.all_eq_true.mp h4 k hk
    rw [hw] at this
    exact of_decide_eq_true this
  · intro k H hH
    exact quick_of (List.all_eq_true.mp h5 (k, H) (AMap.mem_of_get? hH))

/-- Play a list of steps with their times. -/
def tested (script : Nat → List Statement) (late lag : Nat) (s : Test) (ls : List (Nat × Label)) :
    List (Nat × Do) → Option (List (Nat × Label) × Test)
  | [] => some (ls, s)
  | (t, a) :: as =>
    if s.clock.sys.stopped = false ∧ inTime late lag t s = true then
      match tst script s t a with
      | some (l, u) => tested script late lag u (ls ++ [(t, l)]) as
      | none => none
    else none

theorem tested_run {script : Nat → List Statement} {late lag : Nat} {as : List (Nat × Do)} {s u : Test} {ls ls' : List (Nat × Label)}
    (hr : Run script late lag ls s) (h : tested script late lag s ls as = some (ls', u)) : Run script late lag ls' u := by
  induction as generalizing s ls with
  | nil => cases h; exact hr
  | cons a as ih =>
    obtain ⟨t, a⟩ := a
    unfold tested at h
    split at h
    · rename_i hc
      split at h
      · rename_i ha
        exact ih (.step hr hc.1 (inTime_of hc.2) (tst_step ha)) h
      · cases h
    · cases h

/-- What can be computed of a run holds of it. -/
theorem exists_tested {script : Nat → List Statement} {late lag : Nat} {as : List (Nat × Do)} {f : List (Nat × Label) → Test → Bool}
    (h : (tested script late lag .new [] as).any (fun z => f z.1 z.2) = true) : ∃ ls s, Run script late lag ls s ∧ f ls s = true := by
  cases hx : tested script late lag .new [] as with
  | none => rw [hx] at h; cases h
  | some z => obtain ⟨ls, s⟩ := z; rw [hx] at h; exact ⟨ls, s, tested_run .nil hx, h⟩

/-- The same time for several steps. -/
def at'' (t : Nat) (as : List Do) : List (Nat × Do) := as.map fun a => (t, a)

end Ex
end Pica
