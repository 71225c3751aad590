import Verif.Spec.Answers
import Verif.Spec.Notices
/-! Schedules that go on forever, in which no task is passed over forever. -/

namespace Pica.Spec
open Pica.System

/-- A schedule without end: its states and its steps. There is no panic of the event loop in it. -/
structure Endless (σ : Nat → System) (ℓ : Nat → Label) : Prop where
  start : σ 0 = .new
  step : ∀ i, (σ i).stopped = false ∧ Step (σ i) (ℓ i) (σ (i + 1))

/-- The first steps of it. -/
def upTo (ℓ : Nat → Label) (n : Nat) : List Label := (List.range n).map ℓ

/-- If one of these steps is possible again and again, one of them is taken. -/
def FairTo (σ : Nat → System) (ℓ : Nat → Label) (P : Label → Prop) : Prop :=
  ∀ i, (∀ j ≥ i, ∃ k ≥ j, ∃ l u, P l ∧ Step (σ k) l u) → ∃ j ≥ i, P (ℓ j)

/-- Every task of the emulator gets its turn: the event loop, the connections that are closed, the ranging tasks, those of them
that have been cancelled, the delayed notifications and the in-band stops. Clients and hosts need not do anything. -/
structure Fair (σ : Nat → System) (ℓ : Nat → Label) : Prop where
  loop : FairTo σ ℓ fun l => ∃ c, dequeued l = some c
  leaves : ∀ h, FairTo σ ℓ (· = .leaves h)
  tick : ∀ t, FairTo σ ℓ (· = .tick t)
  dies : ∀ t, FairTo σ ℓ (· = .dies t)
  notifies : ∀ h n, FairTo σ ℓ (· = .notifies h n)
  inBand : ∀ mac sid, FairTo σ ℓ (· = .inBand mac sid)

end Pica.Spec
