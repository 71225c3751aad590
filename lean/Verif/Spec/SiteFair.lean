import Verif.Spec.Replies
import Verif.Spec.Site
import Verif.Spec.Registry
/-! Schedules of the program of the web server that go on forever, in which nobody is passed over forever. -/

namespace Pica.Spec

/-- A schedule without end: its states and its steps. The program does not end in it. -/
structure SiteEndless (measure : Measure) (σ : Nat → Site) (ℓ : Nat → Site.Label) : Prop where
  start : σ 0 = .new
  step : ∀ i, (σ i).ended = false ∧ (σ i).sys.stopped = false ∧ Site.Step measure (σ i) (ℓ i) (σ (i + 1))

/-- The first steps of it. -/
def siteUpTo (ℓ : Nat → Site.Label) (n : Nat) : List Site.Label := (List.range n).map ℓ

/-- If one of these steps is possible again and again, one of them is taken. -/
def SiteFairTo (measure : Measure) (σ : Nat → Site) (ℓ : Nat → Site.Label) (P : Site.Label → Prop) : Prop :=
  ∀ i, (∀ j ≥ i, ∃ k ≥ j, ∃ l u, P l ∧ Site.Step measure (σ k) l u) → ∃ j ≥ i, P (ℓ j)

/-- The event loop, the task that hears of connections, and every handler that waits get their turn. Clients need not do
anything. -/
structure SiteFair (measure : Measure) (σ : Nat → Site) (ℓ : Nat → Site.Label) : Prop where
  loop : SiteFairTo measure σ ℓ fun l => (∃ ev, l = .process ev) ∨ ∃ c x, l = .panics c x
  events : SiteFairTo measure σ ℓ fun l => (∃ e, l = .event e) ∨ l = .lags
  handlers : ∀ a r, SiteFairTo measure σ ℓ fun l => (∃ n, l = .answer n a r) ∨ l = .drops a r

/-- The connection events broadcast by the emulator, oldest first. -/
def broadcasts (ls : List Site.Label) : List PicaEvent :=
  ls.flatMap fun
    | .process ev => events ev.out
    | _ => []

/-- The connection events handled by the web server, oldest first. -/
def handled (ls : List Site.Label) : List PicaEvent :=
  ls.filterMap fun
    | .event e => some e
    | _ => none

end Pica.Spec
