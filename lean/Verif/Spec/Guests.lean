import Verif.Spec.SiteFair
import Verif.Spec.Fair
/-! Hosts that come and go while the web server runs. -/

namespace Pica.Spec

/-- The steps of the emulator in a history of the program. -/
def beneath (ls : List Site.Label) : List System.Label :=
  ls.filterMap fun
    | .system l => some l
    | .ask a => some (.request a.command)
    | .process ev => some (.process ev)
    | .panics c x => some (.panics c x)
    | _ => none

/-- The tasks of the emulator get their turn in the program: the connections that are closed, the ranging tasks, those of them
that have been cancelled, the delayed notifications and the in-band stops. -/
structure TasksFair (measure : Measure) (σ : Nat → Site) (ℓ : Nat → Site.Label) : Prop where
  leaves : ∀ h, SiteFairTo measure σ ℓ (· = .system (.leaves h))
  tick : ∀ t, SiteFairTo measure σ ℓ (· = .system (.tick t))
  dies : ∀ t, SiteFairTo measure σ ℓ (· = .system (.dies t))
  notifies : ∀ h n, SiteFairTo measure σ ℓ (· = .system (.notifies h n))
  inBand : ∀ mac sid, SiteFairTo measure σ ℓ (· = .system (.inBand mac sid))

end Pica.Spec
