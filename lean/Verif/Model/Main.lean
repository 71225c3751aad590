import Verif.Model.System
/-!
The program `src/bin/main.rs`: the emulator and its tasks (`Verif/Model/System.lean`) with an estimator that always gives the
same answer, and a listener that sends nothing but `Connect`.
-/

namespace Pica.Main
open Pica.System

/-- `MockRangingEstimator::estimate`, `src/bin/main.rs` 60-73: `Some(Default::default())`. -/
def estimate : Nat → Nat → Option RangingMeasurement := fun _ _ => some ⟨0, 0, 0⟩

/-- The steps of the program: those of the emulator, where the commands from outside are those of `accept_incoming`,
`src/bin/main.rs` 27-47, and the estimator is the one above. -/
inductive Step : System → Label → System → Prop
  | connect {s t : System} : System.Step s (.request .connect) t → Step s (.request .connect) t
  | process {s t : System} {c : Command} {out : List Out} : System.Step s (.process ⟨s.env estimate, c, out⟩) t →
      Step s (.process ⟨s.env estimate, c, out⟩) t
  | panics {s : System} {c : Command} {q : List Command} {x : Panic} : s.queue = c :: q →
      s.pica.step (s.env estimate) c = .error x → Step s (.panics c x) { s with queue := q, stopped := true }
  | task {s t : System} {l : Label} : (∀ c, l ≠ .request c) → (∀ ev, l ≠ .process ev) → (∀ c x, l ≠ .panics c x) →
      System.Step s l t → Step s l t

/-- The histories of the program, oldest step first. -/
inductive Run : System → List Label → System → Prop
  | nil {s : System} : Run s [] s
  | step {s t u : System} {ls : List Label} {l : Label} : Run s ls t → t.stopped = false → Step t l u → Run s (ls ++ [l]) u

end Pica.Main
