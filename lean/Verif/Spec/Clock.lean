import Verif.Model.Clock
import Verif.Spec.Notices
/-! Observations of schedules with times. Times are in microseconds. -/

namespace Pica.Spec
open Pica.System

/-- The notifications the device of a host has scheduled, each with the end of its delay, in the order of the commands. -/
def promised (h : Nat) (ls : List (Nat × Label)) : List (Nat × Ntf) :=
  ls.flatMap fun
    | (t, .process ev) => (effectsOf h ev.out).filterMap fun
      | .notify d n => some (t + 1000 * d, n)
      | _ => none
    | _ => []

/-- The delayed notifications put on the channel to a host, each with its time. -/
def handed (h : Nat) (ls : List (Nat × Label)) : List (Nat × Ntf) :=
  ls.filterMap fun
    | (t, .notifies h' n) => if h' = h then some (t, n) else none
    | _ => none

/-- The times at which a session changed its state. -/
def changes (h : Nat) (sid : UInt32) (ls : List (Nat × Label)) : List Nat :=
  ls.flatMap fun
    | (t, .process ev) => (statusNtfs sid (effectsOf h ev.out)).map fun _ => t
    | _ => []

/-- The times at which a ranging task put its command in the queue. -/
def ticks (k : Nat) (ls : List (Nat × Label)) : List Nat :=
  ls.filterMap fun
    | (t, .tick x) => if x.id = k then some t else none
    | _ => none

/-- The same for all the ranging tasks of a session. -/
def beats (h : Nat) (sid : UInt32) (ls : List (Nat × Label)) : List Nat :=
  ls.filterMap fun
    | (t, .tick x) => if x.device = h ∧ x.session = sid then some t else none
    | _ => none

/-- The ranging intervals, in milliseconds, with which a session was started. -/
def intervals (h : Nat) (sid : UInt32) (ls : List (Nat × Label)) : List Nat :=
  ls.flatMap fun
    | (_, .process ev) => (effectsOf h ev.out).filterMap fun
      | .startTimer _ x i => if x = sid then some i.toNat else none
      | _ => none
    | _ => []

/-- The time of the last step. -/
def lastTime : List (Nat × Label) → Nat
  | [] => 0
  | [(t, _)] => t
  | _ :: l => lastTime l

/-- The schedules of a machine on which a ranging task that is due and not aborted puts its command in the queue at most `lag`
later: no step is taken while one is overdue by more. -/
inductive PromptRun (late lag : Nat) : Clock → List (Nat × Label) → Clock → Prop
  | nil {s : Clock} : PromptRun late lag s [] s
  | step {s r u : Clock} {ls : List (Nat × Label)} {t : Nat} {l : Label} : PromptRun late lag s ls r → r.sys.stopped = false →
      r.now ≤ t → (∀ x ∈ r.naps, t ≤ x.2.2 + late) →
      (∀ k ∈ r.sys.timers, k.aborted = false → ∀ i due, r.wakes.get? k.id = some (i, due) → t ≤ due + lag) →
      Clock.Step t r l u → PromptRun late lag s (ls ++ [(t, l)]) u

/-- The times at which a ranging command of the session was processed. -/
def ranged (h : Nat) (sid : UInt32) (ls : List (Nat × Label)) : List Nat :=
  ls.filterMap fun
    | (t, .process ev) => if ev.command = .ranging h sid then some t else none
    | _ => none

end Pica.Spec
