import Verif.Model.System
/-!
The tasks around the event loop with a clock: when a delayed notification and a ranging task may act.

Times are counted in microseconds from the start of the emulator. A task that sleeps does not wake before the end of its
sleep (`tokio::time::sleep`). A delayed notification is sent at most `late` after that: how punctual the machine is is a
parameter. A ranging task is given no such bound, since it may have to wait for room in the queue; it sleeps again once its
command is in the queue. `JoinHandle::abort` cancels a ranging task that sleeps; one that has woken may still send the
command of this activation, and is cancelled when it would sleep again.
-/

namespace Pica

/-- The emulator, its tasks and a clock. -/
structure Clock where
  sys : System
  now : Nat
  /-- the delayed notifications with the end of their sleep: `src/session.rs` 75-76, `src/device.rs` 149-150 and 764-768 -/
  naps : List (Nat × Ntf × Nat)
  /-- the ranging tasks, the length of their sleep and its end: `src/device.rs` 819-830 -/
  wakes : AMap Nat (Nat × Nat)

namespace Clock
open System

/-- The emulator just created. -/
def new : Clock where
  sys := .new
  now := 0
  naps := []
  wakes := []

/-- Microseconds of milliseconds, `Duration::from_millis`. -/
def ms (n : Nat) : Nat := 1000 * n

/-- The notifications the outputs of a step at the time `t` put to sleep. -/
def nap (t : Nat) : Out → Option (Nat × Ntf × Nat)
  | .effect h (.notify d n) => some (h, n, t + ms d)
  | _ => none

/-- What an output of a step at the time `t` does to the ranging tasks. -/
def alarm (t : Nat) (w : AMap Nat (Nat × Nat)) : Out → AMap Nat (Nat × Nat)
  | .effect _ (.startTimer k _ i) => w.insert k (ms i.toNat, t + ms i.toNat)
  | .effect _ (.abortTimer k) =>
    match w.get? k with
    | some (_, due) => if t < due then w.erase k else w
    | none => w
  | _ => w

/-- The steps that do not depend on the clock. -/
def Plain : Label → Prop
  | .notifies _ _ | .tick _ | .process _ => False
  | _ => True

/-- The steps at the time `t`. -/
inductive Step (t : Nat) : Clock → Label → Clock → Prop
  | plain {s : Clock} {l : Label} {u : System} : Plain l → System.Step s.sys l u → Step t s l { s with sys := u, now := t }
  /-- `src/session.rs` 77-86, `src/device.rs` 151-156 and 769-777 -/
  | notifies {s : Clock} {h : Nat} {n : Ntf} {due : Nat} {l : List (Nat × Ntf × Nat)} {u : System} :
      s.naps.Perm ((h, n, due) :: l) → due ≤ t → System.Step s.sys (.notifies h n) u →
      Step t s (.notifies h n) { s with sys := u, now := t, naps := l }
  /-- `src/device.rs` 825-829 -/
  | tick {s : Clock} {k : Timer} {i due : Nat} {u : System} :
      s.wakes.get? k.id = some (i, due) → due ≤ t → System.Step s.sys (.tick k) u →
      Step t s (.tick k)
        { s with sys := u, now := t, wakes := if k.aborted then s.wakes.erase k.id else s.wakes.insert k.id (i, t + i) }
  | process {s : Clock} {ev : Pica.Event} {u : System} : System.Step s.sys (.process ev) u →
      Step t s (.process ev)
        { sys := u, now := t, naps := s.naps ++ ev.out.filterMap (nap t), wakes := ev.out.foldl (alarm t) s.wakes }

/-- The schedules with the times of their steps, oldest first. No step is taken while a notification is overdue by more
than `late`. -/
inductive Run (late : Nat) : Clock → List (Nat × Label) → Clock → Prop
  | nil {s : Clock} : Run late s [] s
  | step {s r u : Clock} {ls : List (Nat × Label)} {t : Nat} {l : Label} : Run late s ls r → r.sys.stopped = false →
      r.now ≤ t → (∀ x ∈ r.naps, t ≤ x.2.2 + late) → Step t r l u → Run late s (ls ++ [(t, l)]) u

end Clock
end Pica
