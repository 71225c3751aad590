import Verif.Spec.Life
import Verif.Spec.System
/-! Delayed notifications over a whole schedule. -/

namespace Pica.Spec
open Pica.System

/-- The notification an effect schedules. -/
def noticeIn : Effect → Option Ntf
  | .notify _ n => some n
  | _ => none

/-- The notifications the device of a host has scheduled, oldest first. -/
def scheduled (h : Nat) (ls : List Label) : List Ntf := (historyOf h (processed ls)).filterMap noticeIn

/-- The delayed notifications put on the channel to a host, oldest first. -/
def arrived (h : Nat) (ls : List Label) : List Ntf :=
  ls.filterMap fun
    | .notifies h' n => if h' = h then some n else none
    | _ => none

/-- The notifications to a host that still sleep. -/
def waiting (h : Nat) (s : System) : List Ntf :=
  s.ntfs.filterMap fun x => if x.1 = h then some x.2 else none

/-- The new state in a SESSION_STATUS_NTF of a session. -/
def statusIn (sid : UInt32) : Ntf → Option SessionState
  | .sessionStatus id st _ => if id = sid then some st else none
  | _ => none

/-- The host waits: at no time more than one notification to it is on its way. -/
def OneAtATime (h : Nat) (ls : List Label) : Prop :=
  ∀ ls₁, ls₁ <+: ls → (scheduled h ls₁).length ≤ (arrived h ls₁).length + 1

end Pica.Spec
