import Verif.Spec.System
/-! Schedules with hosts that avoid what the emulator does not survive. -/

namespace Pica.Spec
open Pica.System

/-- Commands of a host that uses FiRa sessions with short addresses and at most eight controlees. -/
def Mild : Cmd → Prop
  | .sessionInit _ ty => ty = .firaRangingSession ∨ ty = .firaRangingAndInBandDataSession
  | .sessionSetAppConfig _ l =>
    ∀ t ∈ l, (t.cfgId.code = 0x26 → t.v = [0]) ∧ (t.cfgId.code = 0x05 → ∀ n, t.v = [n] → n.toNat ≤ 8)
  | _ => True

/-- Commands that a device may not survive, or that end a session, while the device is ranging: all controlee updates but
the addition of at least one controlee are among them. -/
def Unsettling : Cmd → Prop
  | .coreDeviceReset _ | .coreGetDeviceInfo | .coreSetConfig _ | .sessionDeinit _ => True
  | .sessionUpdateMulticast _ a q => a ≠ .addControlee ∨ q = [0]
  | _ => False

/-- SESSION_START from host `h`. -/
def Starts (h : Nat) (c : Command) : Prop := ∃ bytes sid, c = .uciPacket h bytes ∧ IsCmd bytes (.sessionStart sid)

/-- Device `h` is not ranging, no timer of it is left and no round of it is in the queue. -/
def Settled (s : System) (h : Nat) : Prop :=
  (∀ d, s.pica.devices.get? h = some d → d.state = .deviceStateReady) ∧ (∀ t ∈ s.timers, t.device ≠ h) ∧
  ∀ sid, .ranging h sid ∉ s.queue

/-- The steps hosts have to restrict themselves to: they send well formed, mild commands; a connection closes and an
unsettling command reaches the emulator only when the device is settled; and there are at most 247 devices. -/
def Prudent (s : System) (l : Label) : Prop :=
  (∀ h bytes, l = .packet h bytes → ∃ x, IsCmd bytes x ∧ Mild x) ∧
  (∀ h, l = .closes h ∨ l = .fails h → Settled s h ∧ ∀ c ∈ s.queue, ¬Starts h c) ∧
  (∀ h bytes x, dequeued l = some (.uciPacket h bytes) → IsCmd bytes x → Unsettling x → Settled s h) ∧
  (dequeued l = some .connect → s.pica.devices.length < 247)

/-- The schedules made of such steps. -/
inductive Careful : List Label → System → Prop
  | nil : Careful [] .new
  | step {s u : System} {ls : List Label} {l : Label} : Careful ls s → s.stopped = false → Step s l u → Prudent s l →
      Careful (ls ++ [l]) u

end Pica.Spec
