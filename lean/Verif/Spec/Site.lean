import Verif.Model.Site
import Verif.Spec.Ranging
import Verif.Spec.Geometry
/-! The registry of the web server compared with the emulator. -/

namespace Pica.Spec
open Real

/-- The emulator has a device or an anchor with this handle and address. -/
def Present (p : Pica) (h : Nat) : Category → MacAddress → Prop
  | .uci, m => ∃ d, p.devices.get? h = some d ∧ d.macAddress = m
  | .anchor, m => ∃ a, p.anchors.get? m = some a ∧ a.handle = h

/-- The web server knows a device with this handle, category and address. -/
def Registered (w : Web) (h : Nat) (c : Category) (m : MacAddress) : Prop := ∃ p, w.devices.get? h = some ⟨c, m, p⟩

/-- No handler is dropped whose command was successful, and the answers about one handle are seen in their order. -/
def Tidy (s : Site) : Site.Label → Prop
  | .drops _ (.ok _) => False
  | .answer n _ (.ok h) => ∀ x ∈ s.answers.take n, x.2 ≠ .ok h
  | _ => True

/-- The histories of the program in which this holds. -/
inductive TidyRun (measure : Measure) : List Site.Label → Site → Prop
  | nil : TidyRun measure [] .new
  | step {t u : Site} {ls : List Site.Label} {l : Site.Label} : TidyRun measure ls t → t.ended = false →
      t.sys.stopped = false → Site.Step measure t l u → Tidy t l → TidyRun measure (ls ++ [l]) u

/-- Nothing is under way from the emulator to the web server. -/
def Arrived (s : Site) : Prop := s.events = [] ∧ ∀ a h, (a, Except.ok h) ∉ s.answers

/-- Session `s` with identifier `sid` of device `h` ranges with the anchor or device `k`, whose address there is `m`: an
anchor of its destination list, or another device with a compatible ACTIVE session of the same identifier. -/
def RangesWith (p : Pica) (h : Nat) (sid : UInt32) (s : Session) (k : Nat) (m : MacAddress) : Prop :=
  (m ∈ s.appConfig.dstMacAddress ∧ (p.anchors.get? m).map Anchor.handle = some k) ∨
  (k ≠ h ∧ ∃ q t, p.devices.get? k = some q ∧ q.sessions.get? sid = some t ∧
    t.state = SessionState.sessionStateActive ∧ Compatible s.appConfig t.appConfig ∧ t.appConfig.deviceMacAddress = some m)

/-- The web server has these positions for two handles. -/
def Placed (w : Web) (h k : Nat) (a b : Position) : Prop :=
  (∃ i, w.devices.get? h = some i ∧ i.position = a) ∧ ∃ j, w.devices.get? k = some j ∧ j.position = b

/-- The measurement is one of the address `m` at distance `dist a b`. -/
def Ranges (x : Measurement) (m : MacAddress) (a b : Position) : Prop :=
  (∃ y, m = .short y ∧ u16le x.macAddress = y.1) ∧ |(x.distance.toNat : ℝ) + 1 / 2 - min (dist a b) 65535| ≤ 6 / 10

end Pica.Spec
