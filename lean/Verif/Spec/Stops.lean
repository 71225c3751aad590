import Verif.Spec.System
/-! In-band stops over a whole schedule. -/

namespace Pica.Spec
open Pica.System

/-- The number of stops an output asks for, of the session `sid` of the devices with the address `mac`. -/
def stopsIn (mac : MacAddress) (sid : UInt32) : Out → Nat
  | .effect _ (.stopRanging m s n) => if m = mac ∧ s = sid then n.toNat else 0
  | _ => 0

/-- The number of stops asked for. -/
def stopsAsked (mac : MacAddress) (sid : UInt32) (ls : List Label) : Nat :=
  (((processed ls).flatMap (·.out)).map (stopsIn mac sid)).sum

/-- The number of stops put in the queue. -/
def stopsSent (mac : MacAddress) (sid : UInt32) (ls : List Label) : Nat :=
  ls.countP fun
    | .inBand m s => decide (m = mac ∧ s = sid)
    | _ => false

/-- The number of stops the tasks that send them have not sent yet. -/
def stopsLeft (mac : MacAddress) (sid : UInt32) (s : System) : Nat :=
  (s.stops.map fun x => if x.1 = mac ∧ x.2.1 = sid then x.2.2 else 0).sum

end Pica.Spec
