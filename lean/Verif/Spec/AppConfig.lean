import Verif.Spec.AppFormat
import Verif.Model.AppConfig
/-!
Specification of a sequence of parameter settings, on the bytes of the parameters. The only contact
with the model is `View.of`, the reading of all parameters by `AppConfig::get`.
-/

namespace Pica.Spec

/-- What can be read from a configuration: the bytes of each parameter, if it has a value. -/
abbrev View := UInt8 → Option Bytes

/-- The parameters of a configuration. -/
def View.of (c : AppConfig) : View := fun id => c.get ⟨id⟩

/-- A one-byte parameter. -/
def View.byte (w : View) (id : UInt8) : UInt8 := ((w id).bind List.head?).getD 0

/-- The value is legal for the parameter. -/
def Legal (w : View) (id : UInt8) (v : Bytes) : Prop :=
  ∃ f, formatOf id = some f ∧ f.Allows (w.byte 0x26) (w.byte 0x05) v

/-- A MAC address is set while MAC_ADDRESS_MODE is 1. -/
def Unsupported (w : View) (id : UInt8) : Prop := (id = 0x06 ∨ id = 0x07) ∧ w.byte 0x26 = 1

/-- The bytes kept: a 4-byte UWB_INITIATION_TIME is zero extended. -/
def kept (id : UInt8) (v : Bytes) : Bytes := if id = 0x2b ∧ v.length = 4 then v ++ [0, 0, 0, 0] else v

/-- Setting the parameters `l` one after the other on `w` gives `w'`; `bad` are the identifiers of the
refused ones, in order. -/
inductive Applied : View → List (UInt8 × Bytes) → View → List UInt8 → Prop
  | nil (w : View) : Applied w [] w []
  | good {w w' : View} {id : UInt8} {v : Bytes} {l : List (UInt8 × Bytes)} {bad : List UInt8} :
      ¬Unsupported w id → Legal w id v → Applied (fun i => if i = id then some (kept id v) else w i) l w' bad →
      Applied w ((id, v) :: l) w' bad
  | bad {w w' : View} {id : UInt8} {v : Bytes} {l : List (UInt8 × Bytes)} {bad : List UInt8} :
      ¬Unsupported w id → ¬Legal w id v → Applied w l w' bad → Applied w ((id, v) :: l) w' (id :: bad)

/-- DEVICE_ROLE, MULTI_NODE_MODE, RANGING_ROUND_USAGE, DEVICE_MAC_ADDRESS and SCHEDULE_MODE have a value. -/
def Complete (w : View) : Prop := ∀ id ∈ [0x11, 0x03, 0x01, 0x06, (0x22 : UInt8)], w id ≠ none

end Pica.Spec
