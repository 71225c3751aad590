import Verif.Spec.PyLayout
import Verif.Model.PyShow
/-!
The fields of an object, as the console prints them, against the fields of its packet in `src/uci_packets.pdl`.
-/

namespace Pica.Spec
open Py

/-- The values that a packet and those it is derived from fix. -/
def fixedOf : Pdl.Packet → Pdl.Values
  | .root _ => []
  | .child q cs _ => cs.map (fun c => (c.1, .int c.2)) ++ fixedOf q

/-- The fields of a packet with their values. -/
def attributes (o : Obj) : Pdl.Values := fixedOf (packetOf o).1 ++ (packetOf o).2

/-- Fields of the packet description that are no attributes of an object: they say which of the time stamps there are. -/
def lengths : List String := ["tx_timestamp_length", "rx_timestamp_length"]

/-- The fields of an object have the names and values of a packet or structure, and there are no others but the payload. -/
def SameFields (same : Val → Pdl.Value → Prop) (w : Val) (r : Pdl.Values) : Prop :=
  ∃ c vs, w = .obj c vs ∧ vs.length = c.fields.length ∧
    (∀ x ∈ r, x.1 ∉ lengths → ∃ v, (x.1, v) ∈ (c.fields.map (·.1)).zip vs ∧ same v x.2) ∧
    ∀ f ∈ c.fields, f.1 = "payload" ∨ f.1 ∈ r.map (·.1)

/-- The same value; `k` bounds the depth of the structures. -/
def Same (k : Nat) (w : Val) (v : Pdl.Value) : Prop :=
  match k, v with
  | _, .int n => w = .int n ∨ w = .optional (some n)
  | _, .bytes b => w = .bytes b
  | _, .ints l => w = .list (l.map .int)
  | _, .absent => w = .optional none
  | k + 1, .record r => SameFields (Same k) w r
  | k + 1, .records rs => ∃ ws, w = .list ws ∧ List.Forall₂ (SameFields (Same k)) ws rs
  | 0, _ => False

/-- What follows the name of a field on its line. The elements of a list and the fields of a structure have lines of their
own. -/
def Line (text : Text) : Pdl.Value → Prop
  | .int n => ∃ m, text = " = ".toList ++ m ++ " (0x".toList ++ Nat.toDigits 16 n ++ [')'] ∧
      (m = Nat.toDigits 10 n ∨ ∃ e ∈ classes, ∃ k, (k, n) ∈ e.members ∧ m = e.name.toList ++ [':', ':'] ++ k.toList)
  | .bytes b => text = " = ".toList ++ (toString (b.map UInt8.toNat)).toList
  | .ints _ | .records _ => text = []
  | .record _ => ∃ c : Class, text = " = ".toList ++ c.name.toList
  | .absent => False

end Pica.Spec
