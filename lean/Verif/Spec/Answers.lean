import Verif.Spec.Dispatch
import Verif.Spec.System
/-! The responses due to a host over a whole schedule. -/

namespace Pica.Spec
open System

/-- A packet with the group and opcode of CORE_DEVICE_RESET_CMD. -/
def resets : Bytes → Bool
  | b₀ :: b₁ :: _ :: _ :: _ => decide (b₀.toNat / 32 = 1 ∧ b₀.toNat % 16 = 0 ∧ b₁.toNat % 64 = 0)
  | _ => false

/-- The group and opcode of the response due to a packet, if any: to every command of a host that has reset its device, to the
reset itself, to a command of a reserved group, and to a packet of unknown type. -/
def dueTo (ready : Bool) : Bytes → Option (Nat × Nat)
  | b₀ :: b₁ :: r =>
    if 4 ≤ b₀.toNat / 32 ∨ (b₀.toNat / 32 = 1 ∧ (ready = true ∨ b₀.toNat % 16 ∈ reservedGroups ∨ resets (b₀ :: b₁ :: r) = true)) then
      some (b₀.toNat % 16, b₁.toNat % 64)
    else none
  | _ => none

/-- The responses due to a sequence of packets. -/
def due : Bool → List Bytes → List (Nat × Nat)
  | _, [] => []
  | ready, b :: bs => (dueTo ready b).toList ++ due (ready || resets b) bs

/-- The packets of a host processed in a schedule. -/
def heard (h : Nat) (ls : List Label) : List Bytes :=
  ls.filterMap fun
    | .process ev => match ev.command with
      | .uciPacket h' bytes => if h' = h then some bytes else none
      | _ => none
    | _ => none

/-- The packets of a host its connection has put in the queue in a schedule. -/
def received (h : Nat) (ls : List Label) : List Bytes :=
  ls.filterMap fun
    | .packet h' bytes => if h' = h then some bytes else none
    | _ => none

/-- Group and opcode of a response. -/
def responseCode : Bytes → Option (Nat × Nat)
  | c₀ :: c₁ :: _ => if c₀.toNat / 32 = 2 then some (c₀.toNat % 16, c₁.toNat % 64) else none
  | _ => none

end Pica.Spec
