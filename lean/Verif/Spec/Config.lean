import Verif.Spec.Command
/-! The device configuration: DEVICE_STATE (0x00, read only) and LOW_POWER_MODE (0x01). -/

namespace Pica.Spec

/-- What one SET_CONFIG parameter makes of the low power mode: a value of zero disables it, any other or no value
enables it. -/
def setPower (old : Bool) (p : ConfigParameter) : Bool :=
  if p.id.code = 0x01 then (match p.value with
    | [] => true
    | b :: _ => decide (b ≠ 0))
  else old

/-- The answer to one SET_CONFIG parameter, if it is refused. -/
def refusal (p : ConfigParameter) : Option ConfigParameterStatus :=
  if p.id.code = 0x00 then some ⟨p.id, .readOnly⟩
  else if p.id.code = 0x01 then none
  else some ⟨p.id, .invalidParam⟩

/-- SET_CONFIG from host `h` with these parameters, answered. -/
def Configures (h : Nat) (ev : Pica.Event) (ps : List ConfigParameter) : Prop :=
  ∃ bytes st l, ev.command = .uciPacket h bytes ∧ IsCmd bytes (.coreSetConfig ps) ∧ .rsp (.coreSetConfig st l) ∈ sentTo h ev.out

/-- The device with handle `h` is connected or reset. -/
def Resets (h : Nat) (ev : Pica.Event) : Prop :=
  (∃ m, .event (.connected h m) ∈ ev.out) ∨ ∃ bytes rc, ev.command = .uciPacket h bytes ∧ IsCmd bytes (.coreDeviceReset rc)

/-- The low power mode a history leaves the device `h` in. -/
inductive Power (h : Nat) : List Pica.Event → Bool → Prop
  | reset {tr : List Pica.Event} {ev : Pica.Event} : Resets h ev → Power h (tr ++ [ev]) true
  | set {tr : List Pica.Event} {ev : Pica.Event} {v : Bool} {ps : List ConfigParameter} : Power h tr v → ¬Resets h ev →
      Configures h ev ps → Power h (tr ++ [ev]) (ps.foldl setPower v)
  | other {tr : List Pica.Event} {ev : Pica.Event} {v : Bool} : Power h tr v → ¬Resets h ev → (∀ ps, ¬Configures h ev ps) →
      Power h (tr ++ [ev]) v

end Pica.Spec
