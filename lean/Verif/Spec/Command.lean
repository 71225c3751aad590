import Verif.Spec.Wire
import Verif.Spec.Life
/-! What it means for bytes to be a given command, and for the emulator to answer it. -/

namespace Pica.Spec

/-- The bytes are the command `c`, with any values in the unused bits. -/
def IsCmd (bytes : Bytes) (c : Cmd) : Prop :=
  cmdFits c ∧ ∃ b₀ b₁ r₂ r₃ : UInt8, bytes = b₀ :: b₁ :: r₂ :: r₃ :: cmdPayload c ∧
    b₀.toNat / 32 = 1 ∧ b₀.toNat % 16 = (cmdCode c).1.toNat ∧ b₁.toNat % 64 = (cmdCode c).2.toNat

/-- The packet with these bytes from host `h` is answered by `r`; device `h` becomes `d'`, everything
else stays as it is, and the tasks `e` are spawned or aborted. -/
def AnswersTo (p : Pica) (env : Env) (h : Nat) (bytes : Bytes) (r : Packet) (d' : Device) (e : List Effect) : Prop :=
  p.step env (.uciPacket h bytes) =
    .ok ({ p with devices := p.devices.insert h d' }, .send h r :: e.map (.effect h))

/-- The same for every encoding of a command. -/
def Answers (p : Pica) (env : Env) (h : Nat) (c : Cmd) (r : Rsp) (d' : Device) (e : List Effect) : Prop :=
  ∀ bytes, IsCmd bytes c → AnswersTo p env h bytes (.rsp r) d' e

end Pica.Spec
