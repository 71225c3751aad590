import Verif.Spec.Command
import Verif.Proofs.Pica
import Verif.Props.Codec
/-! From packets to command handlers. -/

set_option linter.dupNamespace false

namespace Pica
open Spec

theorem parseMessageType_iff (b : UInt8) :
    (parseMessageType b = .data ↔ b.toNat / 32 = 0) ∧ (parseMessageType b = .response ↔ b.toNat / 32 = 2) ∧
    (parseMessageType b = .notification ↔ b.toNat / 32 = 3) ∧
    (parseMessageType b = .command ↔ b.toNat / 32 = 1 ∨ 4 ≤ b.toNat / 32) :=
  forall_u8 (P := fun b =>
    (parseMessageType b = .data ↔ b.toNat / 32 = 0) ∧ (parseMessageType b = .response ↔ b.toNat / 32 = 2) ∧
    (parseMessageType b = .notification ↔ b.toNat / 32 = 3) ∧
    (parseMessageType b = .command ↔ b.toNat / 32 = 1 ∨ 4 ≤ b.toNat / 32)) (by decide +kernel) b

theorem isCmd_iff {bytes : Bytes} {c : Cmd} : IsCmd bytes c ↔
    ∃ p, ControlPacket.decode bytes = some p ∧ p.mt = .command ∧ Cmd.parse p.gid p.payload = .ok (some c) :=
  (Props.C47_command_iff bytes c).symm

/-- A command is not answered with DEVICE_STATE_ERROR when the device was reset or it is the reset itself. -/
def Ready (d : Device) (c : Cmd) : Prop := d.isReset = true ∨ ∃ rc, c = .coreDeviceReset rc

theorem isReset_of_parse {p : ControlPacket} {rc : ResetConfig}
    (h : Cmd.parse p.gid p.payload = .ok (some (.coreDeviceReset rc))) : Device.isCoreDeviceResetCmd p = true := by
  obtain ⟨-, hg, b, r₂, r₃, hp, hb⟩ := layout_of_parse _ _ _ h
  unfold Device.isCoreDeviceResetCmd
  rw [hp]
  have hgid : p.gid = .core := by
    have : p.gid.code = 0 := hg
    revert this
    cases p.gid <;> decide
  rw [hgid]
  have : decodeOid CoreOpcodeId (b :: r₂ :: r₃ :: cmdPayload (.coreDeviceReset rc)) =
      some (.deviceReset, cmdPayload (.coreDeviceReset rc)) := by
    have hb' : b &&& 0x3f = 0 := and_3f_eq.mpr hb
    simp only [decodeOid, hb']; rfl
  rw [this]

theorem rsp_isSome {r : Rsp} : (Packet.rsp r).encode.isSome = true ↔ rspFits r := by
  rw [Option.isSome_iff_exists]
  constructor
  · rintro ⟨b, hb⟩; exact ((Props.C48_rsp_bytes r b).mp hb).1
  · intro hf; exact ⟨_, (Props.C48_rsp_bytes r _).mpr ⟨hf, rfl⟩⟩

theorem ntf_isSome {n : Ntf} : (Packet.ntf n).encode.isSome = true ↔ ntfFits n := by
  rw [Option.isSome_iff_exists]
  constructor
  · rintro ⟨b, hb⟩; exact ((Props.C48_ntf_bytes n b).mp hb).1
  · intro hf; exact ⟨_, (Props.C48_ntf_bytes n _).mpr ⟨hf, rfl⟩⟩

/-- The result of a command on a device, once the handler has run. -/
def finish : Except Panic HandlerResult → Except Panic (Device × Option Packet × List Effect)
  | .error x => .error x
  | .ok (d, r, e) => Device.sending (.rsp r) (d, some (.rsp r), e)

theorem receive_cmd {d : Device} {tid : Nat} {bytes : Bytes} {c : Cmd} (hr : Ready d c) (hc : IsCmd bytes c) :
    d.receivePacket tid bytes = finish (d.exec tid c) := by
  have hc' := hc
  obtain ⟨-, b₀, b₁, r₂, r₃, hb, h0, -⟩ := hc
  obtain ⟨p, hd, hm, hp⟩ := isCmd_iff.mp hc'
  have hmt : parseMessageType b₀ = .command := (parseMessageType_iff b₀).2.2.2.mpr (.inl h0)
  subst hb
  unfold Device.receivePacket
  simp only [hmt, hd]
  have hcond : ¬(!d.isReset && !Device.isCoreDeviceResetCmd p) = true := by
    rcases hr with hr | ⟨rc, rfl⟩
    · simp [hr]
    · simp [isReset_of_parse hp]
  unfold Device.receiveCommand
  rw [if_neg hcond, hp]
  simp only [bind, Except.bind]
  cases d.exec tid c with
  | error x => rfl
  | ok y => rfl

theorem step_cmd {p : Pica} {env : Env} {h : Nat} {d : Device} {c : Cmd} {d' : Device} {r : Rsp} {e : List Effect}
    (hd : p.devices.get? h = some d) (hr : Ready d c) (hx : d.exec env.tid c = .ok (d', r, e))
    (hf : cmdFits c → rspFits r) : Answers p env h c r d' e := by
  intro bytes hb
  unfold AnswersTo Pica.step Pica.uciPacket
  simp only [hd, receive_cmd hr hb, hx, finish, Device.sending, rsp_isSome.mpr (hf hb.1), bind, Except.bind]
  rfl

theorem step_cmd_panic {p : Pica} {env : Env} {h : Nat} {d : Device} {c : Cmd} {x : Panic}
    (hd : p.devices.get? h = some d) (hr : Ready d c) (hx : d.exec env.tid c = .error x)
    {bytes : Bytes} (hb : IsCmd bytes c) : p.step env (.uciPacket h bytes) = .error x := by
  unfold Pica.step Pica.uciPacket
  simp only [hd, receive_cmd hr hb, hx, finish, bind, Except.bind]

end Pica
