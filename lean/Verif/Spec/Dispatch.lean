import Verif.Spec.Command
import Verif.Spec.AppConfig
/-! Which packets of a host the emulator does not survive. -/

namespace Pica.Spec

/-- Group numbers without meaning. -/
def reservedGroups : List Nat := [4, 5, 6, 7, 8]
/-- Group numbers with a meaning that the emulator does not support. -/
def otherGroups : List Nat := [3, 9, 10, 11, 13, 14, 15]
/-- Group numbers of the supported commands. -/
def supportedGroups : List Nat := [0, 1, 2, 12]

/-- The bytes are a DATA_MESSAGE_SND with the fields of `m`, with any values in the unused bits. -/
def IsDataSnd (bytes : Bytes) (m : DataMessageSnd) : Prop :=
  m.applicationData.length ≤ 65535 ∧ ∃ b₀ r₁ r₂ r₃ : UInt8, bytes = b₀ :: r₁ :: r₂ :: r₃ ::
    (u32le m.sessionHandle ++ (u64le m.destinationAddress ++ (u16le m.dataSequenceNumber ++
      (leBytes 2 m.applicationData.length ++ m.applicationData)))) ∧ b₀.toNat / 32 = 0 ∧ b₀.toNat % 16 = 1

/-- The same for DATA_MESSAGE_RCV. -/
def IsDataRcv (bytes : Bytes) (m : DataMessageRcv) : Prop :=
  m.applicationData.length ≤ 65535 ∧ ∃ b₀ r₁ r₂ r₃ : UInt8, bytes = b₀ :: r₁ :: r₂ :: r₃ ::
    (u32le m.sessionHandle ++ (m.status.code :: (u64le m.sourceAddress ++ (u16le m.dataSequenceNumber ++
      (leBytes 2 m.applicationData.length ++ m.applicationData))))) ∧ b₀.toNat / 32 = 0 ∧ b₀.toNat % 16 = 2

/-- The well formed commands a device does not survive. -/
inductive Fatal (d : Device) : Cmd → Prop
  /-- asked while a session is ACTIVE -/
  | deviceInfo : d.state ≠ .deviceStateReady → Fatal d .coreGetDeviceInfo
  | setConfig (ps : List ConfigParameter) : d.state ≠ .deviceStateReady → Fatal d (.coreSetConfig ps)
  /-- a session that is not a FiRa ranging session is configured -/
  | sessionType (sid : UInt32) (tlvs : List AppConfigTlv) (s : Session) : d.sessions.get? sid = some s →
      s.sessionType ≠ .firaRangingSession → s.sessionType ≠ .firaRangingAndInBandDataSession →
      Fatal d (.sessionSetAppConfig sid tlvs)
  /-- a MAC address is set while MAC_ADDRESS_MODE is 1 -/
  | macMode (sid : UInt32) (tlvs : List AppConfigTlv) (s : Session) : d.sessions.get? sid = some s →
      (s.state = .sessionStateInit ∨
        s.state = .sessionStateActive ∧ ∀ t ∈ tlvs, t.cfgId.code ≠ 0x0d) →
      (∀ w bad, ¬Applied (View.of s.appConfig) (tlvs.map fun t => (t.cfgId.code, t.v)) w bad) →
      Fatal d (.sessionSetAppConfig sid tlvs)
  /-- a parameter longer than 255 bytes is read -/
  | longValue (sid : UInt32) (ids : List AppConfigTlvType) (s : Session) : d.sessions.get? sid = some s →
      (∀ i ∈ ids, View.of s.appConfig i.code ≠ none) →
      (∃ i ∈ ids, ∃ v, View.of s.appConfig i.code = some v ∧ 255 < v.length) → Fatal d (.sessionGetAppConfig sid ids)
  /-- a session whose controlee list was emptied while it was ACTIVE is started again -/
  | start (sid : UInt32) (s : Session) : d.sessions.get? sid = some s → s.state = .sessionStateIdle →
      s.rangingTask ≠ none → Fatal d (.sessionStart sid)

/-- The packets a device does not survive. -/
inductive Aborts (d : Device) : Bytes → Prop
  | empty : Aborts d []
  /-- a header byte alone -/
  | headerOnly (b : UInt8) : 4 ≤ b.toNat / 32 ∨ (b.toNat / 32 = 1 ∧ b.toNat % 16 ∈ reservedGroups) → Aborts d [b]
  /-- an unsupported group and less than three bytes -/
  | short (b : UInt8) (r : Bytes) : d.isReset = true → b.toNat / 32 = 1 → b.toNat % 16 ∈ otherGroups →
      r.length < 2 → Aborts d (b :: r)
  /-- a data packet that is not well formed -/
  | badSnd (b r₁ r₂ r₃ : UInt8) (r : Bytes) : b.toNat / 32 = 0 → b.toNat % 16 = 1 →
      (∀ m, ¬IsDataSnd (b :: r₁ :: r₂ :: r₃ :: r) m) → Aborts d (b :: r₁ :: r₂ :: r₃ :: r)
  | badRcv (b r₁ r₂ r₃ : UInt8) (r : Bytes) : b.toNat / 32 = 0 → b.toNat % 16 = 2 →
      (∀ m, ¬IsDataRcv (b :: r₁ :: r₂ :: r₃ :: r) m) → Aborts d (b :: r₁ :: r₂ :: r₃ :: r)
  /-- a packet of a supported group that is none of the supported commands -/
  | badCommand (b : UInt8) (r : Bytes) : d.isReset = true → b.toNat / 32 = 1 → b.toNat % 16 ∈ supportedGroups →
      (∀ c, ¬IsCmd (b :: r) c) → Aborts d (b :: r)
  /-- the same before CORE_DEVICE_RESET, for a packet with the opcode of CORE_DEVICE_RESET -/
  | badReset (b b₁ r₂ r₃ : UInt8) (r : Bytes) : d.isReset = false → b.toNat / 32 = 1 → b.toNat % 16 = 0 →
      b₁.toNat % 64 = 0 → (∀ c, ¬IsCmd (b :: b₁ :: r₂ :: r₃ :: r) c) → Aborts d (b :: b₁ :: r₂ :: r₃ :: r)
  /-- a command that cannot be executed -/
  | fatal (bytes : Bytes) (c : Cmd) : d.isReset = true → IsCmd bytes c → Fatal d c → Aborts d bytes

end Pica.Spec
