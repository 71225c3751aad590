import Verif.Model.Packets
/-!
Specification of the bytes of the UCI messages: header codes and payload layouts of the commands
a host sends and of the responses and notifications it receives, written out byte by byte
(after the FiRa UCI tables that `src/uci_packets.pdl` transcribes). The codecs of the model are
not used here, only its message types and the numeric codes of its enumerations.
-/

namespace Pica.Spec

/-- Length byte followed by the value. -/
def lv (v : Bytes) : Bytes := UInt8.ofNat v.length :: v

/-- Number of elements followed by the elements. -/
def many {α : Type} (f : α → Bytes) (l : List α) : Bytes := UInt8.ofNat l.length :: l.flatMap f

/-- Group and opcode numbers of a command. -/
def cmdCode : Cmd → UInt8 × UInt8
  | .coreDeviceReset _ => (0x0, 0x00)
  | .coreGetDeviceInfo => (0x0, 0x02)
  | .coreGetCapsInfo => (0x0, 0x03)
  | .coreSetConfig _ => (0x0, 0x04)
  | .coreGetConfig _ => (0x0, 0x05)
  | .sessionInit .. => (0x1, 0x00)
  | .sessionDeinit _ => (0x1, 0x01)
  | .sessionSetAppConfig .. => (0x1, 0x03)
  | .sessionGetAppConfig .. => (0x1, 0x04)
  | .sessionGetCount => (0x1, 0x05)
  | .sessionGetState _ => (0x1, 0x06)
  | .sessionUpdateMulticast .. => (0x1, 0x07)
  | .sessionStart _ => (0x2, 0x00)
  | .sessionStop _ => (0x2, 0x01)
  | .sessionGetRangingCount _ => (0x2, 0x03)
  | .androidGetPowerStats => (0xc, 0x00)
  | .androidSetCountryCode _ => (0xc, 0x01)

/-- Payload bytes of a command. -/
def cmdPayload : Cmd → Bytes
  | .coreDeviceReset c => [c.code]
  | .coreGetDeviceInfo | .coreGetCapsInfo | .sessionGetCount | .androidGetPowerStats => []
  | .coreSetConfig ps => many (fun p => p.id.code :: lv p.value) ps
  | .coreGetConfig ids => many (fun i => [i.code]) ids
  | .sessionInit id ty => u32le id ++ [ty.code]
  | .sessionSetAppConfig t tlvs => u32le t ++ many (fun p => p.cfgId.code :: lv p.v) tlvs
  | .sessionGetAppConfig t ids => u32le t ++ many (fun i => [i.code]) ids
  | .sessionUpdateMulticast t a p => u32le t ++ a.code :: p
  | .sessionDeinit t | .sessionGetState t | .sessionStart t | .sessionStop t
  | .sessionGetRangingCount t => u32le t
  | .androidSetCountryCode c => c.1

/-- The command fits the size and count fields, and its APP configuration identifiers exist. -/
def cmdFits : Cmd → Prop
  | .coreSetConfig ps => ps.length ≤ 255 ∧ ∀ p ∈ ps, p.value.length ≤ 255
  | .coreGetConfig ids => ids.length ≤ 255
  | .sessionSetAppConfig _ tlvs =>
    tlvs.length ≤ 255 ∧ ∀ p ∈ tlvs, AppConfigTlvType.isTag p.cfgId.code ∧ p.v.length ≤ 255
  | .sessionGetAppConfig _ ids => ids.length ≤ 255 ∧ ∀ i ∈ ids, AppConfigTlvType.isTag i.code
  | _ => True

/-- Group and opcode numbers of a response: those of the command it answers. -/
def rspCode : Rsp → UInt8 × UInt8
  | .coreDeviceReset _ => (0x0, 0x00)
  | .coreGetDeviceInfo .. => (0x0, 0x02)
  | .coreGetCapsInfo .. => (0x0, 0x03)
  | .coreSetConfig .. => (0x0, 0x04)
  | .coreGetConfig .. => (0x0, 0x05)
  | .sessionInit _ => (0x1, 0x00)
  | .sessionDeinit _ => (0x1, 0x01)
  | .sessionSetAppConfig .. => (0x1, 0x03)
  | .sessionGetAppConfig .. => (0x1, 0x04)
  | .sessionGetCount .. => (0x1, 0x05)
  | .sessionGetState .. => (0x1, 0x06)
  | .sessionUpdateMulticast .. => (0x1, 0x07)
  | .sessionStart _ => (0x2, 0x00)
  | .sessionStop _ => (0x2, 0x01)
  | .sessionGetRangingCount .. => (0x2, 0x03)
  | .androidGetPowerStats _ => (0xc, 0x00)
  | .androidSetCountryCode _ => (0xc, 0x01)

/-- Payload bytes of a response: the status, then the fields. -/
def rspPayload : Rsp → Bytes
  | .coreDeviceReset s | .sessionInit s | .sessionDeinit s | .sessionStart s | .sessionStop s
  | .androidSetCountryCode s => [s.code]
  | .coreGetDeviceInfo s a b c d v => s.code :: (u16le a ++ u16le b ++ u16le c ++ u16le d ++ lv v)
  | .coreGetCapsInfo s t => s.code :: many (fun x => x.t.code :: lv x.v) t
  | .coreSetConfig s p => s.code :: many (fun x => [x.id.code, x.status.code]) p
  | .coreGetConfig s p => s.code :: many (fun x => x.id.code :: lv x.value) p
  | .sessionGetCount s n => [s.code, n]
  | .sessionSetAppConfig s c => s.code :: many (fun x => [x.cfgId.code, x.status.code]) c
  | .sessionGetAppConfig s t => s.code :: many (fun x => x.cfgId.code :: lv x.v) t
  | .sessionGetState s t => [s.code, t.code]
  | .sessionUpdateMulticast s c => s.code :: many (fun x => x.macAddress.1 ++ [x.status.code]) c
  | .sessionGetRangingCount s n => s.code :: u32le n
  | .androidGetPowerStats s =>
    s.status.code :: (u32le s.idleTimeMs ++ u32le s.txTimeMs ++ u32le s.rxTimeMs ++ u32le s.totalWakeCount)

/-- The response fits the size and count fields, and its identifiers exist. -/
def rspFits : Rsp → Prop
  | .coreGetDeviceInfo _ _ _ _ _ v => v.length ≤ 255
  | .coreGetCapsInfo _ t => t.length ≤ 255 ∧ ∀ x ∈ t, CapTlvType.isTag x.t.code ∧ x.v.length ≤ 255
  | .coreSetConfig _ p => p.length ≤ 255
  | .coreGetConfig _ p => p.length ≤ 255 ∧ ∀ x ∈ p, x.value.length ≤ 255
  | .sessionSetAppConfig _ c => c.length ≤ 255 ∧ ∀ x ∈ c, AppConfigTlvType.isTag x.cfgId.code
  | .sessionGetAppConfig _ t =>
    t.length ≤ 255 ∧ ∀ x ∈ t, AppConfigTlvType.isTag x.cfgId.code ∧ x.v.length ≤ 255
  | .sessionUpdateMulticast _ c => c.length ≤ 255
  | _ => True

/-- Group and opcode numbers of a notification. -/
def ntfCode : Ntf → UInt8 × UInt8
  | .coreDeviceStatus _ => (0x0, 0x01)
  | .sessionStatus .. => (0x1, 0x02)
  | .sessionUpdateMulticast .. => (0x1, 0x07)
  | .sessionInfo .. => (0x2, 0x00)
  | .sessionDataCredit .. => (0x2, 0x04)
  | .sessionDataTransferStatus .. => (0x2, 0x05)

/-- One two way ranging measurement of a short address peer: 31 bytes. -/
def measurementBytes (m : Measurement) : Bytes :=
  u16le m.macAddress ++ [m.status.code, m.nlos] ++ u16le m.distance
  ++ u16le m.aoaAzimuth ++ [m.aoaAzimuthFom] ++ u16le m.aoaElevation ++ [m.aoaElevationFom]
  ++ u16le m.aoaDestinationAzimuth ++ [m.aoaDestinationAzimuthFom]
  ++ u16le m.aoaDestinationElevation ++ [m.aoaDestinationElevationFom]
  ++ [m.slotIndex, m.rssi] ++ List.replicate 11 0

/-- Payload bytes of a notification. -/
def ntfPayload : Ntf → Bytes
  | .coreDeviceStatus s => [s.code]
  | .sessionStatus t s r => u32le t ++ [s.code, r]
  | .sessionUpdateMulticast t c => u32le t ++ many (fun x => x.macAddress.1 ++ [x.status.code]) c
  | .sessionDataCredit t a => u32le t ++ [a.code]
  | .sessionDataTransferStatus t n s c => u32le t ++ [n, s.code, c]
  | .sessionInfo n t r i m v =>
    -- measurement type 1: two way; reserved; MAC address indicator 0: short; 8 reserved
    u32le n ++ u32le t ++ [r] ++ u32le i ++ [1, 0, 0] ++ List.replicate 8 0
      ++ many measurementBytes m ++ v

/-- The notification fits the count fields. -/
def ntfFits : Ntf → Prop
  | .sessionUpdateMulticast _ c => c.length ≤ 255
  | .sessionInfo _ _ _ _ m _ => m.length ≤ 255
  | _ => True

/-- Bytes of a control message as the emulator exchanges them with the framing layer: message type
(1 command, 2 response, 3 notification) and group, opcode, two bytes for the length, payload. -/
def controlBytes (mt : UInt8) (code : UInt8 × UInt8) (payload : Bytes) : Bytes :=
  (mt * 32 + code.1) :: code.2 :: 0 :: 0 :: payload

end Pica.Spec
