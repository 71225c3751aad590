import Verif.Model.Map
import Verif.Model.Session
/-!
`src/device.rs`: one emulated UWB subsystem.

Handlers are functions from the device and the command to the device afterwards, the response
and the list of spawned or aborted tasks, in program order. Logging is left out. A handler that
panics returns `Except.error`.
-/

namespace Pica

/-- `MAX_SESSION`, `src/device.rs` 31. -/
def maxSession : Nat := 255
/-- `MAX_NUMBER_OF_CONTROLEES`, `src/device.rs` 39. -/
def maxNumberOfControlees : Nat := 8

/-- `DEFAULT_CAPS_INFO`, `src/device.rs` 45-77. -/
def defaultCapsInfo : List CapTlv := [
  ⟨.supportedFiraPhyVersionRange, [1, 1, 1, 3]⟩,
  ⟨.supportedFiraMacVersionRange, [1, 1, 1, 3]⟩,
  ⟨.supportedDeviceRoles, [0x3]⟩,
  ⟨.supportedRangingMethod, [0x1f]⟩,
  ⟨.supportedStsConfig, [0x1f]⟩,
  ⟨.supportedMultiNodeModes, [0xff]⟩,
  ⟨.supportedRangingTimeStruct, [0x01]⟩,
  ⟨.supportedScheduledMode, [0x01]⟩,
  ⟨.supportedHoppingMode, [0x00]⟩,
  ⟨.supportedBlockStriding, [0x1]⟩,
  ⟨.supportedUwbInitiationTime, [0x01]⟩,
  ⟨.supportedChannels, [0xff]⟩,
  ⟨.supportedRframeConfig, [0xff]⟩,
  ⟨.supportedCcConstraintLength, [0xff]⟩,
  ⟨.supportedBprfParameterSets, [0xff]⟩,
  ⟨.supportedHprfParameterSets, [0xff]⟩,
  ⟨.supportedAoa, [0xff]⟩,
  ⟨.supportedAoaResultReqAntennaInterleaving, [0x1]⟩,
  ⟨.supportedExtendedMacAddress, [0x1]⟩,
  ⟨.cccSupportedVersions, [1, 0]⟩,
  ⟨.cccSupportedUwbConfigs, [0]⟩,
  ⟨.cccSupportedPulseShapeCombos, [0]⟩,
  ⟨.cccSupportedRanMultiplier, [0, 0, 0, 0]⟩,
  ⟨.cccSupportedChapsPerSlot, [0xff]⟩,
  ⟨.cccSupportedSyncCodes, [0xff, 0xff, 0xff, 0xff]⟩,
  ⟨.cccSupportedChannels, [0xff]⟩,
  ⟨.cccSupportedHoppingConfigModesAndSequences, [0xff]⟩]

/-- `struct DeviceConfig`, `src/device.rs` 81-87. -/
structure DeviceConfig where
  deviceState : DeviceState
  lowPowerMode : Bool
  deriving DecidableEq

/-- `Default for DeviceConfig`, `src/device.rs` 92-99. -/
def DeviceConfig.default : DeviceConfig where
  deviceState := .deviceStateError
  lowPowerMode := true

/-- `struct Device`, `src/device.rs` 101-117. The channels are implicit. -/
structure Device where
  isReset : Bool
  handle : Nat
  macAddress : MacAddress
  config : DeviceConfig
  state : DeviceState
  sessions : AMap UInt32 Session
  countryCode : Arr 2
  nActive : Nat
  deriving DecidableEq

/-- Result of a command handler. -/
abbrev HandlerResult := Device × Rsp × List Effect

namespace Device

/-- `Device::new`, `src/device.rs` 120-138. -/
def new (handle : Nat) (mac : MacAddress) : Device where
  isReset := false
  handle := handle
  macAddress := mac
  config := DeviceConfig.default
  state := .deviceStateError
  sessions := []
  countryCode := Arr.zero 2
  nActive := 0

/-- `Device::set_state`, `src/device.rs` 140-158. -/
def setState (d : Device) (st : DeviceState) : Device × List Effect :=
  if st = d.state then (d, [])
  else ({ d with state := st }, [.notify 5 (.coreDeviceStatus st)])

/-- `Device::init`, `src/device.rs` 160-162. -/
def init (d : Device) : Device × List Effect := d.setState .deviceStateReady

/-- `Device::session`, `src/device.rs` 164-166. -/
def session (d : Device) (sid : UInt32) : Option Session := d.sessions.get? sid

/-- Store a session back, `session_mut` in `src/device.rs` 168-170. -/
def putSession (d : Device) (sid : UInt32) (s : Session) : Device :=
  { d with sessions := d.sessions.insert sid s }

/-- Dropping all the sessions of a device, in iteration order. -/
def dropSessions (d : Device) : List Effect := d.sessions.values.flatMap Session.drop

/-- `Device::can_start_ranging`, `src/device.rs` 172-182. -/
def canStartRanging (d : Device) (peer : Session) (sid : UInt32) : Except Panic Bool :=
  match d.session sid with
  | some s =>
    if s.state = .sessionStateActive then s.appConfig.isCompatibleForRanging peer.appConfig
    else .ok false
  | none => .ok false

/-- `Device::can_start_data_transfer`, `src/device.rs` 184-193. -/
def canStartDataTransfer (d : Device) (sid : UInt32) : Bool :=
  match d.session sid with
  | some s => decide (s.state = .sessionStateActive)
    && decide (s.sessionType = .firaRangingAndInBandDataSession)
    && s.appConfig.canStartDataTransfer
  | none => false

/-- `Device::can_receive_data_transfer`, `src/device.rs` 195-204. -/
def canReceiveDataTransfer (d : Device) (sid : UInt32) : Bool :=
  match d.session sid with
  | some s => decide (s.state = .sessionStateActive)
    && decide (s.sessionType = .firaRangingAndInBandDataSession)
    && s.appConfig.canReceiveDataTransfer
  | none => false

/-- `core_device_reset`, `src/device.rs` 218-235. The assignment `*self = ..` drops the old
sessions. -/
def coreDeviceReset (d : Device) : HandlerResult :=
  let dropped := d.dropSessions
  let d' := { Device.new d.handle d.macAddress with isReset := true }
  let (d', e) := d'.init
  (d', .coreDeviceReset .ok, dropped ++ e)

/-- `core_get_device_info`, `src/device.rs` 237-249. -/
def coreGetDeviceInfo (d : Device) : Except Panic HandlerResult :=
  if d.state = .deviceStateReady then
    .ok (d, .coreGetDeviceInfo .ok 0x0002 0x3001 0x3001 0x1001 [], [])
  else .error .deviceNotReady

/-- `core_get_caps_info`, `src/device.rs` 251-266. -/
def coreGetCapsInfo (d : Device) : HandlerResult := (d, .coreGetCapsInfo .ok defaultCapsInfo, [])

/-- One iteration of the loop of `core_set_config`, `src/device.rs` 279-298: the configuration
afterwards and the entry pushed on `invalid_parameters`. -/
def setConfigParam (c : DeviceConfig) (p : ConfigParameter) :
    DeviceConfig × List ConfigParameterStatus :=
  if p.id = .deviceState then (c, [⟨p.id, .readOnly⟩])
  else if p.id = .lowPowerMode then ({ c with lowPowerMode := p.value.head?.getD 1 != 0 }, [])
  else (c, [⟨p.id, .invalidParam⟩])

/-- The loop of `core_set_config`, `src/device.rs` 278-299. -/
def setConfigLoop (c : DeviceConfig) : List ConfigParameter → DeviceConfig × List ConfigParameterStatus
  | [] => (c, [])
  | p :: ps =>
    let (c, e) := setConfigParam c p
    let (c, es) := setConfigLoop c ps
    (c, e ++ es)

/-- `core_set_config`, `src/device.rs` 268-308. -/
def coreSetConfig (d : Device) (ps : List ConfigParameter) : Except Panic HandlerResult :=
  if d.state = .deviceStateReady then
    let (c, invalid) := setConfigLoop d.config ps
    .ok ({ d with config := c },
      .coreSetConfig (if invalid.isEmpty then .ok else .invalidParam) invalid, [])
  else .error .deviceNotReady

/-- The match of `core_get_config`, `src/device.rs` 323-335; `none` is an invalid parameter. -/
def getConfigParam (c : DeviceConfig) (id : ConfigParameterId) : Option Bytes :=
  if id = .deviceState then some [c.deviceState.code]
  else if id = .lowPowerMode then some [if c.lowPowerMode then 1 else 0]
  else none

/-- `core_get_config`, `src/device.rs` 310-349. -/
def coreGetConfig (d : Device) (ids : List ConfigParameterId) : HandlerResult :=
  let valid : List ConfigParameter :=
    ids.filterMap (fun id => (getConfigParam d.config id).map (fun v => ⟨id, v⟩))
  let invalid : List ConfigParameter :=
    ids.filterMap (fun id => if (getConfigParam d.config id).isSome then none else some ⟨id, []⟩)
  (d, (if invalid.isEmpty then .coreGetConfig .ok valid else .coreGetConfig .invalidParam invalid), [])

/-- `session_init`, `src/device.rs` 351-376. `HashMap::insert` returns the replaced
session, which is dropped by the match. -/
def sessionInit (d : Device) (sid : UInt32) (ty : SessionType) : HandlerResult :=
  if d.sessions.length ≥ maxSession then (d, .sessionInit .errorMaxSessionsExceeded, [])
  else
    let s := Session.new sid ty d.handle
    match d.session sid with
    | some old => (d.putSession sid s, .sessionInit .errorSessionDuplicate, old.drop)
    | none =>
      let (s, e) := s.init
      (d.putSession sid s, .sessionInit .ok, e)

/-- `n_active_sessions -= 1` and the move to READY at zero, `src/device.rs` 386-389, 868-871. -/
def releaseActive (d : Device) : Except Panic (Device × List Effect) :=
  if d.nActive = 0 then .error .underflow
  else
    let d := { d with nActive := d.nActive - 1 }
    .ok (if d.nActive = 0 then d.setState .deviceStateReady else (d, []))

/-- `session_deinit`, `src/device.rs` 378-397. -/
def sessionDeinit (d : Device) (sid : UInt32) : Except Panic HandlerResult :=
  match d.session sid with
  | some s => do
    let (d, e) ← if s.state = .sessionStateActive then d.releaseActive else .ok (d, [])
    .ok ({ d with sessions := d.sessions.erase sid }, .sessionDeinit .ok, e ++ s.drop)
  | none => .ok (d, .sessionDeinit .errorSessionNotExist, [])

/-- `session_get_count`, `src/device.rs` 399-406. -/
def sessionGetCount (d : Device) : HandlerResult :=
  (d, .sessionGetCount .ok (UInt8.ofNat d.sessions.length), [])

/-- The loop of `session_set_app_config`, `src/device.rs` 450-458. -/
def setAppConfigLoop (c : AppConfig) : List AppConfigTlv → Except Panic (AppConfig × List AppConfigStatus)
  | [] => .ok (c, [])
  | t :: ts => do
    let (c, ok) ← c.set t.cfgId t.v
    let (c, es) ← setAppConfigLoop c ts
    .ok (c, if ok then es else ⟨t.cfgId, .invalidParam⟩ :: es)

/-- The mandatory parameters of `src/device.rs` 472-476 are present. -/
def hasMandatory (c : AppConfig) : Bool :=
  c.deviceRole.isSome && c.multiNodeMode.isSome && c.rangingRoundUsage.isSome
    && c.deviceMacAddress.isSome && c.scheduleMode.isSome

/-- `session_set_app_config`, `src/device.rs` 408-507. -/
def sessionSetAppConfig (d : Device) (sid : UInt32) (tlvs : List AppConfigTlv) :
    Except Panic HandlerResult :=
  match d.session sid with
  | none => .ok (d, .sessionSetAppConfig .errorSessionNotExist [], [])
  | some s =>
    if s.sessionType ≠ .firaRangingSession ∧ s.sessionType ≠ .firaRangingAndInBandDataSession then
      .error .sessionType
    else if s.state = .sessionStateActive ∧ tlvs.any (fun t => decide (t.cfgId = .aoaResultReq)) then
      .ok (d, .sessionSetAppConfig .errorSessionActive [], [])
    else if s.state ≠ .sessionStateInit ∧ s.state ≠ .sessionStateActive then
      .ok (d, .sessionSetAppConfig .rejected [], [])
    else do
      let (c, invalid) ← setAppConfigLoop s.appConfig tlvs
      if !hasMandatory c then .ok (d, .sessionSetAppConfig .rejected [], [])
      else if invalid.isEmpty then
        let s := { s with appConfig := c }
        let (s, e) := if s.state = .sessionStateInit then
            s.setState .sessionStateIdle .stateChangeWithSessionManagementCommands
          else (s, [])
        .ok (d.putSession sid s, .sessionSetAppConfig .ok invalid, e)
      else .ok (d, .sessionSetAppConfig .invalidParam invalid, [])

/-- `session_get_app_config`, `src/device.rs` 509-552. -/
def sessionGetAppConfig (d : Device) (sid : UInt32) (ids : List AppConfigTlvType) : HandlerResult :=
  match d.session sid with
  | none => (d, .sessionGetAppConfig .errorSessionNotExist [], [])
  | some s =>
    let valid : List AppConfigTlv :=
      ids.filterMap (fun id => (s.appConfig.get id).map (fun v => ⟨id, v⟩))
    let invalid := ids.filter (fun id => (s.appConfig.get id).isNone)
    (d, (if invalid.isEmpty then .sessionGetAppConfig .ok valid else .sessionGetAppConfig .failed []), [])

/-- `session_get_state`, `src/device.rs` 554-570. -/
def sessionGetState (d : Device) (sid : UInt32) : HandlerResult :=
  match d.session sid with
  | none => (d, .sessionGetState .errorSessionNotExist .sessionStateInit, [])
  | some s => (d, .sessionGetState .ok s.state, [])

/-! #### SESSION_UPDATE_CONTROLLER_MULTICAST_LIST -/

/-- The controlees of the command, `src/device.rs` 605-656. Sub-session identifiers and keys are
parsed but not used by the emulator. `none` is SYNTAX_ERROR. -/
def parseControlees (action : UpdateMulticastListAction) (payload : Bytes) : Option (List (Arr 2)) :=
  match action with
  | .addControlee | .removeControlee =>
    ((Pdl.controleeList 0).decFull payload).map (·.map WireControlee.shortAddress)
  | .addControleeWithShortSubSessionKey =>
    ((Pdl.controleeList 16).decFull payload).map (·.map WireControlee.shortAddress)
  | .addControleeWithExtendedSubSessionKey =>
    ((Pdl.controleeList 32).decFull payload).map (·.map WireControlee.shortAddress)

/-- The variables mutated by the loops of `src/device.rs` 661-758: `dst_addresses`, `status`,
`controlee_status_rsp`, `controlee_status_ntf` and the spawned tasks. -/
structure MulticastAcc where
  dst : List MacAddress
  status : Status
  rsp : List ControleeStatus
  ntf : List ControleeStatus
  effects : List Effect

/-- The body of the loop for the ADD actions, `src/device.rs` 666-711. `keyNotApplicable` is the
condition of 668-672, which does not change during the loop. -/
def addControlee (keyNotApplicable : Bool) (acc : MulticastAcc) (a : Arr 2) : MulticastAcc :=
  if keyNotApplicable then
    { acc with
      status := .failed
      ntf := acc.ntf ++ [⟨a, .errorSubSessionKeyNotApplicable⟩] }
  else if MacAddress.short a ∈ acc.dst then
    { acc with status := .failed, rsp := acc.rsp ++ [⟨a, .errorAddressAlreadyPresent⟩] }
  else if acc.dst.length = maxNumberOfControlees then
    { acc with status := .errorMulticastListFull, rsp := acc.rsp ++ [⟨a, .errorMulticastListFull⟩] }
  else
    { acc with dst := acc.dst ++ [.short a], rsp := acc.rsp ++ [⟨a, .okMulticastListUpdate⟩] }

/-- The body of the loop for REMOVE, `src/device.rs` 714-755. -/
def removeControlee (sid : UInt32) (attempts : UInt8) (acc : MulticastAcc) (a : Arr 2) : MulticastAcc :=
  if MacAddress.short a ∈ acc.dst then
    { acc with
      dst := acc.dst.filter (fun m => decide (m ≠ .short a))
      effects := acc.effects ++ (if attempts ≠ 0 then [.stopRanging (.short a) sid attempts] else [])
      ntf := acc.ntf ++ [⟨a, .okMulticastListUpdate⟩]
      rsp := acc.rsp ++ [⟨a, .okMulticastListUpdate⟩] }
  else
    { acc with status := .failed, rsp := acc.rsp ++ [⟨a, .errorAddressNotFound⟩] }

/-- The two loops, `src/device.rs` 658-779. -/
def updateControlees (s : Session) (sid : UInt32) (action : UpdateMulticastListAction)
    (addrs : List (Arr 2)) : MulticastAcc :=
  let acc₀ : MulticastAcc := ⟨s.appConfig.dstMacAddress, .ok, [], [], []⟩
  match action with
  | .addControlee => addrs.foldl (addControlee false) acc₀
  | .addControleeWithShortSubSessionKey | .addControleeWithExtendedSubSessionKey =>
    addrs.foldl
      (addControlee (decide (s.appConfig.stsConfig ≠ .provisionedForResponderSubSessionKey))) acc₀
  | .removeControlee =>
    let acc := addrs.foldl (removeControlee sid s.appConfig.inBandTerminationAttemptCount) acc₀
    if s.state = .sessionStateActive then
      { acc with effects := acc.effects ++ [.notify 5 (.sessionUpdateMulticast sid acc.ntf)] }
    else acc

/-- The assignments of `src/device.rs` 782-783; the cast to `u8` truncates. -/
def _root_.Pica.AppConfig.withControlees (c : AppConfig) (dst : List MacAddress) : AppConfig :=
  { c with numberOfControlees := UInt8.ofNat dst.length, dstMacAddress := dst }

/-- `session_update_controller_multicast_list`, `src/device.rs` 572-797. -/
def sessionUpdateMulticast (d : Device) (sid : UInt32) (action : UpdateMulticastListAction)
    (payload : Bytes) : HandlerResult :=
  match d.session sid with
  | none => (d, .sessionUpdateMulticast .errorSessionNotExist [], [])
  | some s =>
    if (s.state ≠ .sessionStateActive ∧ s.state ≠ .sessionStateIdle)
        ∨ s.appConfig.deviceType ≠ some .controller
        ∨ s.appConfig.multiNodeMode ≠ some .oneToMany then
      (d, .sessionUpdateMulticast .rejected [], [])
    else
      match parseControlees action payload with
      | none => (d, .sessionUpdateMulticast .syntaxError [], [])
      | some addrs =>
        let acc := updateControlees s sid action addrs
        let s := { s with appConfig := s.appConfig.withControlees acc.dst }
        let (s, e) := if acc.dst.isEmpty then
            s.setState .sessionStateIdle .errorInvalidNumOfControlees
          else (s, [])
        (d.putSession sid s, .sessionUpdateMulticast acc.status acc.rsp, acc.effects ++ e)

/-! #### Session control -/

/-- `session_start`, `src/device.rs` 799-843. `tid` identifies the spawned ranging task. -/
def sessionStart (d : Device) (tid : Nat) (sid : UInt32) : Except Panic HandlerResult :=
  match d.session sid with
  | none => .ok (d, .sessionStart .errorSessionNotExist, [])
  | some s =>
    if s.state ≠ .sessionStateIdle then .ok (d, .sessionStart .errorSessionNotConfigured, [])
    else if s.rangingTask.isSome then .error .rangingTaskPresent
    else
      let (s, e) := { s with rangingTask := some tid }.setState .sessionStateActive
        .stateChangeWithSessionManagementCommands
      let d := { d.putSession sid s with nActive := d.nActive + 1 }
      let (d, e') := d.setState .deviceStateActive
      .ok (d, .sessionStart .ok, .startTimer tid sid s.appConfig.rangingDuration :: (e ++ e'))

/-- `session_stop`, `src/device.rs` 845-876. -/
def sessionStop (d : Device) (sid : UInt32) : Except Panic HandlerResult :=
  match d.session sid with
  | none => .ok (d, .sessionStop .errorSessionNotExist, [])
  | some s =>
    if s.state ≠ .sessionStateActive then .ok (d, .sessionStop .errorSessionActive, [])
    else do
      let (s, e₁) := s.stopRangingTask
      let (s, e₂) := s.setState .sessionStateIdle .stateChangeWithSessionManagementCommands
      let (d, e₃) ← (d.putSession sid s).releaseActive
      .ok (d, .sessionStop .ok, e₁ ++ e₂ ++ e₃)

/-- `session_get_ranging_count`, `src/device.rs` 878-901. -/
def sessionGetRangingCount (d : Device) (sid : UInt32) : HandlerResult :=
  match d.session sid with
  | none => (d, .sessionGetRangingCount .errorSessionNotExist 0, [])
  | some s => (d, .sessionGetRangingCount .ok s.sequenceNumber, [])

/-- `android_set_country_code`, `src/device.rs` 903-916. -/
def androidSetCountryCode (d : Device) (cc : Arr 2) : HandlerResult :=
  ({ d with countryCode := cc }, .androidSetCountryCode .ok, [])

/-- `android_get_power_stats`, `src/device.rs` 918-934. -/
def androidGetPowerStats (d : Device) : HandlerResult := (d, .androidGetPowerStats ⟨.ok, 0, 0, 0, 0⟩, [])

/-- The handler calls of `src/device.rs` 997-1043. -/
def exec (d : Device) (tid : Nat) : Cmd → Except Panic HandlerResult
  | .coreDeviceReset _ => .ok d.coreDeviceReset
  | .coreGetDeviceInfo => d.coreGetDeviceInfo
  | .coreGetCapsInfo => .ok d.coreGetCapsInfo
  | .coreSetConfig ps => d.coreSetConfig ps
  | .coreGetConfig ids => .ok (d.coreGetConfig ids)
  | .sessionInit sid ty => .ok (d.sessionInit sid ty)
  | .sessionDeinit sid => d.sessionDeinit sid
  | .sessionGetCount => .ok d.sessionGetCount
  | .sessionSetAppConfig sid tlvs => d.sessionSetAppConfig sid tlvs
  | .sessionGetAppConfig sid ids => .ok (d.sessionGetAppConfig sid ids)
  | .sessionGetState sid => .ok (d.sessionGetState sid)
  | .sessionUpdateMulticast sid a p => .ok (d.sessionUpdateMulticast sid a p)
  | .sessionStart sid => d.sessionStart tid sid
  | .sessionStop sid => d.sessionStop sid
  | .sessionGetRangingCount sid => .ok (d.sessionGetRangingCount sid)
  | .androidGetPowerStats => .ok d.androidGetPowerStats
  | .androidSetCountryCode cc => .ok (d.androidSetCountryCode cc)

/-- `data_message_snd`, `src/device.rs` 936-973. `DataPacketFormat` has no third tag, so the
`unimplemented!()` of 970 is not reachable. -/
def dataMessageSnd (d : Device) (p : DataPacket) : Except Panic (Device × Ntf) :=
  match p.dpf with
  | .dataSnd =>
    match Pdl.dataMessageSnd.decFull p.payload with
    | none => .error .parseChild
    | some m =>
      match d.session m.sessionHandle with
      | some s => do
        let (s, n) ← s.dataMessageSnd m
        .ok (d.putSession m.sessionHandle s, n)
      | none => .ok (d, .sessionDataTransferStatus m.sessionHandle 0
          .uciDataTransferStatusErrorRejected 1)
  | .dataRcv =>
    match Pdl.dataMessageRcv.decFull p.payload with
    | none => .error .parseChild
    | some m => .ok (d, .sessionDataTransferStatus m.sessionHandle 0
        .uciDataTransferStatusInvalidFormat 1)

/-- `ControlPacket::is_core_device_reset_cmd`, `src/packets.rs` 29-34. -/
def isCoreDeviceResetCmd (p : ControlPacket) : Bool :=
  match p.gid, decodeOid CoreOpcodeId p.payload with
  | .core, some (.deviceReset, _) => true
  | _, _ => false

/-- `receive_command`, `src/device.rs` 975-1072. The caller only passes packets of type COMMAND
(`receivePacket`), so the `unreachable!` of 1050 is not modelled. -/
def receiveCommand (d : Device) (tid : Nat) (p : ControlPacket) :
    Except Panic (Device × Packet × List Effect) :=
  if !d.isReset && !isCoreDeviceResetCmd p then
    .ok (d, .ntf (.coreDeviceStatus .deviceStateError), [])
  else do
    match ← Cmd.parse p.gid p.payload with
    | some c =>
      let (d, r, e) ← d.exec tid c
      .ok (d, .rsp r, e)
    | none =>
      match p.payload with
      | b₀ :: b₁ :: _ =>
        .ok (d, .control { gid := p.gid, mt := .response, payload := [b₀, b₁, 1, Status.unknownGid.code] }, [])
      | _ => .error .index

/-- Encoding of the answer, unwrapped in `src/device.rs` 213 and at the `try_into()` sites. -/
def sending {α : Type} (pkt : Packet) (x : α) : Except Panic α :=
  if pkt.encode.isSome then .ok x else .error .encode

/-- `receive_packet`, `src/device.rs` 1074-1126: the device afterwards, the answer put on the
channel to the host if any, and the effects. The result of the send is ignored by the code
(208). -/
def receivePacket (d : Device) (tid : Nat) (pkt : Bytes) :
    Except Panic (Device × Option Packet × List Effect) :=
  match pkt with
  | [] => .error .index
  | b₀ :: rest =>
    match parseMessageType b₀ with
    | .data =>
      match DataPacket.decode pkt with
      | some p => do
        let (d, n) ← d.dataMessageSnd p
        sending (.ntf n) (d, some (.ntf n), [])
      | none => .ok (d, none, [])
    | .command =>
      match ControlPacket.decode pkt with
      | none =>
        match rest with
        | [] => .error .index
        | b₁ :: _ =>
          let status : Status :=
            if (WireEnum.ofU8? (E := GroupId) (b₀ &&& 0xf)).isSome then .unknownOid else .unknownGid
          .ok (d, some (.raw [MessageType.response.code <<< 5 ||| (b₀ &&& 0xf), b₁ &&& 0x3f, 0, 1,
            status.code]), [])
      | some p => do
        let (d, r, e) ← d.receiveCommand tid p
        sending r (d, some r, e)
    | _ => .ok (d, none, [])

/-- The body of the loop of `Pica::stop_controlee_ranging`, `src/lib.rs` 563-585. -/
def stopInBand (d : Device) (mac : MacAddress) (sid : UInt32) : Device × List Effect :=
  match d.session sid with
  | none => (d, [])
  | some s =>
    if s.appConfig.deviceMacAddress ≠ some mac then (d, [])
    else if s.state = .sessionStateActive then
      let (s, e₁) := s.stopRangingTask
      let (s, e₂) := s.setState .sessionStateIdle .sessionStoppedDueToInbandSignal
      let d := { d.putSession sid s with nActive := d.nActive - 1 }
      let (d, e₃) := if d.nActive = 0 then d.setState .deviceStateReady else (d, [])
      (d, e₁ ++ e₂ ++ e₃)
    else (d, [])

end Device
end Pica
