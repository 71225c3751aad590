import Verif.Model.Device
/-!
`src/lib.rs`: the emulator, driven by the commands of `Pica::run` / `run`. One command is one
step, executed atomically (the event loop owns the context, or holds its mutex).
-/

namespace Pica

/-- `struct RangingMeasurement`, `src/lib.rs` 51-55. -/
structure RangingMeasurement where
  range : UInt16
  azimuth : Int16
  elevation : Int8
  deriving DecidableEq

/-- `enum PicaEvent`, `src/lib.rs` 133-144. -/
inductive PicaEvent where
  | connected (handle : Nat) (mac : MacAddress)
  | disconnected (handle : Nat) (mac : MacAddress)
  deriving DecidableEq

/-- `enum PicaCommandError`, `src/lib.rs` 86-91. -/
inductive PicaCommandError where
  | deviceAlreadyExists (mac : MacAddress)
  | deviceNotFound (mac : MacAddress)
  deriving DecidableEq

/-- `enum PicaCommand`, `src/lib.rs` 93-114; the streams and reply channels are left out. -/
inductive Command where
  | connect
  | disconnect (handle : Nat)
  | ranging (handle : Nat) (session : UInt32)
  | stopRanging (mac : MacAddress) (session : UInt32)
  | uciPacket (handle : Nat) (packet : Bytes)
  | createAnchor (mac : MacAddress)
  | destroyAnchor (mac : MacAddress)
  deriving DecidableEq

/-- `struct Anchor`, `src/lib.rs` 153-157. -/
structure Anchor where
  handle : Nat
  macAddress : MacAddress
  deriving DecidableEq

/-- What a step does to the outside. -/
inductive Out where
  /-- a packet put on the channel to a host -/
  | send (handle : Nat) (p : Packet)
  /-- an event broadcast to the subscribers (`send_event`, `src/lib.rs` 232-236) -/
  | event (e : PicaEvent)
  /-- the answer to CREATE_ANCHOR or DESTROY_ANCHOR -/
  | anchorReply (r : Except PicaCommandError Nat)
  /-- a task spawned or aborted by a device -/
  | effect (handle : Nat) (e : Effect)

/-- What a step takes from its environment: the ranging estimator (`trait RangingEstimator`,
`src/lib.rs` 60-69), whether the connection task of a device still holds the receiving end of
its packet channel, and the identifier of the ranging task a START would spawn. -/
structure Env where
  estimate : Nat → Nat → Option RangingMeasurement
  alive : Nat → Bool
  tid : Nat

/-- `struct Pica`, `src/lib.rs` 74-83. -/
structure Pica where
  counter : Nat
  devices : AMap Nat Device
  anchors : AMap MacAddress Anchor
  deriving DecidableEq

namespace Pica

/-- `Pica::new`, `src/lib.rs` 187-200. -/
def new : Pica where
  counter := 0
  devices := []
  anchors := []

/-- `get_category(..).is_some()`, `src/lib.rs` 218-230. -/
def macKnown (p : Pica) (mac : MacAddress) : Bool :=
  (p.anchors.get? mac).isSome || p.devices.any (fun e => decide (e.2.macAddress = mac))

/-- `make_measurement`, `src/lib.rs` 159-184. -/
def makeMeasurement (mac : MacAddress) (loc remote : RangingMeasurement) : Except Panic Measurement :=
  match mac with
  | .short a => .ok {
      macAddress := UInt16.ofNat (ofLe a.1)
      status := .ok
      nlos := 0
      distance := loc.range
      aoaAzimuth := loc.azimuth.toUInt16
      aoaAzimuthFom := 100
      aoaElevation := loc.elevation.toInt16.toUInt16
      aoaElevationFom := 100
      aoaDestinationAzimuth := remote.azimuth.toUInt16
      aoaDestinationAzimuthFom := 100
      aoaDestinationElevation := remote.elevation.toInt16.toUInt16
      aoaDestinationElevationFom := 100
      slotIndex := 0
      rssi := 255 }
  | .extended _ => .error .extendedAddress

/-- The MAC address given to a device: `MacAddress::Short((handle as u16).to_be_bytes())`,
`src/lib.rs` 357. -/
def deviceMac (handle : Nat) : MacAddress :=
  .short ⟨[UInt8.ofNat (handle / 256), UInt8.ofNat handle], rfl⟩

/-- `add_device`, `src/lib.rs` 346-392; the connection task is the subject of
`Verif/Model/Framing.lean` and `Verif/Model/System.lean`. -/
def addDevice (p : Pica) : Pica × List Out :=
  let h := p.counter
  let (d, e) := (Device.new h (deviceMac h)).init
  ({ p with counter := p.counter + 1, devices := p.devices.insert h d },
    e.map (.effect h) ++ [.event (.connected h d.macAddress)])

/-- `disconnect`, `src/lib.rs` 394-404. Removing the device drops its sessions. -/
def disconnect (p : Pica) (h : Nat) : Pica × List Out :=
  match p.devices.get? h with
  | some d =>
    ({ p with devices := p.devices.erase h },
      .event (.disconnected h d.macAddress) :: d.dropSessions.map (.effect h))
  | none => (p, [])

/-- The loop over the destination addresses, `src/lib.rs` 417-433. -/
def anchorMeasurements (estimate : Nat → Nat → Option RangingMeasurement)
    (anchors : AMap MacAddress Anchor) (h : Nat) : List MacAddress → Except Panic (List Measurement)
  | [] => .ok []
  | m :: ms =>
    match anchors.get? m with
    | none => anchorMeasurements estimate anchors h ms
    | some a =>
      match estimate h a.handle, estimate a.handle h with
      | some l, some r => do
        let x ← makeMeasurement m l r
        let xs ← anchorMeasurements estimate anchors h ms
        .ok (x :: xs)
      | _, _ => anchorMeasurements estimate anchors h ms

/-- The loop over the other devices, `src/lib.rs` 436-468: the measurements and the devices
pushed on `data_transfer`. Note the `continue`s of 452 and 458, which also skip the data
transfer. `canSend` is `device.can_start_data_transfer(session_id)`. -/
def peerLoop (estimate : Nat → Nat → Option RangingMeasurement) (deviceHandle h : Nat) (sid : UInt32)
    (s : Session) (canSend : Bool) : List Device → Except Panic (List Measurement × List Device)
  | [] => .ok ([], [])
  | q :: qs =>
    if q.handle = deviceHandle then peerLoop estimate deviceHandle h sid s canSend qs
    else do
      let receives := canSend && q.canReceiveDataTransfer sid
      if ← q.canStartRanging s sid then
        match (q.session sid).bind (fun t => t.appConfig.deviceMacAddress) with
        | none => .error .noMacAddress
        | some mac =>
          match estimate h q.handle, estimate q.handle h with
          | some l, some r => do
            let x ← makeMeasurement mac l r
            let (xs, ds) ← peerLoop estimate deviceHandle h sid s canSend qs
            .ok (x :: xs, if receives then q :: ds else ds)
          | _, _ => peerLoop estimate deviceHandle h sid s canSend qs
      else do
        let (xs, ds) ← peerLoop estimate deviceHandle h sid s canSend qs
        .ok (xs, if receives then q :: ds else ds)

/-- `tx.send(packet.encode_to_vec().unwrap()).unwrap()`. -/
def sendUnwrap (alive : Nat → Bool) (h : Nat) (pkt : Packet) : Except Panic (List Out) :=
  if pkt.encode.isNone then .error .encode
  else if !alive h then .error .channelClosed
  else .ok [.send h pkt]

/-- The loop over `data_transfer`, `src/lib.rs` 472-488. -/
def dataSends (alive : Nat → Bool) (sid : UInt32) (s : Session) : List Device → Except Panic (List Out)
  | [] => .ok []
  | q :: qs => do
    match s.appConfig.deviceMacAddress with
    | none => .error .noMacAddress
    | some mac =>
      let o ← sendUnwrap alive q.handle (.data {
        sessionHandle := sid
        status := .ok
        sourceAddress := mac.toU64
        dataSequenceNumber := 1
        applicationData := s.data })
      let os ← dataSends alive sid s qs
      .ok (o ++ os)

/-- `ranging`, `src/lib.rs` 406-518. -/
def ranging (p : Pica) (env : Env) (h : Nat) (sid : UInt32) : Except Panic (Pica × List Out) :=
  match p.devices.get? h with
  | none => .error .noDevice
  | some d =>
    match d.session sid with
    | none => .error .noSession
    | some s => do
      let ms ← anchorMeasurements env.estimate p.anchors d.handle s.appConfig.dstMacAddress
      let (ms', targets) ← peerLoop env.estimate h d.handle sid s (d.canStartDataTransfer sid)
        p.devices.values
      let o₁ ← dataSends env.alive sid s targets
      if s.isSessionInfoNtfEnabled then
        let o₂ ← sendUnwrap env.alive h
          (.ntf (.sessionInfo s.sequenceNumber sid 0 0 (ms ++ ms') []))
        if s.sequenceNumber.toNat + 1 < 2 ^ 32 then
          let s := { s with sequenceNumber := s.sequenceNumber + 1, data := [] }
          .ok ({ p with devices := p.devices.insert h (d.putSession sid s) }, o₁ ++ o₂)
        else .error .overflow
      else
        let s := { s with data := [] }
        .ok ({ p with devices := p.devices.insert h (d.putSession sid s) }, o₁)

/-- `uci_packet`, `src/lib.rs` 520-525. -/
def uciPacket (p : Pica) (env : Env) (h : Nat) (pkt : Bytes) : Except Panic (Pica × List Out) :=
  match p.devices.get? h with
  | none => .ok (p, [])
  | some d => do
    let (d, r, e) ← d.receivePacket env.tid pkt
    .ok ({ p with devices := p.devices.insert h d },
      (r.map (.send h)).toList ++ e.map (.effect h))

/-- `stop_controlee_ranging`, `src/lib.rs` 562-586. -/
def stopControleeRanging (p : Pica) (mac : MacAddress) (sid : UInt32) : Pica × List Out :=
  ({ p with devices := p.devices.map (fun e => (e.1, (e.2.stopInBand mac sid).1)) },
    p.devices.flatMap (fun e => (e.2.stopInBand mac sid).2.map (.effect e.1)))

/-- `create_anchor`, `src/lib.rs` 589-620. -/
def createAnchor (p : Pica) (mac : MacAddress) : Except Panic (Pica × List Out) :=
  if p.macKnown mac then .ok (p, [.anchorReply (.error (.deviceAlreadyExists mac))])
  else if (p.anchors.get? mac).isSome then .error .anchorPresent
  else .ok ({ p with counter := p.counter + 1, anchors := p.anchors.insert mac ⟨p.counter, mac⟩ },
    [.anchorReply (.ok p.counter)])

/-- `destroy_anchor`, `src/lib.rs` 622-638. -/
def destroyAnchor (p : Pica) (mac : MacAddress) : Pica × List Out :=
  match p.anchors.get? mac with
  | none => (p, [.anchorReply (.error (.deviceNotFound mac))])
  | some a => ({ p with anchors := p.anchors.erase mac }, [.anchorReply (.ok a.handle)])

/-- `pica_command`, `src/lib.rs` 527-546. -/
def step (p : Pica) (env : Env) : Command → Except Panic (Pica × List Out)
  | .connect => .ok p.addDevice
  | .disconnect h => .ok (p.disconnect h)
  | .ranging h sid => p.ranging env h sid
  | .stopRanging mac sid => .ok (p.stopControleeRanging mac sid)
  | .uciPacket h pkt => p.uciPacket env h pkt
  | .createAnchor mac => p.createAnchor mac
  | .destroyAnchor mac => .ok (p.destroyAnchor mac)

/-- The same context with the entries of its maps enumerated in another order. -/
inductive Reorder : Pica → Pica → Prop
  | devices {p : Pica} {l : AMap Nat Device} : l.Perm p.devices → Reorder p { p with devices := l }
  | anchors {p : Pica} {l : AMap MacAddress Anchor} : l.Perm p.anchors → Reorder p { p with anchors := l }
  | sessions {p : Pica} {h : Nat} {d : Device} {l : AMap UInt32 Session} :
      p.devices.get? h = some d → l.Perm d.sessions →
      Reorder p { p with devices := p.devices.insert h { d with sessions := l } }

/-- One item of a history: a command with its environment and what it did. -/
structure Event where
  env : Env
  command : Command
  out : List Out

/-- The histories of the event loop that do not panic, oldest event first. Between two commands the
maps may be enumerated in another order. -/
inductive Run : Pica → List Event → Pica → Prop
  | nil {p : Pica} : Run p [] p
  | cmd {p q r : Pica} {tr : List Event} {env : Env} {c : Command} {out : List Out} :
      Run p tr q → q.step env c = .ok (r, out) → Run p (tr ++ [⟨env, c, out⟩]) r
  | reorder {p q r : Pica} {tr : List Event} : Run p tr q → Reorder q r → Run p tr r

/-- A context some history leads to. -/
def Reachable (p : Pica) : Prop := ∃ tr, Run new tr p

end Pica
end Pica
