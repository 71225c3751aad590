import Verif.Spec.Dispatch
/-! What a ranging round measures and which data it delivers. -/

namespace Pica.Spec
open SessionState

/-- The ranging estimator. -/
abbrev Estimator := Nat → Nat → Option RangingMeasurement

/-- One measured peer: its handle, its address, the estimate from here and the estimate from there. -/
structure Peer where
  handle : Nat
  address : MacAddress
  there : RangingMeasurement
  back : RangingMeasurement
  deriving DecidableEq

/-- The estimates in both directions. -/
def bothWays (est : Estimator) (h k : Nat) : Option (RangingMeasurement × RangingMeasurement) :=
  match est h k, est k h with
  | some l, some r => some (l, r)
  | _, _ => none

/-- Two sessions can range with each other: roles and types differ and each one has the address of the
other in its destination list. -/
def Compatible (a b : AppConfig) : Prop :=
  a.deviceRole ≠ b.deviceRole ∧ a.deviceType ≠ b.deviceType ∧
  a.deviceMacAddress.any (fun m => decide (m ∈ b.dstMacAddress)) = true ∧
  b.deviceMacAddress.any (fun m => decide (m ∈ a.dstMacAddress)) = true

instance (a b : AppConfig) : Decidable (Compatible a b) := by unfold Compatible; infer_instance

/-- The anchor with this address, as device `h` measures it. -/
def anchorPeer (est : Estimator) (anchors : AMap MacAddress Anchor) (h : Nat) (m : MacAddress) : Option Peer :=
  (anchors.get? m).bind fun a => (bothWays est h a.handle).map fun x => ⟨a.handle, m, x.1, x.2⟩

/-- The device `q` with handle `k`, as session `s` with identifier `sid` of device `h` measures it. -/
def devicePeer (est : Estimator) (h : Nat) (sid : UInt32) (s : Session) (k : Nat) (q : Device) : Option Peer :=
  (q.sessions.get? sid).bind fun t =>
    if k ≠ h ∧ t.state = sessionStateActive ∧ Compatible s.appConfig t.appConfig then
      t.appConfig.deviceMacAddress.bind fun m => (bothWays est h k).map fun x => ⟨k, m, x.1, x.2⟩
    else none

/-- All the peers a round of session `s` of device `h` measures: the anchors of the destination list and
the other devices. -/
def peers (p : Pica) (est : Estimator) (h : Nat) (sid : UInt32) (s : Session) : List Peer :=
  s.appConfig.dstMacAddress.filterMap (anchorPeer est p.anchors h) ++
    p.devices.filterMap fun e => devicePeer est h sid s e.1 e.2

/-- The measurement says what the estimator said of the peer. -/
def Carries (e : Peer) (x : Measurement) : Prop :=
  (∃ a, e.address = .short a ∧ u16le x.macAddress = a.1) ∧ x.status = .ok ∧ x.nlos = 0 ∧
  x.distance = e.there.range ∧
  x.aoaAzimuth.toInt16 = e.there.azimuth ∧ x.aoaElevation.toInt16.toInt = e.there.elevation.toInt ∧
  x.aoaDestinationAzimuth.toInt16 = e.back.azimuth ∧ x.aoaDestinationElevation.toInt16.toInt = e.back.elevation.toInt ∧
  x.aoaAzimuthFom = 100 ∧ x.aoaElevationFom = 100 ∧ x.aoaDestinationAzimuthFom = 100 ∧
  x.aoaDestinationElevationFom = 100 ∧ x.slotIndex = 0 ∧ x.rssi = 255

/-- An ACTIVE session with in-band data in the given role. -/
def Exchanges (s : Session) (role : DeviceRole) : Prop :=
  s.state = sessionStateActive ∧ s.sessionType = .firaRangingAndInBandDataSession ∧ s.appConfig.deviceRole = some role

instance (s : Session) (role : DeviceRole) : Decidable (Exchanges s role) := by unfold Exchanges; infer_instance

/-- Device `q` with handle `k` gets the data of session `s` with identifier `sid` of device `h`. -/
def Gets (h : Nat) (sid : UInt32) (s : Session) (k : Nat) (q : Device) : Prop :=
  k ≠ h ∧ Exchanges s .initiator ∧ ∃ t, q.sessions.get? sid = some t ∧ Exchanges t .responder

/-- The estimator fails on a peer the session would range with. -/
def Unseen (est : Estimator) (h : Nat) (sid : UInt32) (s : Session) (k : Nat) (q : Device) : Prop :=
  ∃ t, q.sessions.get? sid = some t ∧ t.state = sessionStateActive ∧ Compatible s.appConfig t.appConfig ∧
    bothWays est h k = none

/-! ### Histories -/

/-- SESSION_INIT from host `h` that creates the session `sid`, or creates it anew. -/
def Creates (h : Nat) (sid : UInt32) (ev : Pica.Event) : Prop :=
  ∃ bytes ty, ev.command = .uciPacket h bytes ∧ IsCmd bytes (.sessionInit sid ty) ∧
    (.rsp (.sessionInit .ok) ∈ sentTo h ev.out ∨ .rsp (.sessionInit .errorSessionDuplicate) ∈ sentTo h ev.out)

/-- An event that ends the session `sid` of device `h`: the device is disconnected or reset, or SESSION_DEINIT. -/
def Ends (h : Nat) (sid : UInt32) (ev : Pica.Event) : Prop :=
  ev.command = .disconnect h ∨
  ∃ bytes, ev.command = .uciPacket h bytes ∧
    ((∃ rc, IsCmd bytes (.coreDeviceReset rc)) ∨
      IsCmd bytes (.sessionDeinit sid) ∧ .rsp (.sessionDeinit .ok) ∈ sentTo h ev.out)

/-- The numbers of the SESSION_INFO_NTFs of the session `sid` sent to host `h`, in order. -/
def infoNumbers (h : Nat) (sid : UInt32) (tr : List Pica.Event) : List Nat :=
  tr.flatMap fun ev => (sentTo h ev.out).filterMap fun
    | .ntf (.sessionInfo n id _ _ _ _) => if id = sid then some n.toNat else none
    | _ => none

/-- DATA_MESSAGE_SND with these data from host `h` for session `sid`, acknowledged with a credit. -/
def Queues (h : Nat) (sid : UInt32) (ev : Pica.Event) (b : Bytes) : Prop :=
  ∃ bytes m, ev.command = .uciPacket h bytes ∧ IsDataSnd bytes m ∧ m.sessionHandle = sid ∧ m.applicationData = b ∧
    .ntf (.sessionDataCredit sid .creditAvailable) ∈ sentTo h ev.out

/-- The data acknowledged in a history, in order. -/
inductive Queued (h : Nat) (sid : UInt32) : List Pica.Event → Bytes → Prop
  | nil : Queued h sid [] []
  | data {tr : List Pica.Event} {b c : Bytes} {ev : Pica.Event} : Queued h sid tr b → Queues h sid ev c →
      Queued h sid (tr ++ [ev]) (b ++ c)
  | other {tr : List Pica.Event} {b : Bytes} {ev : Pica.Event} : Queued h sid tr b → (∀ c, ¬Queues h sid ev c) →
      Queued h sid (tr ++ [ev]) b

end Pica.Spec
