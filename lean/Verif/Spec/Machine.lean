import Verif.Spec.Multicast
import Verif.Spec.Config
import Verif.Spec.Caps
import Verif.Spec.Defaults
/-!
The emulated subsystem as its host sees it: a small machine that answers commands. Parameters are bytes; tasks, timers,
channels, counters of active sessions and the state of the device are not part of it.
-/

namespace Pica.Spec.Machine
open SessionState

/-- A session: its state, type, parameters, controlees, and the number of rounds reported. -/
structure Sess where
  phase : SessionState
  type : SessionType
  view : View
  peers : List MacAddress
  rounds : UInt32

/-- The machine: the low power mode, the number of sessions, and the sessions. -/
structure Ref where
  low : Bool
  count : Nat
  look : UInt32 → Option Sess

/-- After a reset: no sessions. -/
def Ref.fresh : Ref := ⟨true, 0, fun _ => none⟩

/-- Another session in the place of that with this identifier. -/
def Ref.put (r : Ref) (sid : UInt32) (s : Sess) : Ref := { r with look := fun x => if x = sid then some s else r.look x }

/-- A session nobody has configured. -/
def blank (ty : SessionType) (st : SessionState) : Sess :=
  ⟨st, ty, fun i => (defaults.find? (fun e => e.1 = i)).map Prod.snd, [], 0⟩

/-- The two types of sessions that can be configured. -/
def Fira (ty : SessionType) : Prop := ty = .firaRangingSession ∨ ty = .firaRangingAndInBandDataSession

/-- SESSION_SET_APP_CONFIG looks at the values. -/
def Open (s : Sess) (tlvs : List AppConfigTlv) : Prop :=
  Fira s.type ∧ (s.phase = sessionStateInit ∨ s.phase = sessionStateActive ∧ ∀ t ∈ tlvs, t.cfgId.code ≠ 0x0d)

/-- The parameters of a command. -/
def pairs (tlvs : List AppConfigTlv) : List (UInt8 × Bytes) := tlvs.map fun t => (t.cfgId.code, t.v)

/-- The bytes are those of these addresses, of two bytes each if MAC_ADDRESS_MODE is 0 and of eight bytes otherwise. -/
def IsList (mode : UInt8) (v : Bytes) (l : List MacAddress) : Prop :=
  v = l.flatMap MacAddress.toBytes ∧ ∀ m ∈ l, if mode = 0 then ∃ a, m = .short a else ∃ a, m = .extended a

/-- The controlees after parameters are set one after the other: DST_MAC_ADDRESS (0x07) is read by the
MAC_ADDRESS_MODE (0x26) at its turn. -/
inductive Peers : UInt8 → List MacAddress → List (UInt8 × Bytes) → List MacAddress → Prop
  | nil (mode : UInt8) (l : List MacAddress) : Peers mode l [] l
  | mode {mode : UInt8} {l l' : List MacAddress} {b : UInt8} {ps : List (UInt8 × Bytes)} : Peers b l ps l' →
      Peers mode l ((0x26, [b]) :: ps) l'
  | list {mode : UInt8} {l l₁ l' : List MacAddress} {v : Bytes} {ps : List (UInt8 × Bytes)} : IsList mode v l₁ →
      Peers mode l₁ ps l' → Peers mode l ((0x07, v) :: ps) l'
  | other {mode : UInt8} {l l' : List MacAddress} {id : UInt8} {v : Bytes} {ps : List (UInt8 × Bytes)} : id ≠ 0x26 → id ≠ 0x07 →
      Peers mode l ps l' → Peers mode l ((id, v) :: ps) l'

/-- The controlees of a session can be updated: ACTIVE or IDLE, DEVICE_TYPE controller, MULTI_NODE_MODE one to many. -/
def Sess.Updatable (s : Sess) : Prop :=
  (s.phase = sessionStateActive ∨ s.phase = sessionStateIdle) ∧ s.view 0x00 = some [1] ∧ s.view 0x03 = some [1]

/-- The additions that take effect: a plain one, or one with keys while STS_CONFIG is 4. -/
def Sess.Adds (s : Sess) (a : UpdateMulticastListAction) : Prop :=
  a = .addControlee ∨
    (a = .addControleeWithShortSubSessionKey ∨ a = .addControleeWithExtendedSubSessionKey) ∧ s.view 0x02 = some [4]

/-- The session with other controlees: NUMBER_OF_CONTROLEES (0x05) and DST_MAC_ADDRESS (0x07) follow; without any, it is
IDLE. -/
def Sess.withPeers (s : Sess) (l : List MacAddress) : Sess :=
  { s with
    peers := l
    view := fun i => if i = 0x05 then some [UInt8.ofNat l.length] else if i = 0x07 then some (l.flatMap MacAddress.toBytes)
      else s.view i
    phase := if l = [] then sessionStateIdle else s.phase }

/-- The machine answers a command, and what it is afterwards. -/
inductive Says (r : Ref) : Cmd → Rsp → Ref → Prop
  | reset (rc : ResetConfig) : Says r (.coreDeviceReset rc) (.coreDeviceReset .ok) .fresh
  | info : Says r .coreGetDeviceInfo (.coreGetDeviceInfo .ok 0x0002 0x3001 0x3001 0x1001 []) r
  | caps (l : List CapTlv) : l.map (fun t => (t.t.code, t.v)) = capabilities → Says r .coreGetCapsInfo (.coreGetCapsInfo .ok l) r
  | setConfig (ps : List ConfigParameter) : Says r (.coreSetConfig ps)
      (.coreSetConfig (if ps.filterMap refusal = [] then .ok else .invalidParam) (ps.filterMap refusal))
      { r with low := ps.foldl setPower r.low }
  | getConfig (ids : List ConfigParameterId) : (∀ i ∈ ids, i.code = 0x00 ∨ i.code = 0x01) → Says r (.coreGetConfig ids)
      (.coreGetConfig .ok (ids.map fun i => ⟨i, [if i.code = 0x00 then 0xff else if r.low then 1 else 0]⟩)) r
  | getConfigBad (ids : List ConfigParameterId) : ¬(∀ i ∈ ids, i.code = 0x00 ∨ i.code = 0x01) → Says r (.coreGetConfig ids)
      (.coreGetConfig .invalidParam ((ids.filter fun i => decide (¬(i.code = 0x00 ∨ i.code = 0x01))).map fun i => ⟨i, []⟩)) r
  | initFull (sid : UInt32) (ty : SessionType) : r.count = 255 → Says r (.sessionInit sid ty) (.sessionInit .errorMaxSessionsExceeded) r
  | init (sid : UInt32) (ty : SessionType) : r.count < 255 → r.look sid = none → Says r (.sessionInit sid ty) (.sessionInit .ok)
      { r.put sid (blank ty sessionStateInit) with count := r.count + 1 }
  | initAgain (sid : UInt32) (ty : SessionType) (s : Sess) : r.count < 255 → r.look sid = some s →
      Says r (.sessionInit sid ty) (.sessionInit .errorSessionDuplicate) (r.put sid (blank ty sessionStateDeinit))
  | deinitNone (sid : UInt32) : r.look sid = none → Says r (.sessionDeinit sid) (.sessionDeinit .errorSessionNotExist) r
  | deinit (sid : UInt32) (s : Sess) : r.look sid = some s → Says r (.sessionDeinit sid) (.sessionDeinit .ok)
      { r with look := fun x => if x = sid then none else r.look x, count := r.count - 1 }
  | count (n : UInt8) : n.toNat = r.count → Says r .sessionGetCount (.sessionGetCount .ok n) r
  | setNone (sid : UInt32) (tlvs : List AppConfigTlv) : r.look sid = none →
      Says r (.sessionSetAppConfig sid tlvs) (.sessionSetAppConfig .errorSessionNotExist []) r
  | setActive (sid : UInt32) (tlvs : List AppConfigTlv) (s : Sess) : r.look sid = some s → Fira s.type →
      s.phase = sessionStateActive → (∃ t ∈ tlvs, t.cfgId.code = 0x0d) →
      Says r (.sessionSetAppConfig sid tlvs) (.sessionSetAppConfig .errorSessionActive []) r
  | setRejected (sid : UInt32) (tlvs : List AppConfigTlv) (s : Sess) : r.look sid = some s → Fira s.type →
      s.phase ≠ sessionStateInit → s.phase ≠ sessionStateActive →
      Says r (.sessionSetAppConfig sid tlvs) (.sessionSetAppConfig .rejected []) r
  | setIncomplete (sid : UInt32) (tlvs : List AppConfigTlv) (s : Sess) (w : View) (bad : List UInt8) : r.look sid = some s →
      Open s tlvs → Applied s.view (pairs tlvs) w bad → ¬Complete w →
      Says r (.sessionSetAppConfig sid tlvs) (.sessionSetAppConfig .rejected []) r
  | setBad (sid : UInt32) (tlvs : List AppConfigTlv) (s : Sess) (w : View) (bad : List UInt8) : r.look sid = some s →
      Open s tlvs → Applied s.view (pairs tlvs) w bad → bad ≠ [] → Complete w →
      Says r (.sessionSetAppConfig sid tlvs) (.sessionSetAppConfig .invalidParam (bad.map fun i => ⟨⟨i⟩, .invalidParam⟩)) r
  | set (sid : UInt32) (tlvs : List AppConfigTlv) (s : Sess) (w : View) (l : List MacAddress) : r.look sid = some s →
      Open s tlvs → Applied s.view (pairs tlvs) w [] → Complete w → Peers (s.view.byte 0x26) s.peers (pairs tlvs) l →
      Says r (.sessionSetAppConfig sid tlvs) (.sessionSetAppConfig .ok [])
        (r.put sid { s with view := w, peers := l, phase := if s.phase = sessionStateInit then sessionStateIdle else s.phase })
  | getNone (sid : UInt32) (ids : List AppConfigTlvType) : r.look sid = none →
      Says r (.sessionGetAppConfig sid ids) (.sessionGetAppConfig .errorSessionNotExist []) r
  | getFailed (sid : UInt32) (ids : List AppConfigTlvType) (s : Sess) : r.look sid = some s → (∃ i ∈ ids, s.view i.code = none) →
      Says r (.sessionGetAppConfig sid ids) (.sessionGetAppConfig .failed []) r
  | get (sid : UInt32) (ids : List AppConfigTlvType) (s : Sess) (l : List AppConfigTlv) : r.look sid = some s →
      l.map (fun t => (t.cfgId, some t.v)) = ids.map (fun i => (i, s.view i.code)) →
      Says r (.sessionGetAppConfig sid ids) (.sessionGetAppConfig .ok l) r
  | stateNone (sid : UInt32) : r.look sid = none →
      Says r (.sessionGetState sid) (.sessionGetState .errorSessionNotExist sessionStateInit) r
  | state (sid : UInt32) (s : Sess) : r.look sid = some s → Says r (.sessionGetState sid) (.sessionGetState .ok s.phase) r
  | updateNone (sid : UInt32) (a : UpdateMulticastListAction) (q : Bytes) : r.look sid = none →
      Says r (.sessionUpdateMulticast sid a q) (.sessionUpdateMulticast .errorSessionNotExist []) r
  | updateRejected (sid : UInt32) (a : UpdateMulticastListAction) (q : Bytes) (s : Sess) : r.look sid = some s → ¬s.Updatable →
      Says r (.sessionUpdateMulticast sid a q) (.sessionUpdateMulticast .rejected []) r
  | updateSyntax (sid : UInt32) (a : UpdateMulticastListAction) (q : Bytes) (s : Sess) : r.look sid = some s → s.Updatable →
      (∀ addrs, ¬IsControlees (keyLength a) q addrs) →
      Says r (.sessionUpdateMulticast sid a q) (.sessionUpdateMulticast .syntaxError []) r
  | add (sid : UInt32) (a : UpdateMulticastListAction) (q : Bytes) (s : Sess) (addrs : List (Arr 2)) : r.look sid = some s →
      s.Updatable → IsControlees (keyLength a) q addrs → s.Adds a →
      Says r (.sessionUpdateMulticast sid a q)
        (.sessionUpdateMulticast (overall (addStatuses s.peers addrs)) (addStatuses s.peers addrs))
        (r.put sid (s.withPeers (afterAdd s.peers addrs)))
  | keys (sid : UInt32) (a : UpdateMulticastListAction) (q : Bytes) (s : Sess) (addrs : List (Arr 2)) : r.look sid = some s →
      s.Updatable → IsControlees (keyLength a) q addrs → ¬s.Adds a → a ≠ .removeControlee →
      Says r (.sessionUpdateMulticast sid a q) (.sessionUpdateMulticast (if addrs = [] then .ok else .failed) [])
        (r.put sid (s.withPeers s.peers))
  | remove (sid : UInt32) (q : Bytes) (s : Sess) (addrs : List (Arr 2)) : r.look sid = some s →
      s.Updatable → IsControlees 0 q addrs →
      Says r (.sessionUpdateMulticast sid .removeControlee q)
        (.sessionUpdateMulticast (overall (removeStatuses s.peers addrs)) (removeStatuses s.peers addrs))
        (r.put sid (s.withPeers (afterRemove s.peers addrs)))
  | startNone (sid : UInt32) : r.look sid = none → Says r (.sessionStart sid) (.sessionStart .errorSessionNotExist) r
  | startRefused (sid : UInt32) (s : Sess) : r.look sid = some s → s.phase ≠ sessionStateIdle →
      Says r (.sessionStart sid) (.sessionStart .errorSessionNotConfigured) r
  | start (sid : UInt32) (s : Sess) : r.look sid = some s → s.phase = sessionStateIdle →
      Says r (.sessionStart sid) (.sessionStart .ok) (r.put sid { s with phase := sessionStateActive })
  | stopNone (sid : UInt32) : r.look sid = none → Says r (.sessionStop sid) (.sessionStop .errorSessionNotExist) r
  | stopRefused (sid : UInt32) (s : Sess) : r.look sid = some s → s.phase ≠ sessionStateActive →
      Says r (.sessionStop sid) (.sessionStop .errorSessionActive) r
  | stop (sid : UInt32) (s : Sess) : r.look sid = some s → s.phase = sessionStateActive →
      Says r (.sessionStop sid) (.sessionStop .ok) (r.put sid { s with phase := sessionStateIdle })
  | roundsNone (sid : UInt32) : r.look sid = none →
      Says r (.sessionGetRangingCount sid) (.sessionGetRangingCount .errorSessionNotExist 0) r
  | rounds (sid : UInt32) (s : Sess) : r.look sid = some s →
      Says r (.sessionGetRangingCount sid) (.sessionGetRangingCount .ok s.rounds) r
  | power : Says r .androidGetPowerStats (.androidGetPowerStats ⟨.ok, 0, 0, 0, 0⟩) r
  | country (cc : Arr 2) : Says r (.androidSetCountryCode cc) (.androidSetCountryCode .ok) r

/-- What happens to the machine without a command of its host: a round of a session is reported, or an ACTIVE session is
stopped by another host. -/
inductive Drifts (r : Ref) : Ref → Prop
  | round (sid : UInt32) (s : Sess) : r.look sid = some s → s.view 0x0e ≠ some [0] → s.rounds.toNat + 1 < 2 ^ 32 →
      Drifts r (r.put sid { s with rounds := s.rounds + 1 })
  | stop (sid : UInt32) (s : Sess) : r.look sid = some s → s.phase = sessionStateActive →
      Drifts r (r.put sid { s with phase := sessionStateIdle })

/-- A conversation of the machine with its host: commands with their answers. -/
inductive Talks (r : Ref) : List (Cmd × Rsp) → Ref → Prop
  | nil : Talks r [] r
  | says {l : List (Cmd × Rsp)} {r₁ r₂ : Ref} {c : Cmd} {x : Rsp} : Talks r l r₁ → Says r₁ c x r₂ → Talks r (l ++ [(c, x)]) r₂
  | drifts {l : List (Cmd × Rsp)} {r₁ r₂ : Ref} : Talks r l r₁ → Drifts r₁ r₂ → Talks r l r₂

/-- The commands of a host that are answered by a response, with the responses, in a history: the first one is a reset, and
after it every command is answered. -/
inductive Heard (h : Nat) : List Pica.Event → List (Cmd × Rsp) → Prop
  | nil : Heard h [] []
  | cmd {tr : List Pica.Event} {l : List (Cmd × Rsp)} {ev : Pica.Event} {bytes : Bytes} {c : Cmd} {x : Rsp} : Heard h tr l →
      ev.command = .uciPacket h bytes → IsCmd bytes c → (l = [] → ∃ rc, c = .coreDeviceReset rc) → sentTo h ev.out = [.rsp x] →
      Heard h (tr ++ [ev]) (l ++ [(c, x)])
  | other {tr : List Pica.Event} {l : List (Cmd × Rsp)} {ev : Pica.Event} : Heard h tr l →
      (l ≠ [] → ∀ bytes c, ev.command = .uciPacket h bytes → ¬IsCmd bytes c) → (∀ x, .rsp x ∉ sentTo h ev.out) →
      Heard h (tr ++ [ev]) l

/-- The response, if the packet is one. -/
def answer : Packet → Option Rsp
  | .rsp x => some x
  | _ => none

/-- A session of the emulator as its host sees it. -/
def Sess.of (s : Session) : Sess :=
  ⟨s.state, s.sessionType, View.of s.appConfig, s.appConfig.dstMacAddress, s.sequenceNumber⟩

/-- A device of the emulator as its host sees it. -/
def Ref.of (d : Device) : Ref := ⟨d.config.lowPowerMode, d.sessions.length, fun sid => (d.sessions.get? sid).map Sess.of⟩

end Pica.Spec.Machine
