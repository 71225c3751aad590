import Verif.Spec.Command
import Verif.Spec.AppConfig
/-! Specification of SESSION_UPDATE_CONTROLLER_MULTICAST_LIST ([UCI] 7.7), in closed form. -/

namespace Pica.Spec
open SessionState

/-- Length of the sub-session keys of an action. -/
def keyLength : UpdateMulticastListAction → Nat
  | .addControlee | .removeControlee => 0
  | .addControleeWithShortSubSessionKey => 16
  | .addControleeWithExtendedSubSessionKey => 32

/-- The payload is a list of controlees with these short addresses, any sub-session identifiers and any keys of
length `k`. -/
def IsControlees (k : Nat) (payload : Bytes) (addrs : List (Arr 2)) : Prop :=
  ∃ items : List (Arr 2 × UInt32 × Arr k), items.length ≤ 255 ∧
    payload = many (fun x => x.1.1 ++ (u32le x.2.1 ++ x.2.2.1)) items ∧ addrs = items.map (·.1)

/-- The addresses that are not in the list, each once, in the order of their first occurrence. -/
def newcomers (old : List MacAddress) (addrs : List (Arr 2)) : List (Arr 2) :=
  (addrs.filter fun a => decide (MacAddress.short a ∉ old)).eraseDups

/-- The list after the addition of addresses: newcomers enter until there are eight entries. A list that is longer
to begin with takes them all. -/
def afterAdd (old : List MacAddress) (addrs : List (Arr 2)) : List MacAddress :=
  old ++ ((newcomers old addrs).take (if old.length ≤ 8 then 8 - old.length else addrs.length)).map .short

/-- The answer for each address: the address is there already, there is no room, or it enters. -/
def addStatuses (old : List MacAddress) (addrs : List (Arr 2)) : List ControleeStatus :=
  addrs.mapIdx fun i a => ⟨a,
    if .short a ∈ afterAdd old (addrs.take i) then .errorAddressAlreadyPresent
    else if (afterAdd old (addrs.take i)).length = 8 then .errorMulticastListFull
    else .okMulticastListUpdate⟩

/-- The list after the removal of addresses. -/
def afterRemove (old : List MacAddress) (addrs : List (Arr 2)) : List MacAddress :=
  old.filter fun m => decide (∀ a ∈ addrs, m ≠ .short a)

/-- The answer for each address: it is removed at its first occurrence if it is in the list. -/
def removeStatuses (old : List MacAddress) (addrs : List (Arr 2)) : List ControleeStatus :=
  addrs.mapIdx fun i a => ⟨a,
    if .short a ∈ old ∧ a ∉ addrs.take i then .okMulticastListUpdate else .errorAddressNotFound⟩

/-- The entries that succeeded. -/
def succeeded (l : List ControleeStatus) : List ControleeStatus :=
  l.filter fun x => decide (x.status = .okMulticastListUpdate)

/-- The overall status: OK if all succeeded, otherwise that of the last failure. -/
def overall (l : List ControleeStatus) : Status :=
  match (l.filter fun x => decide (x.status ≠ .okMulticastListUpdate)).getLast? with
  | none => .ok
  | some x => if x.status = .errorMulticastListFull then .errorMulticastListFull else .failed

/-- The session may be updated: ACTIVE or IDLE, DEVICE_TYPE (0x00) controller and MULTI_NODE_MODE (0x03) one to many. -/
def Updatable (s : Session) : Prop :=
  (s.state = sessionStateActive ∨ s.state = sessionStateIdle) ∧
  View.of s.appConfig 0x00 = some [1] ∧ View.of s.appConfig 0x03 = some [1]

/-- The session with another controlee list: NUMBER_OF_CONTROLEES is a byte; with an empty list the session is IDLE. -/
def withList (s : Session) (dst : List MacAddress) : Session :=
  { s with
    appConfig := { s.appConfig with numberOfControlees := UInt8.ofNat dst.length, dstMacAddress := dst }
    state := if dst = [] then sessionStateIdle else s.state }

/-- The notification of the move to IDLE, with reason ERROR_INVALID_NUM_OF_CONTROLEES. -/
def emptied (s : Session) (dst : List MacAddress) : List Effect :=
  if dst = [] ∧ s.state = sessionStateActive then [.notify 1 (.sessionStatus s.id sessionStateIdle 0x33)] else []

end Pica.Spec
