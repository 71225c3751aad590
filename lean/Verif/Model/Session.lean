import Verif.Model.AppConfig
import Verif.Model.Packets
/-! `src/session.rs`: one session of a device. -/

namespace Pica

/-- What a handler does besides changing state and answering: the tasks it spawns or aborts. -/
inductive Effect where
  /-- `tokio::spawn` of a task that sleeps `delayMs` milliseconds and then sends the notification:
  `src/session.rs` 75-87, `src/device.rs` 149-157 and 764-778. -/
  | notify (delayMs : Nat) (n : Ntf)
  /-- `tokio::spawn` of the ranging task, `src/device.rs` 823-830. -/
  | startTimer (task : Nat) (session : UInt32) (intervalMs : UInt32)
  /-- `JoinHandle::abort`, `src/session.rs` 129. -/
  | abortTimer (task : Nat)
  /-- `tokio::spawn` of a task sending `attempts` times `StopRanging`, `src/device.rs` 729-736. -/
  | stopRanging (mac : MacAddress) (session : UInt32) (attempts : UInt8)
  deriving DecidableEq, Repr

/-- `struct Session`, `src/session.rs` 30-43. The ranging task is represented by an
identifier; `tx` is the channel of the owning device. -/
structure Session where
  state : SessionState
  id : UInt32
  deviceHandle : Nat
  data : Bytes
  sessionType : SessionType
  sequenceNumber : UInt32
  appConfig : AppConfig
  rangingTask : Option Nat
  deriving DecidableEq

namespace Session

/-- `Session::new`, `src/session.rs` 46-63. -/
def new (id : UInt32) (ty : SessionType) (deviceHandle : Nat) : Session where
  state := .sessionStateDeinit
  id := id
  deviceHandle := deviceHandle
  data := []
  sessionType := ty
  sequenceNumber := 0
  appConfig := AppConfig.default
  rangingTask := none

/-- `Session::set_state`, `src/session.rs` 65-88. -/
def setState (s : Session) (st : SessionState) (reason : ReasonCode) : Session × List Effect :=
  if st = s.state then (s, [])
  else ({ s with state := st }, [.notify 1 (.sessionStatus s.id st reason.code)])

/-- `Session::init`, `src/session.rs` 120-125. -/
def init (s : Session) : Session × List Effect :=
  s.setState .sessionStateInit .stateChangeWithSessionManagementCommands

/-- `Session::stop_ranging_task`, `src/session.rs` 127-132. -/
def stopRangingTask (s : Session) : Session × List Effect :=
  match s.rangingTask with
  | some t => ({ s with rangingTask := none }, [.abortTimer t])
  | none => (s, [])

/-- `Drop for Session`, `src/session.rs` 163-174. -/
def drop (s : Session) : List Effect :=
  let (s, e₁) := s.stopRangingTask
  let (_, e₂) := s.setState .sessionStateDeinit .stateChangeWithSessionManagementCommands
  e₁ ++ e₂

/-- `Session::is_session_info_ntf_enabled`, `src/session.rs` 94-96. -/
def isSessionInfoNtfEnabled (s : Session) : Bool :=
  decide (s.appConfig.sessionInfoNtfConfig ≠ .disable)

/-- `Session::data_message_snd`, `src/session.rs` 134-160. -/
def dataMessageSnd (s : Session) (d : DataMessageSnd) : Except Panic (Session × Ntf) :=
  if s.sessionType ≠ .firaRangingAndInBandDataSession then
    .ok (s, .sessionDataTransferStatus d.sessionHandle d.dataSequenceNumber.toUInt8
      .uciDataTransferStatusSessionTypeNotSupported 1)
  else if s.id ≠ d.sessionHandle then .error .sessionId
  else .ok ({ s with data := s.data ++ d.applicationData },
    .sessionDataCredit d.sessionHandle .creditAvailable)

end Session
end Pica
