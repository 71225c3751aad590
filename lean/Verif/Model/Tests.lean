import Verif.Model.Clock
import Verif.Model.Console
import Verif.Model.PyUci
import Verif.Model.PyShow
/-!
The tests of the repository: `tests/ranging.py`, `tests/data_transfer.py`, `tests/helper.py` and the
part of `py/pica/pica/__init__.py` they use, run against the emulator with a clock.

A host of a test is a list of statements still to be executed and its two queues. How quick
everything is is a parameter: besides the delayed notifications, which are at most `late` late
(`Verif/Model/Clock.lean`), no command stays in the queue of the emulator, no ranging task oversleeps
and no host is idle for longer than `lag`. The time a packet spends on its way is part of the `lag` of
its receiver. Times are in microseconds.

Simplifications. A host comes into being, and starts on its statements, when the emulator has accepted its connection. It closes
its connection some time after its last statement, not only when all the hosts are done. Connection
tasks do not panic. An exception ends a host also in `data_transfer` (`tests/data_transfer.py` 348-349), which prints it and goes on.
-/

namespace Pica.Tests
open Py

/-- The arguments of `expect_control` and `expect_data`, `py/pica/pica/__init__.py` 113-117 and 143-147. -/
inductive Expected where
  /-- a control packet -/
  | packet (o : Obj)
  /-- the class `ShortMacTwoWaySessionInfoNtf` -/
  | sessionInfo
  /-- a data packet -/
  | data (o : Obj)
  deriving DecidableEq

/-- `expect_data`, not `expect_control`. -/
def Expected.isData : Expected → Bool
  | .data _ => true
  | _ => false

/-- The argument of `send_control` or `send_data`. -/
inductive Message where
  | control (c : Py.Command)
  /-- `DataMessageSnd` -/
  | data (pbf sid dst seq : Nat) (b : Bytes)
  deriving DecidableEq

/-- A statement of a test. -/
inductive Statement where
  /-- `host.send_control(c)` or `host.send_data(c)` -/
  | send (c : Message)
  /-- `await host.expect_control(x, timeout)` or `await host.expect_data(x, timeout)` -/
  | expect (x : Expected) (timeout : Nat)
  deriving DecidableEq

/-- `isinstance(received, ShortMacTwoWaySessionInfoNtf)` -/
def isSessionInfo : Obj → Bool
  | .shortMacTwoWaySessionInfoNtf .. => true
  | _ => false

/-- `expect_control` or `expect_data` returns, `py/pica/pica/__init__.py` 127-141 and 157-171; otherwise it raises. -/
def returns (x : Expected) (packet : Bytes) : Bool :=
  match x with
  | .packet o => decide (parseControl packet = some o)
  | .sessionInfo => (parseControl packet).any isSessionInfo
  | .data o => decide (parseData packet = some o)

/-- What was received is shown, `event.show()`: `tests/ranging.py` 122 and 241, `tests/data_transfer.py` 127, 130, 262, 265, 330
and 346. -/
def Expected.shown : Expected → Bool
  | .packet (.sessionDataCreditNtf ..) => true
  | .packet _ => false
  | .sessionInfo => true
  | .data _ => true

/-- The object `expect_control` or `expect_data` gets, `py/pica/pica/__init__.py` 127 and 157. -/
def Expected.object (x : Expected) (packet : Bytes) : Option Obj := if x.isData then parseData packet else parseControl packet

/-- The statement returns, and so does `event.show()` if it follows, `py/pica/pica/packets/uci.py` 25-83; otherwise one of them
raises. -/
def accepts (x : Expected) (packet : Bytes) : Bool :=
  returns x packet && (!x.shown || (x.object packet).any fun o => o.show.returned)

/-- `send_control`, `py/pica/pica/__init__.py` 99-103. -/
def control (c : Py.Command) : Option Bytes := c.serialize.bind Host.sendControl

/-- The bytes written; `none` is an exception. `send_data`, `py/pica/pica/__init__.py` 105-111. -/
def Message.wire : Message → Option Bytes
  | .control c => Tests.control c
  | .data pbf sid dst seq b => Console.sendSection sid dst seq pbf b

/-! ### The scripts -/

/-- `timeout: float = 1.0`, `py/pica/pica/__init__.py` 116. -/
def second : Nat := 1000000

/-- `init`, `tests/helper.py` 19-30. -/
def init : List Statement := [
  .expect (.packet (.coreDeviceStatusNtf 1)) second,
  .send (.control (.coreDeviceReset 0)),
  .expect (.packet (.coreDeviceResetRsp 0)) second,
  .expect (.packet (.coreDeviceStatusNtf 1)) second]

/-- The parameters of `tests/ranging.py` 52-87 and 171-206: role and type are 1 and 1 for the controller, 0 and 0 for
the controlee. -/
def parameters (role type : UInt8) (mac peer : Bytes) : List (Nat × Bytes) := [
  (0x11, [role]),
  (0x00, [type]),
  (0x06, mac),
  (0x26, [0]),
  (0x03, [0]),
  (0x22, [0]),
  (0x01, [0x06]),
  (0x09, [0xe8, 0x03, 0, 0]),
  (0x05, [1]),
  (0x07, peer)]

/-- What all the hosts begin with: `tests/ranging.py` 27-102 and 146-221, `tests/data_transfer.py` 29-105 and 156-232. The
session type is 0 in the first, 1 in the second. -/
def opening (kind : Nat) (role type : UInt8) (mac peer : Bytes) : List Statement := init ++ [
  .send (.control (.sessionInit 0 kind)),
  .expect (.packet (.sessionInitRsp 0)) second,
  .expect (.packet (.sessionStatusNtf 0 0 0)) second,
  .send (.control (.sessionSetAppConfig 0 (parameters role type mac peer))),
  .expect (.packet (.sessionSetAppConfigRsp 0 [])) second,
  .expect (.packet (.sessionStatusNtf 0 3 0)) second]

/-- The session is started: `tests/ranging.py` 104-118 and 223-237, `tests/data_transfer.py` 110-124 and 234-248. -/
def starting : List Statement := [
  .send (.control (.sessionStart 0)),
  .expect (.packet (.sessionStartRsp 0)) second,
  .expect (.packet (.sessionStatusNtf 0 2 0)) second,
  .expect (.packet (.coreDeviceStatusNtf 2)) second]

/-- The session is stopped and removed: `tests/ranging.py` 124-142 and 243-261,
`tests/data_transfer.py` 133-152 and 267-285. -/
def closing : List Statement := [
  .send (.control (.sessionStop 0)),
  .expect (.packet (.sessionStopRsp 0)) second,
  .expect (.packet (.sessionStatusNtf 0 3 0)) second,
  .expect (.packet (.coreDeviceStatusNtf 1)) second,
  .send (.control (.sessionDeinit 0)),
  .expect (.packet (.sessionDeinitRsp 0)) second]

/-- `expect_control(uci.ShortMacTwoWaySessionInfoNtf, timeout=2.0)` -/
def info : Statement := .expect .sessionInfo (2 * second)

/-- `controller` and `controlee`, `tests/ranging.py` 26-142 and 145-261, which differ in two parameters. -/
def ranging (role type : UInt8) (mac peer : Bytes) : List Statement :=
  opening 0 role type mac peer ++ starting ++ [info, info] ++ closing

/-- The wait for credit in `data_transfer`, `tests/data_transfer.py` 324-329 and 340-345. -/
def credit : Statement := .expect (.packet (.sessionDataCreditNtf 0 1)) second

/-- The loop of `data_transfer`, `tests/data_transfer.py` 297-330: over the values of `i`, with `seq_num`. -/
def sendingLoop (dst : Nat) (b : Bytes) : List Nat → Nat → List Statement
  | [], _ => []
  | i :: is, seq =>
    .send (.data (if b.length ≤ i + Console.maxDataPayload then 0 else 1) 0 dst seq ((b.drop i).take Console.maxDataPayload)) ::
    credit ::
    let seq := seq + 1
    let seq := if 65535 ≤ seq then 0 else seq
    sendingLoop dst b is seq

/-- `data_transfer`, `tests/data_transfer.py` 288-349, of a file with the bytes `b`. -/
def sending (peer b : Bytes) : List Statement :=
  let dst := Console.fromBytes peer
  if Console.maxDataPayload < b.length then
    -- `range(0, len(b), MAX_DATA_PACKET_PAYLOAD_SIZE)`
    sendingLoop dst b ((List.range ((b.length + (Console.maxDataPayload - 1)) / Console.maxDataPayload)).map (· * Console.maxDataPayload)) 0
  else [.send (.data 0 0 dst 0 b), credit]

/-- `controller`, `tests/data_transfer.py` 28-152. -/
def controller (mac peer file : Bytes) : List Statement :=
  opening 1 1 1 mac peer ++ sending peer file ++ starting ++ [info, info] ++ closing

/-- `controlee`, `tests/data_transfer.py` 155-285. -/
def controlee (mac peer file : Bytes) : List Statement :=
  opening 1 0 0 mac peer ++ starting ++
  [.expect (.data (.dataMessageRcv 0 0 0 (ofLe peer) 1 file)) (2 * second), info] ++ closing

/-! ### The hosts -/

/-- A host. -/
structure Host where
  /-- when its connection was accepted -/
  born : Nat
  /-- the statements still to be executed -/
  todo : List Statement
  /-- when the last statement was executed -/
  since : Nat
  /-- when that could have been done: the packet was there, or the statement was one that sends -/
  able : Nat
  /-- `control_queue`, each packet with its time of arrival -/
  inbox : List (Nat × Bytes)
  /-- `data_queue` -/
  data : List (Nat × Bytes)
  /-- an exception has been raised -/
  failed : Bool
  deriving DecidableEq

/-- The queue a statement takes a packet from: `_recv_control` or `_recv_data`, `py/pica/pica/__init__.py` 93-97. -/
def Host.box (H : Host) (x : Expected) : List (Nat × Bytes) := if x.isData then H.data else H.inbox

/-- What is left of it. -/
def Host.take (H : Host) (x : Expected) (rest : List (Nat × Bytes)) : Host :=
  if x.isData then { H with data := rest } else { H with inbox := rest }

/-- The packets a host reads for a message to it: `write_routine` (`src/lib.rs` 284-344), then
`_read_packet` (`py/pica/pica/__init__.py` 45-77). -/
def arrives (p : Packet) : List Bytes :=
  match p.encode with
  | none => []
  | some b =>
    match segment b with
    | .ok fs => Host.readPackets 1 fs.flatten
    | .error _ => []

/-- `header.mt == uci.MessageType.DATA`, `py/pica/pica/__init__.py` 86. -/
def forData (packet : Bytes) : Bool := decide (parseMessageType (packet.headD 0) = .data)

/-- A message arrives and is put on the queues, `_read_packets`, `py/pica/pica/__init__.py` 79-91. -/
def Host.hear (H : Host) (t : Nat) (p : Packet) : Host :=
  { H with
    inbox := H.inbox ++ ((arrives p).filter fun b => !forData b).map fun b => (t, b)
    data := H.data ++ ((arrives p).filter forData).map fun b => (t, b) }

/-- A message for the host `h` arrives. -/
def post (t h : Nat) (p : Packet) (hosts : AMap Nat Host) : AMap Nat Host :=
  match hosts.get? h with
  | some H => hosts.insert h (H.hear t p)
  | none => hosts

/-- What an output of the emulator does to the hosts. `Host.connect`, `py/pica/pica/__init__.py` 22-25. -/
def hears (script : Nat → List Statement) (t : Nat) (hosts : AMap Nat Host) : Out → AMap Nat Host
  | .send h p => post t h p hosts
  | .event (.connected h _) => hosts.insert h ⟨t, script h, t, t, [], [], false⟩
  | _ => hosts

/-- What a step of the emulator does to the hosts. -/
def after (script : Nat → List Statement) (t : Nat) (hosts : AMap Nat Host) : System.Label → AMap Nat Host
  | .process ev => ev.out.foldl (hears script t) hosts
  | .notifies h n => post t h (.ntf n) hosts
  | _ => hosts

/-- The emulator and the hosts. -/
structure Test where
  clock : Clock
  /-- when the commands in the queue were put there -/
  stamps : List Nat
  hosts : AMap Nat Host

/-- Nothing has happened yet. -/
def Test.new : Test where
  clock := .new
  stamps := []
  hosts := []

/-- The times the commands in the queue were put there, after a step. -/
def stamp (t : Nat) (stamps : List Nat) : System.Label → List Nat
  | .request _ | .packet _ _ | .leaves _ | .tick _ | .inBand _ _ => stamps ++ [t]
  | .process _ | .panics _ _ => stamps.tail
  | _ => stamps

/-- The steps of the emulator that the hosts leave to it. A connection is closed when its host is done (`tests/ranging.py`
275-280). -/
def Free (s : Test) : System.Label → Prop
  | .packet _ _ | .fails _ => False
  | .closes h => ∃ H, s.hosts.get? h = some H ∧ H.todo = []
  | _ => True

/-- What happens in one step. -/
inductive Label where
  | emulator (l : System.Label)
  | sends (h : Nat)
  | gets (h : Nat)
  | times (h : Nat)

/-- The steps at the time `t`. -/
inductive Step (script : Nat → List Statement) (t : Nat) : Test → Label → Test → Prop
  | emulator {s : Test} {l : System.Label} {u : Clock} : Free s l → Clock.Step t s.clock l u →
      Step script t s (.emulator l) ⟨u, stamp t s.stamps l, after script t s.hosts l⟩
  /-- a command is written to the connection and put in the queue -/
  | sends {s : Test} {h : Nat} {H : Host} {c : Message} {todo : List Statement} {b : Bytes} {u : Clock} :
      s.hosts.get? h = some H → H.failed = false → H.todo = .send c :: todo → c.wire = some b →
      Clock.Step t s.clock (.packet h b) u →
      Step script t s (.sends h) ⟨u, s.stamps ++ [t], s.hosts.insert h { H with todo := todo, since := t, able := t }⟩
  /-- `send_control` or `send_data` raises an exception -/
  | raises {s : Test} {h : Nat} {H : Host} {c : Message} {todo : List Statement} :
      s.hosts.get? h = some H → H.failed = false → H.todo = .send c :: todo → c.wire = none →
      Step script t s (.sends h) ⟨{ s.clock with now := t }, s.stamps, s.hosts.insert h { H with failed := true }⟩
  /-- `expect_control` or `expect_data` gets a packet -/
  | gets {s : Test} {h : Nat} {H : Host} {x : Expected} {timeout a : Nat} {b : Bytes} {todo : List Statement}
      {rest : List (Nat × Bytes)} :
      s.hosts.get? h = some H → H.failed = false → H.todo = .expect x timeout :: todo → H.box x = (a, b) :: rest →
      Step script t s (.gets h) ⟨{ s.clock with now := t }, s.stamps,
        s.hosts.insert h (if accepts x b then { H.take x rest with todo := todo, since := t, able := max H.able a }
          else { H with failed := true })⟩
  /-- `expect_control` or `expect_data` raises a `TimeoutError` -/
  | times {s : Test} {h : Nat} {H : Host} {x : Expected} {timeout : Nat} {todo : List Statement} :
      s.hosts.get? h = some H → H.failed = false → H.todo = .expect x timeout :: todo → H.box x = [] →
      H.since + timeout ≤ t →
      Step script t s (.times h) ⟨{ s.clock with now := t }, s.stamps, s.hosts.insert h { H with failed := true }⟩

/-- The host is not idle for longer than `lag`: a statement that sends is executed within `lag` of the one before, one that
takes a packet within `lag` of the arrival of the packet or of those it took before. -/
def Host.Quick (lag t : Nat) (H : Host) : Prop :=
  H.failed = false →
    (∀ c todo, H.todo = .send c :: todo → t ≤ H.since + lag) ∧
    (∀ x timeout todo, H.todo = .expect x timeout :: todo →
      ∀ y ys, H.box x = y :: ys → t ≤ max H.able y.1 + lag)

/-- Nothing is overdue at the time `t`. -/
structure InTime (late lag t : Nat) (s : Test) : Prop where
  now : s.clock.now ≤ t
  naps : ∀ x ∈ s.clock.naps, t ≤ x.2.2 + late
  queue : ∀ a ∈ s.stamps, t ≤ a + lag
  timers : ∀ k ∈ s.clock.sys.timers, ∀ i due, s.clock.wakes.get? k.id = some (i, due) → t ≤ due + lag
  hosts : ∀ h H, s.hosts.get? h = some H → H.Quick lag t

/-- The runs of the test, oldest step first. No step is taken while something is overdue. -/
inductive Run (script : Nat → List Statement) (late lag : Nat) : List (Nat × Label) → Test → Prop
  | nil : Run script late lag [] .new
  | step {s u : Test} {ls : List (Nat × Label)} {t : Nat} {l : Label} : Run script late lag ls s →
      s.clock.sys.stopped = false → InTime late lag t s → Step script t s l u → Run script late lag (ls ++ [(t, l)]) u

end Pica.Tests
