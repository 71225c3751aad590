import Verif.Model.Pica
/-!
The tasks around the event loop: the connections, the ranging timers, the delayed notifications and
the in-band stops, and the bounded queue through which all of them reach the emulator. A schedule is
any sequence of the steps below.

Simplifications. Time is left out: a task that sleeps may wake up at any time. The senders waiting
for room in the queue may get it in any order. A task whose own send fails ends without effect on
the others, so the delivery of notifications to a closed connection is not distinguished.
`Pica::add_device` and `Pica::run` exclude each other, so a direct call of the former is a `Connect`
command. When the event loop panics the schedule ends.
-/

namespace Pica

/-- `MAX_DEVICE`, `src/device.rs` 30. -/
def maxDevice : Nat := 4

/-- The capacity of the command queue, `src/lib.rs` 188. -/
def queueSize : Nat := maxSession * maxDevice

/-- The task of a connection, `src/lib.rs` 371-389. -/
inductive Conn where
  /-- in `try_join!` (380-383): both ends of the channels are held -/
  | running
  /-- about to send `Disconnect` (385-388): the receiver of the packets has been dropped -/
  | closing
  deriving DecidableEq

/-- The ranging task of `src/device.rs` 823-830. -/
structure Timer where
  id : Nat
  device : Nat
  session : UInt32
  aborted : Bool
  deriving DecidableEq

/-- The emulator and its tasks. -/
structure System where
  pica : Pica
  /-- the event loop has panicked -/
  stopped : Bool
  /-- the channel of `src/lib.rs` 188, oldest command first -/
  queue : List Command
  timers : List Timer
  /-- number of ranging tasks spawned so far -/
  spawned : Nat
  /-- the tasks of `src/device.rs` 729-736 with the number of commands left to send -/
  stops : List (MacAddress × UInt32 × Nat)
  /-- the tasks of `src/session.rs` 75-87, `src/device.rs` 149-157 and 764-778 -/
  ntfs : List (Nat × Ntf)
  conns : AMap Nat Conn

namespace System

/-- The emulator just created, `src/lib.rs` 187-200. -/
def new : System where
  pica := .new
  stopped := false
  queue := []
  timers := []
  spawned := 0
  stops := []
  ntfs := []
  conns := []

/-- `JoinHandle::abort` marks the task, `src/session.rs` 129. -/
def mark (t : Nat) (x : Timer) : Timer := if x.id = t then { x with aborted := true } else x

/-- What an output of a step does to the tasks. -/
def apply (s : System) : Out → System
  | .effect h (.notify _ n) => { s with ntfs := s.ntfs ++ [(h, n)] }
  | .effect h (.startTimer t sid _) => { s with timers := s.timers ++ [⟨t, h, sid, false⟩] }
  | .effect _ (.abortTimer t) => { s with timers := s.timers.map (mark t) }
  | .effect _ (.stopRanging mac sid n) => { s with stops := s.stops ++ [(mac, sid, n.toNat)] }
  | .event (.connected h _) => { s with conns := s.conns.insert h .running }
  | _ => s

/-- The connection task holds the receiver of the packets to the host. -/
def alive (s : System) (h : Nat) : Bool := decide (s.conns.get? h = some .running)

/-- The environment of the next command. -/
def env (s : System) (estimate : Nat → Nat → Option RangingMeasurement) : Env where
  estimate := estimate
  alive := s.alive
  tid := s.spawned

/-- The commands sent from outside: the listener of `src/bin/main.rs` 43-46 and the web server,
`src/bin/http-server/main.rs`. -/
def External : Command → Prop
  | .connect | .createAnchor _ | .destroyAnchor _ => True
  | _ => False

/-- What happens in one step of a schedule. -/
inductive Label where
  /-- a client sends a command -/
  | request (c : Command)
  /-- the connection task sends a packet of the host, `src/lib.rs` 276-279 -/
  | packet (h : Nat) (bytes : Bytes)
  /-- the connection is closed by the host or by an error, `src/lib.rs` 380-383 -/
  | closes (h : Nat)
  /-- the connection task panics (`src/lib.rs` 256, 264, 298, 375): no `Disconnect` is sent -/
  | fails (h : Nat)
  /-- the connection task sends `Disconnect`, `src/lib.rs` 385-388 -/
  | leaves (h : Nat)
  /-- a ranging task sends `Ranging`, `src/device.rs` 826-828; an aborted one still may until it ends,
  since the activation in progress is not interrupted -/
  | tick (t : Timer)
  /-- an aborted task ends -/
  | dies (t : Timer)
  /-- a task of `src/device.rs` 729-736 sends `StopRanging` -/
  | inBand (mac : MacAddress) (sid : UInt32)
  /-- a delayed notification is sent -/
  | notifies (h : Nat) (n : Ntf)
  /-- the event loop processes a command, `src/lib.rs` 549-558 and 644-658 -/
  | process (ev : Pica.Event)
  /-- the same, and panics -/
  | panics (c : Command) (x : Panic)
  /-- the maps of the emulator are enumerated in another order -/
  | shuffle

/-- There is room in the queue. -/
def Room (s : System) : Prop := s.queue.length < queueSize

/-- The steps. -/
inductive Step : System → Label → System → Prop
  | request {s : System} {c : Command} : External c → s.Room → Step s (.request c) { s with queue := s.queue ++ [c] }
  | packet {s : System} {h : Nat} {bytes : Bytes} : s.conns.get? h = some .running → s.Room →
      Step s (.packet h bytes) { s with queue := s.queue ++ [.uciPacket h bytes] }
  | closes {s : System} {h : Nat} : s.conns.get? h = some .running →
      Step s (.closes h) { s with conns := s.conns.insert h .closing }
  | fails {s : System} {h : Nat} : s.conns.get? h = some .running → Step s (.fails h) { s with conns := s.conns.erase h }
  | leaves {s : System} {h : Nat} : s.conns.get? h = some .closing → s.Room →
      Step s (.leaves h) { s with conns := s.conns.erase h, queue := s.queue ++ [.disconnect h] }
  | tick {s : System} {t : Timer} : t ∈ s.timers → s.Room →
      Step s (.tick t) { s with queue := s.queue ++ [.ranging t.device t.session] }
  | dies {s : System} {t : Timer} : t ∈ s.timers → t.aborted = true → Step s (.dies t) { s with timers := s.timers.erase t }
  | inBand {s : System} {mac : MacAddress} {sid : UInt32} {n : Nat} : (mac, sid, n + 1) ∈ s.stops → s.Room →
      Step s (.inBand mac sid)
        { s with
          stops := (mac, sid, n) :: s.stops.erase (mac, sid, n + 1)
          queue := s.queue ++ [.stopRanging mac sid] }
  | notifies {s : System} {h : Nat} {n : Ntf} {l : List (Nat × Ntf)} : s.ntfs.Perm ((h, n) :: l) →
      Step s (.notifies h n) { s with ntfs := l }
  | process {s : System} {estimate : Nat → Nat → Option RangingMeasurement} {c : Command} {q : List Command} {p : Pica}
      {out : List Out} : s.queue = c :: q → s.pica.step (s.env estimate) c = .ok (p, out) →
      Step s (.process ⟨s.env estimate, c, out⟩)
        (out.foldl apply { s with pica := p, queue := q, spawned := s.spawned + 1 })
  | panics {s : System} {estimate : Nat → Nat → Option RangingMeasurement} {c : Command} {q : List Command} {x : Panic} :
      s.queue = c :: q → s.pica.step (s.env estimate) c = .error x → Step s (.panics c x) { s with queue := q, stopped := true }
  | shuffle {s : System} {p : Pica} : s.pica.Reorder p → Step s .shuffle { s with pica := p }

/-- The schedules, oldest step first. Nothing happens after a panic of the event loop. -/
inductive Run : System → List Label → System → Prop
  | nil {s : System} : Run s [] s
  | step {s t u : System} {ls : List Label} {l : Label} : Run s ls t → t.stopped = false → Step t l u → Run s (ls ++ [l]) u

/-- A state some schedule leads to. -/
def Reachable (s : System) : Prop := ∃ ls, Run new ls s

end System
end Pica
