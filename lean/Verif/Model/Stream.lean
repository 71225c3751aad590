import Verif.Model.Http
/-!
The stream of events of one listener, `http_events` of `src/bin/http-server/main.rs` 171-185 over the channel of 119.

The channel is `tokio::sync::broadcast` (version 1.35.1, `Cargo.lock`): it keeps the last 1024 values; a receiver that has
not read a value when it is overwritten gets an error instead, and `BroadcastStream` hands the error on. The body of the
response ends with the first error. This is the documented behaviour of the library, not read from its source. The text of
an event is in `Verif/Model/WebText.lean`; here events stay events.
-/

namespace Pica

/-- The capacity of the channel, `src/bin/http-server/main.rs` 119. -/
def streamCapacity : Nat := 1024

/-- A receiver of the channel and the body it feeds, `src/bin/http-server/main.rs` 172-184. -/
structure Listener where
  /-- values in the channel that were not read yet, oldest first -/
  unread : List WebEvent
  /-- a value was overwritten before it was read -/
  lagged : Bool
  /-- what the body has delivered, oldest first -/
  got : List WebEvent
  /-- the body has ended -/
  ended : Bool
  deriving DecidableEq

namespace Listener

/-- `self.events.subscribe()`, `src/bin/http-server/main.rs` 172: nothing of what was sent before. -/
def new : Listener := ⟨[], false, [], false⟩

/-- `self.events.send(..)`, seen by one receiver; e.g. `src/bin/http-server/main.rs` 208-214. -/
def send (t : Listener) (e : WebEvent) : Listener :=
  if t.unread.length < streamCapacity then { t with unread := t.unread ++ [e] }
  else { t with unread := t.unread.tail ++ [e], lagged := true }

/-- The body asks the stream for its next element, `src/bin/http-server/main.rs` 172-180: an error ends it, an event is
delivered, and without an event it waits. -/
def read (t : Listener) : Listener :=
  if t.ended then t
  else if t.lagged then { t with ended := true }
  else
    match t.unread with
    | [] => t
    | e :: r => { t with unread := r, got := t.got ++ [e] }

end Listener

end Pica
