import Verif.Model.Stream
import Verif.Spec.Http
/-! What a listener of the web server sees. -/

namespace Pica.Spec

/-- The server sends an event, or the listener's task runs. -/
inductive Beat where
  | send (e : WebEvent)
  | read

/-- The events of these beats. -/
def sent : List Beat → List WebEvent
  | [] => []
  | .send e :: r => e :: sent r
  | .read :: r => sent r

/-- The beats one after the other. -/
def hear : Listener → List Beat → Listener
  | t, [] => t
  | t, .send e :: r => hear (t.send e) r
  | t, .read :: r => hear t.read r

/-- Histories of the web server and a listener who comes when the registry is `w₀`: handlers that run while `ok` holds, their
events mixed in any way with the steps of the listener, who may also run between handlers. The list has all events sent.
Handlers send while they hold the lock, so that the events of two handlers do not mix. -/
inductive Listening (measure : Measure) (ok : Web → Listener → WebOp → Prop) (w₀ : Web) :
    Web → Listener → List WebEvent → Prop
  | start : Listening measure ok w₀ w₀ Listener.new []
  | serve {w w' : Web} {t : Listener} {es es' : List WebEvent} {reply : Reply} {bs : List Beat} (heard : Nat → Bool)
      (op : WebOp) : Listening measure ok w₀ w t es → ok w t op → Spec.serve measure heard w op = (w', es', reply) →
      sent bs = es' → Listening measure ok w₀ w' (hear t bs) (es ++ es')
  | read {w : Web} {t : Listener} {es : List WebEvent} : Listening measure ok w₀ w t es →
      Listening measure ok w₀ w t.read es

/-- The devices with an address other than this one. -/
def others (w : Web) (mac : MacAddress) : Nat := w.devices.values.countP fun o => decide (o.mac ≠ mac)

end Pica.Spec
