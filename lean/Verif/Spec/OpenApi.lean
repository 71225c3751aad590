import Verif.Spec.WebText
import Verif.Spec.Http
import Verif.Model.Pica
/-! The description of the web interface in `static/openapi.yaml`, written down from that file. -/

namespace Pica.Spec
open Spec.Json

/-- The schemas of OpenAPI 3.0 in use. No property is required and other properties are allowed. -/
inductive Schema where
  | string
  | enum (names : List String)
  | integer
  | range (minimum maximum : Int)
  | array (items : Schema)
  | object (properties : List (String × Schema))

/-- A document is as the schema says. -/
inductive Conforms : Schema → Value → Prop
  | string {s : List Char} : Conforms .string (.str s)
  | enum {names : List String} {n : String} : n ∈ names → Conforms (.enum names) (.str n.toList)
  | integer {n : Int} : Conforms .integer (.int n)
  | range {a b n : Int} : a ≤ n → n ≤ b → Conforms (.range a b) (.int n)
  | array {s : Schema} {vs : List Value} : (∀ v ∈ vs, Conforms s v) → Conforms (.array s) (.arr vs)
  | object {ps : List (String × Schema)} {ms : List (List Char × Value)} :
      (∀ p ∈ ps, ∀ m ∈ ms, m.1 = p.1.toList → Conforms p.2 m.2) → Conforms (.object ps) (.obj ms)

namespace OpenApi

/-- `Category`, lines 63-66. -/
def category : Schema := .enum ["uci", "anchor"]

/-- `Position`, lines 74-101. -/
def position : Schema :=
  .object [("x", .integer), ("y", .integer), ("z", .integer), ("yaw", .range (-180) 180), ("pitch", .range (-90) 90),
    ("roll", .range (-180) 180)]

/-- `Device`, lines 51-62, with a schema for categories. -/
def device (category : Schema) : Schema :=
  .object [("category", category), ("mac_address", .string), ("position", position)]

/-- The data of the events, lines 214-271, with a schema for categories. -/
def data (category : Schema) : List (String × Schema) :=
  [("device-added", device category),
    ("device-removed", .object [("category", category), ("mac_address", .string)]),
    ("device-updated", device category),
    ("neighbor-updated", .object [("source_category", category), ("source_mac_address", .string),
      ("destination_category", category), ("destination_mac_address", .string), ("distance", .range 0 65535),
      ("azimuth", .range (-180) 180), ("elevation", .range (-90) 90)])]

/-- An event is one of those described. -/
def Event (category : Schema) (e : List Char × Value) : Prop :=
  ∃ x ∈ data category, e.1 = x.1.toList ∧ Conforms x.2 e.2

/-- The body of /get-state, lines 175-191. -/
def state : Schema := .array (device category)

/-- The status codes listed for a command, lines 116-174. -/
def codes : List (String × List Nat) :=
  [("init-uci-device", [200, 403, 500]), ("set-position", [200, 404, 500]), ("create-anchor", [200, 406, 409]),
    ("destroy-anchor", [200, 404, 500])]

/-- The status codes the server sends. -/
def sent : List (String × List Nat) :=
  [("init-uci-device", [200, 404, 406]), ("set-position", [200, 404, 406]), ("create-anchor", [200, 406, 409, 500]),
    ("destroy-anchor", [200, 404, 406, 500])]

end OpenApi

/-- The emulator answers a command of the web server; or it has ended and does not. -/
def Answer (c : Command) (r : Option (Except PicaCommandError Nat)) : Prop :=
  r = none ∨ ∃ (x : Except PicaCommandError Nat) (p : Pica) (env : Env) (q : Pica) (out : List Out), r = some x ∧ p.step env c = .ok (q, out) ∧ Out.anchorReply x ∈ out

/-- What the client of a request may be told. -/
inductive Tells (measure : Measure) (heard : Nat → Bool) (w : Web) : Action → Reply → Prop
  | act {a : Action} {w' : Web} {es : List WebEvent} {r : Reply} : w.act measure heard a = some (w', es, r) →
      Tells measure heard w a r
  | create {m : MacAddress} {p : Position} {r : Option (Except PicaCommandError Nat)} : Answer (.createAnchor m) r →
      Tells measure heard w (.createAnchor m p) (w.created heard m p r).2.2
  | destroy {m : MacAddress} {r : Option (Except PicaCommandError Nat)} : Answer (.destroyAnchor m) r →
      Tells measure heard w (.destroyAnchor m) (w.destroyed heard m r).2.2

end Pica.Spec
