import Verif.Model.Page
/-! What the page of the web server should show. -/

namespace Pica.Spec

/-- The address, coordinates and angles of a device. -/
def facts (angles : Euler) (i : Info) : List Char × Int × Int × Int × Int × Int × Int :=
  (macText i.mac, i.position.x.toInt, i.position.y.toInt, i.position.z.toInt, (angles i.position).1.toInt,
    (angles i.position).2.1.toInt, (angles i.position).2.2.toInt)

/-- What the page has of a device. -/
def shown (m : Marker) : List Char × Int × Int × Int × Int × Int × Int := (m.mac, m.x, m.y, m.z, m.yaw, m.pitch, m.roll)

/-- The page shows the devices of the registry, in some order. -/
def Shows (angles : Euler) (w : Web) (page : Page) : Prop :=
  (page.map shown).Perm ((AMap.values w.devices).map (facts angles))

/-- Every neighbor on the page is a device of the registry, listed once, with the measurement of the present positions. -/
def NeighborsRight (measure : Measure) (w : Web) (page : Page) : Prop :=
  ∀ m ∈ page, (m.neighbors.map Neighbor.mac).Nodup ∧
    ∀ n ∈ m.neighbors, ∃ i ∈ AMap.values w.devices, ∃ j ∈ AMap.values w.devices, ∃ x,
      macText i.mac = m.mac ∧ macText j.mac = n.mac ∧ i.mac ≠ j.mac ∧ measure i.position j.position = .ok x ∧
      n.distance = x.range.toNat ∧ n.azimuth = x.azimuth.toInt ∧ n.elevation = x.elevation.toInt

/-- The page has a device of the first address with a neighbor of the second. -/
def Lists (page : Page) (a b : MacAddress) : Prop := ∃ m ∈ page, m.mac = macText a ∧ ∃ n ∈ m.neighbors, n.mac = macText b

/-- What is added is new, and what is removed is the device of this handle and the one of this address. -/
def Fits (w : Web) : WebOp → Prop
  | .connection (.connected h mac) | .created mac _ h => ∀ k i, w.devices.get? k = some i → k ≠ h ∧ i.mac ≠ mac
  | .connection (.disconnected h mac) | .destroyed mac h => ∀ k i, w.devices.get? k = some i → (k = h ↔ i.mac = mac)
  | .setPosition _ _ | .getState => True

/-- The same, for a step. -/
def FitsStep (s : World) : World.Label → Prop
  | .serve op => Fits s.web op
  | _ => True

/-- A step of the server alone. -/
def ServerStep : World.Label → Prop
  | .serve _ | .shuffle => True
  | _ => False

end Pica.Spec
