import Verif.Model.Position
import Verif.Model.MacAddress
/-! The unit tests of the repository. -/

namespace Pica.Spec

/-- One block of a test of `src/bin/http-server/position.rs` 129-278: what is expected of
`a.compute_range_azimuth_elevation(&b)`. An empty list expects nothing, a longer one any of its elements. -/
structure PosTest where
  a : Position
  b : Position
  range : List UInt16 := []
  azimuth : List Int16 := []
  elevation : List Int8 := []

/-- A position without rotation. -/
def spot (x y z : Int16) : Position := ⟨x, y, z, 0, 0, 0⟩
/-- A device at the origin, turned by yaw, pitch and roll. -/
def facing (yaw : Int16) (pitch : Int8) (roll : Int16) : Position := ⟨0, 0, 0, yaw, pitch, roll⟩

/-- `range`, lines 133-156; the roots of 200 and 300 are 14.14 and 17.32. -/
def rangeTests : List PosTest := [
  { a := spot 0 0 0, b := spot 10 0 0, range := [10] },
  { a := spot 0 0 0, b := spot (-10) 0 0, range := [10] },
  { a := spot 0 0 0, b := spot 10 10 0, range := [14] },
  { a := spot 0 0 0, b := spot (-10) (-10) (-10), range := [17] }]

/-- `azimuth_without_rotation`, lines 158-186. -/
def azimuthTests : List PosTest := [
  { a := spot 0 0 0, b := spot 10 0 10, azimuth := [45], elevation := [0] },
  { a := spot 0 0 0, b := spot (-10) 0 10, azimuth := [-45], elevation := [0] },
  { a := spot 0 0 0, b := spot 10 0 (-10), azimuth := [135], elevation := [0] },
  { a := spot 0 0 0, b := spot (-10) 0 (-10), azimuth := [-135], elevation := [0] }]

/-- `elevation_without_rotation`, lines 188-216. -/
def elevationTests : List PosTest := [
  { a := spot 0 0 0, b := spot 0 10 10, azimuth := [0], elevation := [45] },
  { a := spot 0 0 0, b := spot 0 (-10) 10, azimuth := [0], elevation := [-45] },
  { a := spot 0 0 0, b := spot 0 10 (-10), azimuth := [180, -180], elevation := [45] },
  { a := spot 0 0 0, b := spot 0 (-10) (-10), azimuth := [180, -180], elevation := [-45] }]

/-- `rotation_only`, lines 218-245. -/
def rotationTests : List PosTest := [
  { a := facing 0 0 0, b := spot 0 0 10, azimuth := [0], elevation := [0] },
  { a := facing 45 0 0, b := spot 0 0 10, azimuth := [45], elevation := [0] },
  { a := facing 0 45 0, b := spot 0 0 10, azimuth := [0], elevation := [-45] },
  { a := facing 0 0 45, b := spot 0 0 10, azimuth := [0], elevation := [0] }]

/-- `rotation_only_complex_position`, lines 247-277. -/
def complexTests : List PosTest := [
  { a := facing 0 0 0, b := spot 10 10 10, azimuth := [45], elevation := [35] },
  { a := facing 90 0 0, b := spot 10 10 10, azimuth := [135], elevation := [35] },
  { a := facing 0 90 0, b := spot 10 10 10, azimuth := [45], elevation := [-35] },
  { a := facing 0 0 90, b := spot 10 10 10, azimuth := [-45], elevation := [35] },
  { a := facing (-45) 35 42, b := spot 10 10 10, azimuth := [0], elevation := [0] }]

/-- The test succeeds. -/
def PosTest.Passes (A : Arith) (rotate : Rotate) (t : PosTest) : Prop :=
  ∃ m, A.compute rotate t.a t.b = .ok m ∧ (t.range ≠ [] → m.range ∈ t.range) ∧ (t.azimuth ≠ [] → m.azimuth ∈ t.azimuth) ∧
    (t.elevation ≠ [] → m.elevation ∈ t.elevation)

end Pica.Spec
