import Verif.Model.Page
import Mathlib.Analysis.SpecialFunctions.Trigonometric.Arctan
/-!
What the page draws: `render` of `static/src/components/Map.js` and `static/src/components/Orientation.js`, and the parts of
`static/src/components/DeviceInfo.js` that name the axes and pass the angles on.

The numbers are real numbers. A figure is the set of points it covers, lines without their width. The transformations are those
of the CSS and SVG standards: x to the right, y down, z towards the viewer, angles in degrees. The screen shows x and y; there
is no perspective. The arrow heads of the axes, the grid, the colours of the faces and the handle are left out.
-/

namespace Pica.Draw
open Real

/-- A point or a direction in the coordinates of CSS. -/
structure Css where
  x : ℝ
  y : ℝ
  z : ℝ

/-- `rotate3d(x, y, z, a)` and `DOMMatrix.rotateAxisAngleSelf(x, y, z, a)` for an axis of length one, CSS Transforms Level 2
section 15.1. -/
noncomputable def rotate3d (x y z a : ℝ) (v : Css) : Css :=
  let h := a * (π / 180) / 2
  let sc := sin h * cos h
  let sq := sin h ^ 2
  ⟨(1 - 2 * (y ^ 2 + z ^ 2) * sq) * v.x + 2 * (x * y * sq - z * sc) * v.y + 2 * (x * z * sq + y * sc) * v.z,
   2 * (x * y * sq + z * sc) * v.x + (1 - 2 * (x ^ 2 + z ^ 2) * sq) * v.y + 2 * (y * z * sq - x * sc) * v.z,
   2 * (x * z * sq - y * sc) * v.x + 2 * (y * z * sq + x * sc) * v.y + (1 - 2 * (x ^ 2 + y ^ 2) * sq) * v.z⟩

/-- `rotateX(a)` -/
noncomputable def rotateX (a : ℝ) : Css → Css := rotate3d 1 0 0 a
/-- `rotateY(a)` -/
noncomputable def rotateY (a : ℝ) : Css → Css := rotate3d 0 1 0 a
/-- `rotateZ(a)` -/
noncomputable def rotateZ (a : ℝ) : Css → Css := rotate3d 0 0 1 a

/-- `skewX(a)` -/
noncomputable def skewX (a : ℝ) (p : ℝ × ℝ) : ℝ × ℝ := (p.1 + tan (a * (π / 180)) * p.2, p.2)
/-- `skewY(a)` -/
noncomputable def skewY (a : ℝ) (p : ℝ × ℝ) : ℝ × ℝ := (p.1, tan (a * (π / 180)) * p.1 + p.2)

/-- `DOMMatrix.scaleSelf(s, s, s)` -/
def scale (s : ℝ) (v : Css) : Css := ⟨s * v.x, s * v.y, s * v.z⟩

/-- What the screen shows of a point. -/
def screen (v : Css) : ℝ × ℝ := (v.x, v.y)

/-- `PROJECTION`, `static/src/components/Map.js` 17-29. Each step multiplies the matrix from the right: the last one is applied
first. -/
noncomputable def projection (v : Css) : Css :=
  rotate3d 1 0 0 (arctan √2 * 180 / π) (rotate3d 0 0 1 (-45) (scale 0.7 v))

/-- `transform="matrix(${m.a} ${m.b} ${m.c} ${m.d} ${m.e} ${m.f})"`, `static/src/components/Map.js` 128: the columns of the
matrix without its third row and column; the last two numbers are 0. -/
noncomputable def flatten (p : ℝ × ℝ) : ℝ × ℝ :=
  let i := projection ⟨1, 0, 0⟩
  let j := projection ⟨0, 1, 0⟩
  (i.x * p.1 + j.x * p.2, i.y * p.1 + j.y * p.2)

/-! ### The map -/

/-- The group of a device, `static/src/components/Map.js` 181-183. -/
noncomputable def group (m : Marker) (p : ℝ × ℝ) : ℝ × ℝ :=
  flatten (p.1 + (-m.x + m.y : ℤ), p.2 + (m.z - m.y : ℤ))

/-- `<rect>` -/
def rect (x y width height : ℝ) : Set (ℝ × ℝ) := {p | x ≤ p.1 ∧ p.1 ≤ x + width ∧ y ≤ p.2 ∧ p.2 ≤ y + height}

/-- `<line>` -/
def line (x1 y1 x2 y2 : ℝ) : Set (ℝ × ℝ) := {p | ∃ t, 0 ≤ t ∧ t ≤ 1 ∧ p = (x1 + t * (x2 - x1), y1 + t * (y2 - y1))}

/-- The three faces of a marker, `static/src/components/Map.js` 185-187. -/
noncomputable def faces (m : Marker) : List (Set (ℝ × ℝ)) :=
  [(fun p => group m (skewY (-45) p)) '' rect (-40) (-40) 40 40,
   (fun p => group m (skewX (-45) p)) '' rect 0 0 40 40,
   group m '' rect 0 (-40) 40 40]

/-- The outline of the marker that is selected, `static/src/components/Map.js` 194-199. -/
noncomputable def outline (m : Marker) : Set (ℝ × ℝ) :=
  (fun p => group m (skewY (-45) p)) '' line (-40) (-40) 0 (-40) ∪
  (fun p => group m (skewY (-45) p)) '' line (-40) (-40) (-40) 0 ∪
  (fun p => group m (skewX (-45) p)) '' line 0 40 40 40 ∪
  (fun p => group m (skewX (-45) p)) '' line 40 40 40 0 ∪
  group m '' line 0 (-40) 40 (-40) ∪
  group m '' line 40 (-40) 40 0

/-- Digits after a number read so far. -/
def svgDigits (n : Nat) : Text → Option Nat
  | [] => some n
  | c :: r => if '0' ≤ c ∧ c ≤ '9' then svgDigits (10 * n + (c.toNat - 48)) r else none

/-- An integer in an attribute: a sign or none, and digits. -/
def svgInteger : Text → Option Int
  | '-' :: c :: r => (svgDigits 0 (c :: r)).map fun n => -(n : Int)
  | '+' :: c :: r => (svgDigits 0 (c :: r)).map fun n => (n : Int)
  | c :: r => (svgDigits 0 (c :: r)).map fun n => (n : Int)
  | [] => none

/-- The text `-${40 + device.position.y}`, `static/src/components/Map.js` 213-221. -/
def footText (m : Marker) : Text := '-' :: WebText.integer (40 + m.y)

/-- The dashed line of a device that is not on the ground, `static/src/components/Map.js` 209-215. A coordinate that is not a
number is 0. -/
noncomputable def stem (m : Marker) : Set (ℝ × ℝ) :=
  if m.y = 0 then ∅
  else (fun p => group m (skewY (-45) p)) '' line (-40) 0 (((svgInteger (footText m)).getD 0 : ℤ) : ℝ) 0

/-- The cross below a device that is not on the ground, `static/src/components/Map.js` 216-221. A path is not drawn if it begins
with something else than a number. -/
noncomputable def cross (m : Marker) : Set (ℝ × ℝ) :=
  if m.y = 0 then ∅
  else match svgInteger (footText m) with
    | none => ∅
    | some n =>
      (fun p => group m (skewY (-45) p)) '' line n (-10) n 10 ∪
      (fun p => group m (skewY (-45) (skewX 45 p))) '' line n (-10) n 10

/-! ### The orientation -/

/-- The colours of the axes. -/
inductive Colour
  | red
  | green
  | blue
  deriving DecidableEq

/-- An element of class `axis`, `static/src/components/Orientation.js` 29-36: a bar from the middle upwards. Its length, half of
the height of the element, is the unit. -/
def bar : Css := ⟨0, -1, 0⟩

/-- The axes, `static/src/components/Orientation.js` 38-48 and 94-96. -/
noncomputable def axis : Colour → Css
  | .green => rotateZ (-180) bar
  | .red => rotateZ (-90) bar
  | .blue => rotateX (-90) bar

/-- The bars of class `value`, `static/src/components/Orientation.js` 124-132. -/
noncomputable def value (yaw pitch : ℝ) : Css × Css :=
  (rotateZ (180 - yaw) (rotateX (-pitch) (rotateY 90 bar)), rotateZ (180 - yaw) (rotateX (-pitch) bar))

/-- The constant `a`, `static/src/components/Orientation.js` 89. -/
noncomputable def size : ℝ := 0.5 / π * 360 * 4

/-- A `<circle>` around the origin with `fill="none"` and a dashed line, `stroke-dasharray="${dash} ${gap}"`. Distances on the
circle are measured clockwise from the right. -/
def dashes (r width dash gap : ℝ) : Set Css :=
  {v | ∃ s ρ : ℝ, 0 ≤ s ∧ s < 2 * π * r ∧ (∃ k : ℕ, k * (dash + gap) ≤ s ∧ s < k * (dash + gap) + dash) ∧
    r - width / 2 ≤ ρ ∧ ρ ≤ r + width / 2 ∧ v = ⟨ρ * cos (s / r), ρ * sin (s / r), 0⟩}

/-- The circle of the yaw, `static/src/components/Orientation.js` 97-109, in units of the `viewBox`. -/
noncomputable def yawCircle (yaw : ℝ) : Set Css :=
  (fun v => rotateZ 90 (rotateX (if yaw < 0 then 0 else 180) v)) '' dashes (size / 4) (size / 2) |yaw| 360

/-- The circle of the pitch, `static/src/components/Orientation.js` 110-123. -/
noncomputable def pitchCircle (yaw pitch : ℝ) : Set Css :=
  (fun v => rotateZ (90 - yaw) (rotateX (SignType.sign pitch * 90) v)) '' dashes (size / 4) (size / 2) |pitch| 360

/-- The orientation of a device, `static/src/components/DeviceInfo.js` 143-147; the roll is passed on and not drawn. -/
noncomputable def deviceValue (m : Marker) : Css × Css := value m.yaw m.pitch

/-- The orientation of a neighbor, `static/src/components/DeviceInfo.js` 187-190. -/
noncomputable def neighborValue (n : Neighbor) : Css × Css := value (-n.azimuth : ℤ) n.elevation

/-- The colours of the coordinates, `static/src/components/DeviceInfo.js` 129-140: of x, of y and of z. -/
def coordinateColours : Colour × Colour × Colour := (.red, .blue, .green)

end Pica.Draw
