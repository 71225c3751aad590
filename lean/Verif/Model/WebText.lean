import Verif.Model.Http
/-!
The text of the events and of the state that the web server sends: `src/bin/http-server/main.rs` 69-107, 171-185, 334-351 and
the `Serialize` of `src/bin/http-server/position.rs` 42-59, with the compact output of `serde_json`. The strings in it are names
and addresses, in which `serde_json` has nothing to escape.

`Quat::to_euler` and the rounding after it are a parameter: the angles (yaw, pitch, roll) written for a position.
-/

namespace Pica

/-- Text. -/
abbrev Text := List Char

/-- The angles `src/bin/http-server/position.rs` 52-56 writes. -/
abbrev Euler := Position → Int16 × Int8 × Int16

namespace WebText

/-- The decimal digits of a number, `itoa` as used by `serde_json`. -/
def digits (n : Nat) : Text :=
  if n < 10 then [Char.ofNat (48 + n)] else digits (n / 10) ++ [Char.ofNat (48 + n % 10)]

/-- An integer, `serde_json`'s `format_i64`. -/
def integer (n : Int) : Text := if n < 0 then '-' :: digits n.natAbs else digits n.natAbs

/-- A string without characters to escape. -/
def string (s : Text) : Text := '"' :: s ++ ['"']

/-- A list of texts with commas in between: `Compound::Map` and `Compound::Seq` of `serde_json`. -/
def commas : List Text → Text
  | [] => []
  | [x] => x
  | x :: xs => x ++ ',' :: commas xs

/-- An object. -/
def object (fields : List (String × Text)) : Text :=
  '{' :: commas (fields.map fun f => string f.1.toList ++ ':' :: f.2) ++ ['}']

/-- `Category` with the derived `Serialize`, `src/lib.rs` 146-150. -/
def category : Category → Text
  | .uci => string "Uci".toList
  | .anchor => string "Anchor".toList

/-- `MacAddress` with `#[serde(into = "String")]`, `src/mac_address.rs` 33-34. -/
def mac (m : MacAddress) : Text := string m.display

/-- `impl Serialize for Position`, `src/bin/http-server/position.rs` 42-59, flattened into the fields around it. -/
def position (euler : Euler) (p : Position) : List (String × Text) :=
  [("x", integer p.x.toInt), ("y", integer p.y.toInt), ("z", integer p.z.toInt),
    ("yaw", integer (euler p).1.toInt), ("pitch", integer (euler p).2.1.toInt), ("roll", integer (euler p).2.2.toInt)]

/-- `DeviceInformation` and the variants of `Event` with a position, `src/bin/http-server/main.rs` 69-97. -/
def device (euler : Euler) (c : Category) (m : MacAddress) (p : Position) : Text :=
  object (("category", category c) :: ("mac_address", mac m) :: position euler p)

/-- The untagged `enum Event`, `src/bin/http-server/main.rs` 78-107. -/
def event (euler : Euler) : WebEvent → Text
  | .added c m p => device euler c m p
  | .removed c m => object [("category", category c), ("mac_address", mac m)]
  | .updated c m p => device euler c m p
  | .neighbor s d x => object [("source_category", category s.1), ("source_mac_address", mac s.2),
      ("destination_category", category d.1), ("destination_mac_address", mac d.2), ("distance", integer x.range.toNat),
      ("azimuth", integer x.azimuth.toInt), ("elevation", integer x.elevation.toInt)]

/-- `Event::name`, `src/bin/http-server/main.rs` 415-424. -/
def name : WebEvent → String
  | .added .. => "device-added"
  | .removed .. => "device-removed"
  | .updated .. => "device-updated"
  | .neighbor .. => "neighbor-updated"

/-- One item of the stream, `src/bin/http-server/main.rs` 174-178. -/
def item (euler : Euler) (e : WebEvent) : Text :=
  "event: ".toList ++ (name e).toList ++ "\ndata: ".toList ++ event euler e ++ "\n\n".toList

/-- The body of `http_get_state`, `src/bin/http-server/main.rs` 337-346. -/
def state (euler : Euler) (devices : List Info) : Text :=
  object [("devices", '[' :: commas (devices.map fun i => device euler i.category i.mac i.position) ++ [']'])]

end WebText
end Pica
