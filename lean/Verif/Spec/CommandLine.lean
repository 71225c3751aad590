import Verif.Model.Console
import Verif.Model.MacAddress
import Verif.Spec.Hex
import Mathlib.Data.List.Forall2
/-! What the lines typed at the interactive console mean. -/

namespace Pica.Spec.Typed
open Console (Line)

/-- A space or a tab. -/
def Blank (c : Char) : Prop := c = ' ' ∨ c = '\t'

/-- The line consists of the words, with spaces between two of them and blanks after the last. -/
inductive Spaced : List Char → List (List Char) → Prop
  | last {w s : List Char} : (∀ c ∈ s, Blank c) → Spaced (w ++ s) [w]
  | cons {w line : List Char} {ws : List (List Char)} (k : Nat) : Spaced line ws →
      Spaced (w ++ List.replicate (k + 1) ' ' ++ line) (w :: ws)

/-- A parameter of a command: its name, the texts for the value wanted, and the text it stands for if it is left out. -/
structure Parameter where
  name : String
  means : List Char → Prop
  default : Option String

/-- The word gives the parameter a value by its name. -/
def gives (p : String) (v : List Char) : List Char := p.toList ++ '=' :: v

/-- The words that are just values. -/
def plain (ws : List (List Char)) : List (List Char) := ws.filter fun w => decide ('=' ∉ w)

/-- The words give the parameters their values: the first ones by their order, others by name and anywhere, and those left out
have the right default. Names of no parameter are allowed. -/
structure Phrased (ps : List Parameter) (ws : List (List Char)) : Prop where
  words : ∀ w ∈ ws, w ≠ [] ∧ w.count '=' ≤ 1 ∧ ∀ c ∈ w, 32 < c.toNat ∧ c.toNat < 127
  first : List.Forall₂ (fun p v => Parameter.means p v) (ps.take (plain ws).length) (plain ws)
  once : ∀ p ∈ ps.take (plain ws).length, ∀ v, gives p.name v ∉ ws
  named : ∀ p ∈ ps.drop (plain ws).length, ∀ v, gives p.name v ∈ ws → p.means v
  left : ∀ p ∈ ps.drop (plain ws).length, (∀ v, gives p.name v ∉ ws) → ∃ d, p.default = some d ∧ p.means d.toList
  self : ∀ v, gives "self" v ∉ ws

/-- The names given are names of parameters. -/
def Strict (ps : List Parameter) (ws : List (List Char)) : Prop :=
  ∀ w ∈ ws, '=' ∈ w → ∃ p ∈ ps, ∃ v, w = gives p.name v

/-- The value of decimal digits. -/
def decimal (ds : List Char) : Nat := ds.foldl (fun n c => 10 * n + (c.toNat - '0'.toNat)) 0

/-- The text of an integer: at most 4300 digits, maybe after a sign. -/
def Numeral (t : List Char) (n : Int) : Prop :=
  ∃ s ds, t = s ++ ds ∧ ds ≠ [] ∧ ds.length ≤ 4300 ∧ (∀ c ∈ ds, '0' ≤ c ∧ c ≤ '9') ∧
    ((s = [] ∨ s = ['+']) ∧ n = decimal ds ∨ s = ['-'] ∧ n = -decimal ds)

/-- The text of an address: its bytes in hexadecimal, with colons anywhere. -/
def Address (t : List Char) (m : MacAddress) : Prop :=
  '%' ∉ t ∧ ∃ ds, HexText (withoutColons t) ds ∧ (ds.length = 4 ∨ ds.length = 16) ∧ pairUp ds = m.toBytes.map UInt8.toNat

/-- The text of some bytes: two hexadecimal digits each, with colons in between. -/
inductive ByteText : List Char → List UInt8 → Prop
  | one {c d : Char} {a b : Nat} : IsHex c a → IsHex d b → ByteText [c, d] [UInt8.ofNat (16 * a + b)]
  | cons {c d : Char} {a b : Nat} {t : List Char} {bs : List UInt8} : IsHex c a → IsHex d b → ByteText t bs →
      ByteText (c :: d :: ':' :: t) (UInt8.ofNat (16 * a + b) :: bs)

/-- Six integers for a position. -/
structure Coordinates where
  x : Int
  y : Int
  z : Int
  yaw : Int
  pitch : Int
  roll : Int

/-- They fit the fields of a position. -/
structure Coordinates.Fit (c : Coordinates) : Prop where
  x : -32768 ≤ c.x ∧ c.x ≤ 32767
  y : -32768 ≤ c.y ∧ c.y ≤ 32767
  z : -32768 ≤ c.z ∧ c.z ≤ 32767
  yaw : -32768 ≤ c.yaw ∧ c.yaw ≤ 32767
  pitch : -128 ≤ c.pitch ∧ c.pitch ≤ 127
  roll : -32768 ≤ c.roll ∧ c.roll ≤ 32767

/-- What a user may want. -/
inductive Ask where
  /-- a command sent to the emulator -/
  | line (l : Line)
  /-- a file sent to a device -/
  | transfer (dst : List UInt8) (file : List Char) (sid : UInt32)
  | getState
  | initUciDevice (m : MacAddress) (c : Coordinates)
  | createAnchor (m : MacAddress) (c : Coordinates)
  | setPosition (m : MacAddress) (c : Coordinates)
  | destroyAnchor (m : MacAddress)

/-- The parameter for an integer. -/
def number (name : String) (n : Int) (default : String := "0") : Parameter := ⟨name, (Numeral · n), some default⟩

/-- The parameters for a place. -/
def place (m : MacAddress) (c : Coordinates) : List Parameter :=
  [⟨"mac_address", (Address · m), some "00:00"⟩, number "x" c.x, number "y" c.y, number "z" c.z, number "yaw" c.yaw,
    number "pitch" c.pitch, number "roll" c.roll]

/-- The name of the command for it, and its parameters. -/
def wanted : Ask → String × List Parameter
  | .line .deviceReset => ("device_reset", [])
  | .line .getDeviceInfo => ("get_device_info", [])
  | .line .getCapsInfo => ("get_caps_info", [])
  | .line (.setConfig m) => ("set_config", [number "low_power_mode" m])
  | .line .getConfig => ("get_config", [])
  | .line (.sessionInit n) => ("session_init", [number "session_id" n])
  | .line (.sessionDeinit n) => ("session_deinit", [number "session_id" n])
  | .line (.sessionSetAppConfig n r as) => ("session_set_app_config",
      [number "session_id" n, number "ranging_interval" r "200",
        ⟨"dst_mac_addresses", fun t => ∃ ts, t = List.intercalate [','] ts ∧ List.Forall₂ ByteText ts as, some ""⟩])
  | .line (.sessionGetAppConfig n) => ("session_get_app_config", [number "session_id" n])
  | .line .sessionGetCount => ("session_get_count", [])
  | .line (.sessionGetState n) => ("session_get_state", [number "session_id" n])
  | .line (.sessionUpdateControllerMulticastList n add mac sub) => ("session_update_controller_multicast_list",
      [number "session_id" n, ⟨"action", (· = (if add then "add" else "remove").toList), some "add"⟩, number "mac_address" mac,
        number "subsession_id" sub])
  | .line (.rangeStart n) => ("range_start", [number "session_id" n])
  | .line (.rangeStop n) => ("range_stop", [number "session_id" n])
  | .line (.getRangingCount n) => ("get_ranging_count", [number "session_id" n])
  | .transfer dst file sid => ("data_transfer",
      [⟨"dst_mac_address", (ByteText · dst), none⟩, ⟨"file_name", (· = file), none⟩, number "session_id" sid.toNat])
  | .getState => ("pica_get_state", [])
  | .initUciDevice m c => ("pica_init_uci_device", place m c)
  | .createAnchor m c => ("pica_create_anchor", place m c)
  | .setPosition m c => ("pica_set_position", place m c)
  | .destroyAnchor m => ("pica_destroy_anchor", [⟨"mac_address", (Address · m), some "00:00"⟩])

/-- The line asks for it. -/
def Asks (line : List Char) (a : Ask) : Prop :=
  ∃ ws, Spaced line ((wanted a).1.toList :: ws) ∧ Phrased (wanted a).2 ws ∧
    (a matches .transfer .. → Strict (wanted a).2 ws)

end Pica.Spec.Typed
