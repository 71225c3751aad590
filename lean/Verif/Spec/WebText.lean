import Verif.Spec.Json
import Verif.Spec.Hex
import Verif.Model.Http
/-! What the texts of the web server should say: a reader of event streams (WHATWG HTML, 9.2) and the fields of the events. -/

namespace Pica.Spec

namespace EventStream

/-- The complete lines of a text that begins within the line `acc`. Lines end with CR LF, LF or CR. -/
def lines (acc : List Char) : List Char → List (List Char)
  | [] => []
  | '\r' :: '\n' :: r => acc :: lines [] r
  | '\r' :: r => acc :: lines [] r
  | '\n' :: r => acc :: lines [] r
  | c :: r => lines (acc ++ [c]) r

/-- The name of a field and its value, without one space at its start. -/
def field (line : List Char) : List Char × List Char :=
  (line.takeWhile (· ≠ ':'),
    match (line.dropWhile (· ≠ ':')).tail with
    | ' ' :: v => v
    | v => v)

/-- The events dispatched for some lines, each with its type and its data. `type` and `data` are the buffers. -/
def events (type data : List Char) : List (List Char) → List (List Char × List Char)
  | [] => []
  | [] :: r =>
    if data = [] then events [] [] r
    else (if type = [] then "message".toList else type, data.dropLast) :: events [] [] r
  | line :: r =>
    let (name, value) := field line
    if name = "event".toList then events value data r
    else if name = "data".toList then events type (data ++ value ++ ['\n']) r
    else events type data r

/-- The events of a stream. -/
def read (text : List Char) : List (List Char × List Char) := events [] [] (lines [] text)

end EventStream

open Spec.Json

/-- The name of a category. -/
def categoryName : Category → List Char
  | .uci => "Uci".toList
  | .anchor => "Anchor".toList

/-- The text of an address. -/
def macText : MacAddress → List Char
  | .short a => colonText a.1
  | .extended a => colonText a.1

/-- A member of an object. -/
def member (k : String) (v : Value) : List Char × Value := (k.toList, v)

/-- The members that describe a device, with the angles that are written for its position. -/
def deviceFields (angles : Position → Int16 × Int8 × Int16) (c : Category) (m : MacAddress) (p : Position) :
    List (List Char × Value) :=
  [member "category" (.str (categoryName c)), member "mac_address" (.str (macText m)),
    member "x" (.int p.x.toInt), member "y" (.int p.y.toInt), member "z" (.int p.z.toInt),
    member "yaw" (.int (angles p).1.toInt), member "pitch" (.int (angles p).2.1.toInt),
    member "roll" (.int (angles p).2.2.toInt)]

/-- The type of an event and its fields. -/
def eventContent (angles : Position → Int16 × Int8 × Int16) : WebEvent → List Char × Value
  | .added c m p => ("device-added".toList, .obj (deviceFields angles c m p))
  | .removed c m => ("device-removed".toList,
      .obj [member "category" (.str (categoryName c)), member "mac_address" (.str (macText m))])
  | .updated c m p => ("device-updated".toList, .obj (deviceFields angles c m p))
  | .neighbor s d x => ("neighbor-updated".toList,
      .obj [member "source_category" (.str (categoryName s.1)), member "source_mac_address" (.str (macText s.2)),
        member "destination_category" (.str (categoryName d.1)), member "destination_mac_address" (.str (macText d.2)),
        member "distance" (.int x.range.toNat), member "azimuth" (.int x.azimuth.toInt),
        member "elevation" (.int x.elevation.toInt)])

/-- The contents of the state. -/
def stateContent (angles : Position → Int16 × Int8 × Int16) (devices : List Info) : Value :=
  .obj [member "devices" (.arr (devices.map fun i => .obj (deviceFields angles i.category i.mac i.position)))]

/-- The events that a listener understands: the type, and the data if they are a document. -/
def understood (text : List Char) : List (List Char × Option Value) :=
  (EventStream.read text).map fun (t, d) => (t, Json.read d)

end Pica.Spec
