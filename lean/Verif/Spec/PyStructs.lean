import Verif.Spec.PdlPackets
import Verif.Model.PyStructs
/-!
The classes of `py/pica/pica/packets/uci.py` outside the messages, as structures of `src/uci_packets.pdl`: the values of the fields
under the names of the attributes, and the values that the fields have room for.
-/

namespace Pica.Spec
open Py Pdl Pdl.Value

/-- A class reads and writes a structure: it reads exactly the bytes with its layout, whatever the reserved bits are, and leaves
the rest; it writes the values that fit with the reserved bits 0. -/
structure Follows {α : Type} (fields : List Field) (values : α → Values) (fits : α → Prop)
    (parse : Bytes → Option (α × Bytes)) (write : α → Option Bytes) : Prop where
  reads : ∀ s x r, parse s = some (x, r) ↔ fits x ∧ ∃ b, s = b ++ r ∧ Matches (patterns (values x) [] fields) b
  writes : ∀ x, fits x → ∃ b, write x = some b ∧ IsWritten (patterns (values x) [] fields) b

def rangingRoundControlValues (x : RangingRoundControl) : Values :=
  [("rrrm", .int x.rrrm), ("rcp", .int x.rcp), ("mrp", .int x.mrp), ("mrm", .int x.mrm)]
def RangingRoundControlFits (x : RangingRoundControl) : Prop := x.rrrm < 2 ∧ x.rcp < 2 ∧ x.mrp < 2 ∧ x.mrm < 2

def resultReportConfigValues (x : ResultReportConfig) : Values :=
  [("tof", .int x.tof), ("aoa_azimuth", .int x.aoaAzimuth), ("aoa_elevation", .int x.aoaElevation), ("aoa_fom", .int x.aoaFom)]
def ResultReportConfigFits (x : ResultReportConfig) : Prop :=
  x.tof < 2 ∧ x.aoaAzimuth < 2 ∧ x.aoaElevation < 2 ∧ x.aoaFom < 2

def commonHeaderValues (x : CommonHeader) : Values := [("pbf", .int x.pbf), ("mt", .int x.mt)]
/-- `enum PacketBoundaryFlag`, `src/uci_packets.pdl` 17-20, `enum MessageType`, 22-27. -/
def CommonHeaderFits (x : CommonHeader) : Prop := x.pbf ≤ 1 ∧ x.mt ≤ 3

def lengthHeaderValues (x : LengthHeader) : Values :=
  [("pbf", .int x.pbf), ("mt", .int x.mt), ("payload_length", .int x.payloadLength)]
def LengthHeaderFits (bits : Nat) (x : LengthHeader) : Prop := x.pbf ≤ 1 ∧ x.mt ≤ 3 ∧ x.payloadLength < 2 ^ bits

/-- The class without a key has no such attribute, and the structure no such field. -/
def controleeEntryValues (x : ControleeEntry) : Values :=
  [("short_address", .bytes x.shortAddress), ("subsession_id", .int x.subsessionId), ("subsession_key", .bytes x.subsessionKey)]
/-- `short_address : 8[2]`, `subsession_key : 8[k]`. -/
def ControleeEntryFits (k : Nat) (x : ControleeEntry) : Prop :=
  x.shortAddress.length = 2 ∧ x.subsessionId < 2 ^ 32 ∧ x.subsessionKey.length = k

/-- The structure of a controlee, by the length of its key. -/
def controleeFields (k : Nat) : List Field :=
  if k = 0 then Pdl.controlee else if k = 16 then Pdl.controlee_V2_0_16_Byte_Version else Pdl.controlee_V2_0_32_Byte_Version

/-- The structure of the payload. -/
def controleesFields (k : Nat) : List Field :=
  if k = 0 then Pdl.sessionUpdateControllerMulticastListCmdPayload
  else if k = 16 then Pdl.sessionUpdateControllerMulticastListCmd_2_0_16_Byte_Payload
  else Pdl.sessionUpdateControllerMulticastListCmd_2_0_32_Byte_Payload

def controleesValues (l : List ControleeEntry) : Values := [("controlees", .records (l.map controleeEntryValues))]
def ControleesFit (k : Nat) (l : List ControleeEntry) : Prop := l.length ≤ 255 ∧ ∀ x ∈ l, ControleeEntryFits k x

def aoaMeasurementValues (x : AoaMeasurement) : Values :=
  [("tdoa", .int x.tdoa), ("pdoa", .int x.pdoa), ("aoa", .int x.aoa), ("fom", .int x.fom), ("t", .int x.t)]
def AoaMeasurementFits (x : AoaMeasurement) : Prop :=
  x.tdoa < 2 ^ 16 ∧ x.pdoa < 2 ^ 16 ∧ x.aoa < 2 ^ 16 ∧ x.fom < 2 ^ 8 ∧ x.t < 2 ^ 8

def cirValueValues (x : CirValue) : Values :=
  [("first_path_index", .int x.firstPathIndex), ("first_path_snr", .int x.firstPathSnr), ("first_path_ns", .int x.firstPathNs),
    ("peak_path_index", .int x.peakPathIndex), ("peak_path_snr", .int x.peakPathSnr), ("peak_path_ns", .int x.peakPathNs),
    ("first_path_sample_offset", .int x.firstPathSampleOffset), ("samples_number", .int x.samplesNumber),
    ("sample_window", .bytes x.sampleWindow)]
def CirValueFits (x : CirValue) : Prop :=
  x.firstPathIndex < 2 ^ 16 ∧ x.firstPathSnr < 2 ^ 16 ∧ x.firstPathNs < 2 ^ 16 ∧ x.peakPathIndex < 2 ^ 16 ∧
    x.peakPathSnr < 2 ^ 16 ∧ x.peakPathNs < 2 ^ 16 ∧ x.firstPathSampleOffset < 2 ^ 8 ∧ x.samplesNumber < 2 ^ 8 ∧
    x.sampleWindow.length < 2 ^ 16

/-! ### The values in a report of a frame -/

/-- The bits of an object of a class derived from `FrameReportTlvPacket`, by what it adds. -/
def tlvFieldsBits : TlvFields → Pattern
  | .bare => []
  | .rssi b => Pdl.rssi.pattern [("rssi", .bytes b)]
  | .aoa l => Pdl.aoa.pattern [("aoa", .records (l.map aoaMeasurementValues))]
  | .cir l => Pdl.cir.pattern [("cir_value", .records (l.map cirValueValues))]

/-- The values fit in the fields, and the length in `_size_(_body_) : 16`. -/
def TlvFieldsFit : TlvFields → Prop
  | .bare => False
  | .rssi b => b.length < 2 ^ 16
  | .aoa l => (∀ x ∈ l, AoaMeasurementFits x) ∧ (tlvFieldsBits (.aoa l)).length < 8 * (2 ^ 16 + 3)
  | .cir l => l.length ≤ 255 ∧ (∀ x ∈ l, CirValueFits x) ∧ (tlvFieldsBits (.cir l)).length < 8 * (2 ^ 16 + 3)

/-- The bits of a packet of the class itself. -/
def bareTlvBits (t : Nat) (p : Bytes) : Pattern := Pdl.frameReportTlvPacket.pattern [("t", .int t), ("payload", .bytes p)]

/-- The object is of a derived class, with the type of that class (`enum FrameReportTlvType`, `src/uci_packets.pdl` 1423-1427). -/
def TlvTyped (x : TlvPacket) : Prop :=
  match x.fields with
  | .bare => False
  | .rssi _ => x.t = 0
  | .aoa _ => x.t = 1
  | .cir _ => x.t = 2

/-- What is read from bytes that have the layout of a derived class is an object of that class; from others with a type
and a length it is a bare packet. The payload is kept. -/
def TlvReads (b : Bytes) (x : TlvPacket) : Prop :=
  x.t ≤ 2 ∧ x.payload.length < 2 ^ 16 ∧ Matches (bareTlvBits x.t x.payload) b ∧
    match x.fields with
    | .bare => ∀ f, TlvFieldsFit f → ¬ Matches (tlvFieldsBits f) b
    | f => TlvFieldsFit f ∧ Matches (tlvFieldsBits f) b

end Pica.Spec
