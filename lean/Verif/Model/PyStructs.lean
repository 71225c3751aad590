import Verif.Model.PyPackets
/-!
The classes of `py/pica/pica/packets/uci.py` that are not part of a message: heads, bit fields, the controlees of a multicast
update, and the values inside a report of a frame. The line numbers are its lines. Python integers are natural numbers, as in
`Model/PyUci.lean`; an exception is `none`.
-/

namespace Pica.Py

/-! ### One byte of bits -/

/-- `class RangingRoundControl`, 476-480. -/
structure RangingRoundControl where
  rrrm : Nat
  rcp : Nat
  mrp : Nat
  mrm : Nat
deriving DecidableEq

/-- `RangingRoundControl.parse`, 486-497. -/
def rangingRoundControl (s : Bytes) : Option (RangingRoundControl × Bytes) := do
  need s 1
  forbid ((idx s 0 >>> 1) &&& 0x1 ≠ 0x1)
  pure (⟨(idx s 0 >>> 0) &&& 0x1, (idx s 0 >>> 2) &&& 0x1, (idx s 0 >>> 6) &&& 0x1, (idx s 0 >>> 7) &&& 0x1⟩, s.drop 1)

/-- `RangingRoundControl.serialize`, 499-521. -/
def rangingRoundControlBytes (x : RangingRoundControl) : Option Bytes :=
  byte ((cut 1 x.rrrm <<< 0) ||| (1 <<< 1) ||| (cut 1 x.rcp <<< 2) ||| (cut 1 x.mrp <<< 6) ||| (cut 1 x.mrm <<< 7))

/-- `class ResultReportConfig`, 711-715. -/
structure ResultReportConfig where
  tof : Nat
  aoaAzimuth : Nat
  aoaElevation : Nat
  aoaFom : Nat
deriving DecidableEq

/-- `ResultReportConfig.parse`, 721-730. -/
def resultReportConfig (s : Bytes) : Option (ResultReportConfig × Bytes) := do
  need s 1
  pure (⟨(idx s 0 >>> 0) &&& 0x1, (idx s 0 >>> 1) &&& 0x1, (idx s 0 >>> 2) &&& 0x1, (idx s 0 >>> 3) &&& 0x1⟩, s.drop 1)

/-- `ResultReportConfig.serialize`, 732-753. -/
def resultReportConfigBytes (x : ResultReportConfig) : Option Bytes :=
  byte ((cut 1 x.tof <<< 0) ||| (cut 1 x.aoaAzimuth <<< 1) ||| (cut 1 x.aoaElevation <<< 2) ||| (cut 1 x.aoaFom <<< 3))

/-! ### Heads -/

/-- `class CommonPacketHeader`, 995-997. -/
structure CommonHeader where
  pbf : Nat
  mt : Nat
deriving DecidableEq

/-- `CommonPacketHeader.parse`, 1003-1010. -/
def commonHeader (s : Bytes) : Option (CommonHeader × Bytes) := do
  need s 1
  let pbf ← fromInt pbfs ((idx s 0 >>> 4) &&& 0x1)
  let mt ← fromInt messageTypes ((idx s 0 >>> 5) &&& 0x7)
  pure (⟨pbf, mt⟩, s.drop 1)

/-- `CommonPacketHeader.serialize`, 1012-1019. -/
def commonHeaderBytes (x : CommonHeader) : Option Bytes := byte ((x.pbf <<< 4) ||| (x.mt <<< 5))

/-- `class ControlPacketHeader`, 1026-1029, and `class DataPacketHeader`, 1065-1068. -/
structure LengthHeader where
  pbf : Nat
  mt : Nat
  payloadLength : Nat
deriving DecidableEq

/-- `ControlPacketHeader.parse`, 1035-1044. -/
def controlHeader (s : Bytes) : Option (LengthHeader × Bytes) := do
  need s 4
  let pbf ← fromInt pbfs ((idx s 0 >>> 4) &&& 0x1)
  let mt ← fromInt messageTypes ((idx s 0 >>> 5) &&& 0x7)
  pure (⟨pbf, mt, idx s 3⟩, s.drop 4)

/-- `ControlPacketHeader.serialize`, 1046-1058. -/
def controlHeaderBytes (x : LengthHeader) : Option Bytes := do
  let b ← byte ((x.pbf <<< 4) ||| (x.mt <<< 5))
  pure (b ++ List.replicate 2 0 ++ int 1 x.payloadLength)

/-- `DataPacketHeader.parse`, 1074-1083. -/
def dataHeader (s : Bytes) : Option (LengthHeader × Bytes) := do
  need s 4
  let pbf ← fromInt pbfs ((idx s 0 >>> 4) &&& 0x1)
  let mt ← fromInt messageTypes ((idx s 0 >>> 5) &&& 0x7)
  pure (⟨pbf, mt, le s 2 4⟩, s.drop 4)

/-- `DataPacketHeader.serialize`, 1085-1097. -/
def dataHeaderBytes (x : LengthHeader) : Option Bytes := do
  let b ← byte ((x.pbf <<< 4) ||| (x.mt <<< 5))
  pure (b ++ List.replicate 1 0 ++ int 2 x.payloadLength)

/-! ### Controlees of a multicast update -/

/-- `class Controlee`, 3100-3102 (no key), `class Controlee_V2_0_16_Byte_Version`, 3135-3138, and
`class Controlee_V2_0_32_Byte_Version`, 3176-3179. -/
structure ControleeEntry where
  shortAddress : Bytes
  subsessionId : Nat
  subsessionKey : Bytes
deriving DecidableEq

/-- `Controlee.parse`, 3108-3119 (`k = 0`), `Controlee_V2_0_16_Byte_Version.parse`, 3144-3159 (`k = 16`), and
`Controlee_V2_0_32_Byte_Version.parse`, 3185-3200 (`k = 32`). Without a key, the last check cannot fail. -/
def controleeEntry (k : Nat) (s : Bytes) : Option (ControleeEntry × Bytes) := do
  need s 2
  let address := s.take 2
  let s := s.drop 2
  need s 4
  let id := le s 0 4
  let s := s.drop 4
  need s k
  pure (⟨address, id, s.take k⟩, s.drop k)

/-- `Controlee.serialize`, 3121-3128 (the key is empty), `Controlee_V2_0_16_Byte_Version.serialize`, 3161-3169, and
`Controlee_V2_0_32_Byte_Version.serialize`, 3202-3210. The lengths of address and key are not checked. -/
def controleeEntryBytes (x : ControleeEntry) : Option Bytes := some (x.shortAddress ++ int 4 x.subsessionId ++ x.subsessionKey)

/-- `SessionUpdateControllerMulticastListCmdPayload.parse`, 3277-3290 (`k = 0`),
`SessionUpdateControllerMulticastListCmd_2_0_16_Byte_Payload.parse`, 3314-3327 (`k = 16`), and
`SessionUpdateControllerMulticastListCmd_2_0_32_Byte_Payload.parse`, 3351-3364 (`k = 32`). -/
def controleeEntries (k : Nat) (s : Bytes) : Option (List ControleeEntry × Bytes) := do
  need s 1
  let n := idx s 0
  let s := s.drop 1
  need s (n * (6 + k))
  let l ← records (controleeEntry k) (6 + k) n s
  pure (l, s.drop (n * (6 + k)))

/-- `serialize` of these three, 3292-3300, 3329-3337 and 3366-3374. -/
def controleeEntriesBytes (l : List ControleeEntry) : Option Bytes := list controleeEntryBytes l

/-! ### The values in a report of a frame -/

/-- `class AoaMeasurement`, 5251-5256. -/
structure AoaMeasurement where
  tdoa : Nat
  pdoa : Nat
  aoa : Nat
  fom : Nat
  t : Nat
deriving DecidableEq

/-- `AoaMeasurement.parse`, 5262-5275. -/
def aoaMeasurement (s : Bytes) : Option (AoaMeasurement × Bytes) := do
  need s 8
  pure (⟨le s 0 2, le s 2 4, le s 4 6, idx s 6, idx s 7⟩, s.drop 8)

/-- `AoaMeasurement.serialize`, 5277-5299. -/
def aoaMeasurementBytes (x : AoaMeasurement) : Option Bytes :=
  some (int 2 x.tdoa ++ int 2 x.pdoa ++ int 2 x.aoa ++ int 1 x.fom ++ int 1 x.t)

/-- `class CirValue`, 5337-5346. -/
structure CirValue where
  firstPathIndex : Nat
  firstPathSnr : Nat
  firstPathNs : Nat
  peakPathIndex : Nat
  peakPathSnr : Nat
  peakPathNs : Nat
  firstPathSampleOffset : Nat
  samplesNumber : Nat
  sampleWindow : Bytes
deriving DecidableEq

/-- `CirValue.parse`, 5352-5377. -/
def cirValue (s : Bytes) : Option (CirValue × Bytes) := do
  need s 16
  let n := le s 14 16
  let t := s.drop 16
  need t n
  pure (⟨le s 0 2, le s 2 4, le s 4 6, le s 6 8, le s 8 10, le s 10 12, idx s 12, idx s 13, t.take n⟩, t.drop n)

/-- `CirValue.serialize`, 5379-5415. -/
def cirValueBytes (x : CirValue) : Option Bytes := do
  let w ← sizedBytes x.sampleWindow
  pure (int 2 x.firstPathIndex ++ int 2 x.firstPathSnr ++ int 2 x.firstPathNs ++ int 2 x.peakPathIndex ++
    int 2 x.peakPathSnr ++ int 2 x.peakPathNs ++ int 1 x.firstPathSampleOffset ++ int 1 x.samplesNumber ++ w)

/-- What a class derived from `FrameReportTlvPacket` adds to it: nothing for the class itself, `class Rssi`, 5227-5231,
`class Aoa`, 5306-5310, `class Cir`, 5422-5426. -/
inductive TlvFields where
  | bare
  | rssi (b : Bytes)
  | aoa (l : List AoaMeasurement)
  | cir (l : List CirValue)
deriving DecidableEq

/-- An object of `class FrameReportTlvPacket`, 5168-5169, or of a class derived from it, with the attribute `payload` of
`class Packet`, 11-12. -/
structure TlvPacket where
  t : Nat
  payload : Bytes
  fields : TlvFields
deriving DecidableEq

/-- `Rssi.parse`, 5234-5239. -/
def rssi (t : Nat) (p : Bytes) : Option (TlvPacket × Bytes) := do
  forbid (t ≠ 0)
  pure (⟨0, p, .rssi p⟩, [])

/-- `Aoa.parse`, 5313-5324. -/
def aoa (t : Nat) (p : Bytes) : Option (TlvPacket × Bytes) := do
  forbid (t ≠ 1)
  forbid (p.length % 8 ≠ 0)
  let l ← records aoaMeasurement 8 (p.length / 8) p
  pure (⟨1, p, .aoa l⟩, [])

/-- `Cir.parse`, 5429-5441. -/
def cir (t : Nat) (p : Bytes) : Option (TlvPacket × Bytes) := do
  forbid (t ≠ 2)
  need p 1
  let (l, r) ← elements cirValue (idx p 0) (p.drop 1)
  pure (⟨2, p, .cir l⟩, r)

/-- `FrameReportTlvPacket.parse`, 5175-5209. -/
def tlvPacket (s : Bytes) : Option (TlvPacket × Bytes) := do
  need s 3
  let t ← fromInt frameReportTlvTypes (idx s 0)
  let n := le s 1 3
  let s := s.drop 3
  need s n
  let p := s.take n
  pure ((firstChild [rssi t p, aoa t p, cir t p]).getD ⟨t, p, .bare⟩, s.drop n)

/-- The argument `payload` that the class hands to `FrameReportTlvPacket.serialize`: `Rssi.serialize`, 5241-5244,
`Aoa.serialize`, 5326-5330, `Cir.serialize`, 5443-5451; the class itself is called without one. -/
def TlvFields.bytes : TlvFields → Option Bytes
  | .bare => some []
  | .rssi b => some b
  | .aoa l => do pure (← l.mapM aoaMeasurementBytes).flatten
  | .cir l => list cirValueBytes l

/-- `FrameReportTlvPacket.serialize`, 5211-5220: `payload or self.payload or []`, where an empty payload is false. -/
def TlvPacket.serialize (x : TlvPacket) : Option Bytes := do
  let own ← x.fields.bytes
  let t ← byte x.t
  let p := if own = [] then x.payload else own
  forbid (65535 < p.length)
  pure (t ++ leBytes 2 p.length ++ p)

/-! ### The property `size` -/

/-- `size` of `Controlee`, 3131-3132, `Controlee_V2_0_16_Byte_Version`, 3172-3173, `Controlee_V2_0_32_Byte_Version`,
3213-3214: by the class. -/
def controleeSize (k : Nat) : Nat := if k = 0 then 6 else if k = 16 then 22 else 38

/-- `size` of the three payloads, 3303-3304, 3340-3341 and 3377-3378. -/
def controleesSize (k : Nat) (l : List ControleeEntry) : Nat := (l.map fun _ => controleeSize k).sum + 1

/-- `CirValue.size`, 5418-5419. -/
def CirValue.size (x : CirValue) : Nat := x.sampleWindow.length * 1 + 16

/-- `size` of `FrameReportTlvPacket`, 5223-5224, `Rssi`, 5247-5248, `Aoa`, 5333-5334 (of `AoaMeasurement`: 8, 5302-5303), and
`Cir`, 5454-5455. -/
def TlvPacket.size (x : TlvPacket) : Nat :=
  match x.fields with
  | .bare => x.payload.length + 3
  | .rssi b => b.length * 1
  | .aoa l => (l.map fun _ => 8).sum
  | .cir l => (l.map CirValue.size).sum + 1

end Pica.Py
