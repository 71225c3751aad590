import Verif.Model.PyPackets
import Verif.Model.PyEnums
import Verif.Model.PyFields
import Verif.Model.WebText
/-!
What the console prints of a packet: `Packet.show`, `/repo/py/pica/pica/packets/uci.py` 25-83, and
`read_responses_and_notifications`, `/repo/py/pica/console.py` 360-388.

The objects are those that `parse` returns: the fields of type `bytearray` hold a `list` then. The type of an object in a field
or in a list is the one that the field declares, as the parsers make it. `typing.Optional[int]` is the text of this type up to
Python 3.13. The line being typed, which is printed again after the packet, is left out.
-/

namespace Pica.Py

/-- What a field of an object holds. -/
inductive Val where
  /-- an `int`, or a member of an `enum.IntEnum` -/
  | int (n : Nat)
  /-- the bytes of a field of type `bytearray` -/
  | bytes (b : Bytes)
  /-- what a field of type `Optional[int]` holds -/
  | optional (n : Option Nat)
  | list (l : List Val)
  /-- an object with its fields in the order of `Class.fields` -/
  | obj (c : Class) (fields : List Val)
  deriving Repr

/-! ### The fields of the objects -/

/-- An object of a class without further classes between it and `Packet`: a structure. -/
def structure_ (c : Class) (fields : List Val) : Val := .obj c (.bytes [] :: fields)

/-- An object of a class derived from one of the four groups of control packets: `gid`, `mt`, `oid`, and its own fields. -/
def grouped (c : Class) (code : Nat × Nat × Nat) (payload : Bytes) (fields : List Val) : Val :=
  .obj c (.bytes payload :: .int code.1 :: .int code.2.1 :: .int code.2.2 :: fields)

/-- An identifier with bytes: `CapTlv`, `ConfigParameter`, `AppConfigTlv`, `FrameReportTlv`. -/
def tlvValue (c : Class) (p : Nat × Bytes) : Val := structure_ c [.int p.1, .bytes p.2]

/-- An identifier with a status: `ConfigParameterStatus`, `AppConfigStatus`. -/
def pairValue (c : Class) (p : Nat × Nat) : Val := structure_ c [.int p.1, .int p.2]

/-- `ControleeStatus`, 3409-3411. -/
def controleeStatusValue (p : Bytes × Nat) : Val := structure_ .controleeStatus [.bytes p.1, .int p.2]

/-- `ShortAddressTwoWayRangingMeasurement`, 3700-3714; `ExtendedAddressTwoWayRangingMeasurement`, 3813-3827. -/
def Measurement.value (c : Class) (m : Measurement) : Val :=
  structure_ c [.int m.macAddress, .int m.status, .int m.nlos, .int m.distance, .int m.aoaAzimuth, .int m.aoaAzimuthFom,
    .int m.aoaElevation, .int m.aoaElevationFom, .int m.aoaDestinationAzimuth, .int m.aoaDestinationAzimuthFom,
    .int m.aoaDestinationElevation, .int m.aoaDestinationElevationFom, .int m.slotIndex, .int m.rssi]

/-- `ShortAddressOwrAoaRangingMeasurement`, 3924-3933; `ExtendedAddressOwrAoaRangingMeasurement`, 4001-4010. -/
def OwrAoa.value (c : Class) (m : OwrAoa) : Val :=
  structure_ c [.int m.macAddress, .int m.status, .int m.nlos, .int m.frameSequenceNumber, .int m.blockIndex,
    .int m.aoaAzimuth, .int m.aoaAzimuthFom, .int m.aoaElevation, .int m.aoaElevationFom]

/-- `RelativeLocation`, 4103-4106. -/
def RelativeLocation.value (l : RelativeLocation) : Val := structure_ .relativeLocation [.int l.x, .int l.y, .int l.z]

/-- `DlTdoaRangingMeasurement`, 4148-4171. -/
def DlTdoa.value (m : DlTdoa) : Val :=
  structure_ .dlTdoaRangingMeasurement [.int m.status, .int m.messageType, .int m.txTimestampType, .int m.blockIndex,
    .int m.roundIndex, .int m.nlos, .int m.aoaAzimuth, .int m.aoaAzimuthFom, .int m.aoaElevation, .int m.aoaElevationFom,
    .int m.rssi, .optional m.txTimestamp40, .optional m.txTimestamp64, .optional m.rxTimestamp40, .optional m.rxTimestamp64,
    .int m.anchorCfo, .int m.cfo, .int m.initiatorReplyTime, .int m.responderReplyTime, .int m.initiatorResponderTof,
    .list (m.wgs84Location.map fun w => structure_ .wgs84Location [.bytes w]),
    .list (m.relativeLocation.map RelativeLocation.value), .bytes m.activeRangingRounds]

/-- `ShortAddressDlTdoaRangingMeasurement`, 4372-4374; `ExtendedAddressDlTdoaRangingMeasurement`, 4412-4414. -/
def addressedValue (c : Class) (m : Nat × DlTdoa) : Val := structure_ c [.int m.1, m.2.value]

/-- `FrameReport`, 5458-5462. -/
def FrameReport.value (r : FrameReport) : Val :=
  structure_ .frameReport [.int r.uwbMsgId, .int r.action, .int r.antennaSet,
    .list (r.frameReportTlvs.map (tlvValue .frameReportTlv))]

/-- The class of a command and its own fields. -/
def Command.own : Command → Class × List Val
  | coreDeviceReset c => (.coreDeviceResetCmd, [.int c])
  | coreGetDeviceInfo => (.coreGetDeviceInfoCmd, [])
  | coreGetCapsInfo => (.coreGetCapsInfoCmd, [])
  | coreSetConfig l => (.coreSetConfigCmd, [.list (l.map (tlvValue .configParameter))])
  | coreGetConfig l => (.coreGetConfigCmd, [.list (l.map .int)])
  | coreQueryTimeStamp => (.coreQueryTimeStampCmd, [])
  | sessionInit i t => (.sessionInitCmd, [.int i, .int t])
  | sessionDeinit t => (.sessionDeinitCmd, [.int t])
  | sessionSetAppConfig t l => (.sessionSetAppConfigCmd, [.int t, .list (l.map (tlvValue .appConfigTlv))])
  | sessionGetAppConfig t l => (.sessionGetAppConfigCmd, [.int t, .list (l.map .int)])
  | sessionGetCount => (.sessionGetCountCmd, [])
  | sessionGetState t => (.sessionGetStateCmd, [.int t])
  | sessionUpdateDtAnchorRangingRounds => (.sessionUpdateDtAnchorRangingRoundsCmd, [])
  | sessionUpdateDtTagRangingRounds t v => (.sessionUpdateDtTagRangingRoundsCmd, [.int t, .bytes v])
  | sessionUpdateControllerMulticastList t a _ => (.sessionUpdateControllerMulticastListCmd, [.int t, .int a])
  | sessionQueryMaxDataSizeInRanging t => (.sessionQueryMaxDataSizeInRangingCmd, [.int t])
  | sessionStart i => (.sessionStartCmd, [.int i])
  | sessionStop i => (.sessionStopCmd, [.int i])
  | sessionGetRangingCount i => (.sessionGetRangingCountCmd, [.int i])
  | androidGetPowerStats => (.androidGetPowerStatsCmd, [])
  | androidSetCountryCode v => (.androidSetCountryCodeCmd, [.bytes v])

/-- The payload of a command. -/
def Command.payload : Command → Bytes
  | sessionUpdateControllerMulticastList _ _ p => p
  | _ => []

/-- The fields of `SessionInfoNtf`, 4452-4457, and those of the class. -/
def infoFields (n t r i type indicator : Nat) (own : List Val) : List Val :=
  .int n :: .int t :: .int r :: .int i :: .int type :: .int indicator :: own

/-- An object with its fields; those of the base classes have the values that `__post_init__` gives them. -/
def Obj.value (o : Obj) : Val :=
  match o with
  | controlPacket gid mt p => .obj .controlPacket [.bytes p, .int gid, .int mt]
  | corePacket _ _ p => grouped .corePacket o.code p []
  | sessionConfigPacket _ _ p => grouped .sessionConfigPacket o.code p []
  | sessionControlPacket _ _ p => grouped .sessionControlPacket o.code p []
  | androidPacket _ _ p => grouped .androidPacket o.code p []
  | command c => grouped c.own.1 o.code c.payload c.own.2
  | coreDeviceResetRsp s => grouped .coreDeviceResetRsp o.code [] [.int s]
  | coreDeviceStatusNtf s => grouped .coreDeviceStatusNtf o.code [] [.int s]
  | coreGetDeviceInfoRsp s a b c d v =>
    grouped .coreGetDeviceInfoRsp o.code [] [.int s, .int a, .int b, .int c, .int d, .bytes v]
  | coreGetCapsInfoRsp s l => grouped .coreGetCapsInfoRsp o.code [] [.int s, .list (l.map (tlvValue .capTlv))]
  | coreSetConfigRsp s l => grouped .coreSetConfigRsp o.code [] [.int s, .list (l.map (pairValue .configParameterStatus))]
  | coreGetConfigRsp s l => grouped .coreGetConfigRsp o.code [] [.int s, .list (l.map (tlvValue .configParameter))]
  | coreGenericErrorNtf s => grouped .coreGenericErrorNtf o.code [] [.int s]
  | coreQueryTimeStampRsp s t => grouped .coreQueryTimeStampRsp o.code [] [.int s, .int t]
  | sessionInitRspV2 s h => grouped .sessionInitRsp_V2 o.code [] [.int s, .int h]
  | sessionInitRsp s => grouped .sessionInitRsp o.code [] [.int s]
  | sessionDeinitRsp s => grouped .sessionDeinitRsp o.code [] [.int s]
  | sessionStatusNtf t s r => grouped .sessionStatusNtf o.code [] [.int t, .int s, .int r]
  | sessionSetAppConfigRsp s l => grouped .sessionSetAppConfigRsp o.code [] [.int s, .list (l.map (pairValue .appConfigStatus))]
  | sessionGetAppConfigRsp s l => grouped .sessionGetAppConfigRsp o.code [] [.int s, .list (l.map (tlvValue .appConfigTlv))]
  | sessionGetCountRsp s n => grouped .sessionGetCountRsp o.code [] [.int s, .int n]
  | sessionGetStateRsp s t => grouped .sessionGetStateRsp o.code [] [.int s, .int t]
  | sessionUpdateDtAnchorRangingRoundsRsp => grouped .sessionUpdateDtAnchorRangingRoundsRsp o.code [] []
  | sessionUpdateDtTagRangingRoundsRsp s v =>
    grouped .sessionUpdateDtTagRangingRoundsRsp o.code [] [.int s, .bytes v]
  | sessionUpdateControllerMulticastListRsp s => grouped .sessionUpdateControllerMulticastListRsp o.code [] [.int s]
  | sessionUpdateControllerMulticastListNtf t l =>
    grouped .sessionUpdateControllerMulticastListNtf o.code [] [.int t, .list (l.map controleeStatusValue)]
  | sessionQueryMaxDataSizeInRangingRsp t n => grouped .sessionQueryMaxDataSizeInRangingRsp o.code [] [.int t, .int n]
  | sessionDataCreditNtf t c => grouped .sessionDataCreditNtf o.code [] [.int t, .int c]
  | sessionDataTransferStatusNtf t n s c =>
    grouped .sessionDataTransferStatusNtf o.code [] [.int t, .int n, .int s, .int c]
  | sessionStartRsp s => grouped .sessionStartRsp o.code [] [.int s]
  | sessionInfoNtf n t r i ty ind p => grouped .sessionInfoNtf o.code p (infoFields n t r i ty ind [])
  | shortMacTwoWaySessionInfoNtf n t r i l v =>
    grouped .shortMacTwoWaySessionInfoNtf o.code [] (infoFields n t r i 1 0
      [.list (l.map (Measurement.value .shortAddressTwoWayRangingMeasurement)), .bytes v])
  | extendedMacTwoWaySessionInfoNtf n t r i l v =>
    grouped .extendedMacTwoWaySessionInfoNtf o.code [] (infoFields n t r i 1 1
      [.list (l.map (Measurement.value .extendedAddressTwoWayRangingMeasurement)), .bytes v])
  | shortMacDlTDoASessionInfoNtf n t r i l =>
    grouped .shortMacDlTDoASessionInfoNtf o.code [] (infoFields n t r i 2 0
      [.list (l.map (addressedValue .shortAddressDlTdoaRangingMeasurement))])
  | extendedMacDlTDoASessionInfoNtf n t r i l =>
    grouped .extendedMacDlTDoASessionInfoNtf o.code [] (infoFields n t r i 2 1
      [.list (l.map (addressedValue .extendedAddressDlTdoaRangingMeasurement))])
  | shortMacOwrAoaSessionInfoNtf n t r i l v =>
    grouped .shortMacOwrAoaSessionInfoNtf o.code [] (infoFields n t r i 3 0
      [.list (l.map (OwrAoa.value .shortAddressOwrAoaRangingMeasurement)), .bytes v])
  | extendedMacOwrAoaSessionInfoNtf n t r i l v =>
    grouped .extendedMacOwrAoaSessionInfoNtf o.code [] (infoFields n t r i 3 1
      [.list (l.map (OwrAoa.value .extendedAddressOwrAoaRangingMeasurement)), .bytes v])
  | sessionStopRsp s => grouped .sessionStopRsp o.code [] [.int s]
  | sessionGetRangingCountRsp s n => grouped .sessionGetRangingCountRsp o.code [] [.int s, .int n]
  | androidGetPowerStatsRsp s a b c d =>
    grouped .androidGetPowerStatsRsp o.code []
      [structure_ .powerStats [.int s, .int a, .int b, .int c, .int d]]
  | androidSetCountryCodeRsp s => grouped .androidSetCountryCodeRsp o.code [] [.int s]
  | androidRangeDiagnosticsNtf t n l =>
    grouped .androidRangeDiagnosticsNtf o.code [] [.int t, .int n, .list (l.map FrameReport.value)]
  | dataPacket dpf pbf mt p => .obj .dataPacket [.bytes p, .int dpf, .int pbf, .int mt]
  | dataMessageSnd pbf h d n v =>
    .obj .dataMessageSnd [.bytes [], .int 1, .int pbf, .int 0, .int h, .int d, .int n, .bytes v]
  | dataMessageRcv pbf h s a n v =>
    .obj .dataMessageRcv [.bytes [], .int 2, .int pbf, .int 0, .int h, .int s, .int a, .int n, .bytes v]

/-! ### Printing -/

/-- What was printed, and whether the function returned; otherwise it raised an exception after this output. -/
structure Printed where
  text : Text
  returned : Bool
  deriving DecidableEq, Repr

/-- One after the other. -/
def Printed.then (a b : Printed) : Printed := if a.returned then ⟨a.text ++ b.text, b.returned⟩ else a

/-- A line that is printed. -/
def printed (t : Text) : Printed := ⟨t ++ ['\n'], true⟩

/-- A digit of a number in base sixteen, in lower case. -/
def hexDigit (n : Nat) : Char := if n < 10 then Char.ofNat (48 + n) else Char.ofNat (87 + n)

/-- `{n:x}`. -/
def hexDigits (n : Nat) : Text := if n < 16 then [hexDigit n] else hexDigits (n / 16) ++ [hexDigit (n % 16)]

/-- `{name:{align}}`. -/
def padded (name : Text) (align : Nat) : Text := name ++ List.replicate (align - name.length) ' '

/-- `repr` of a list of small numbers. -/
def reprList (b : Bytes) : Text := '[' :: List.intercalate [',', ' '] (b.map fun x => WebText.digits x.toNat) ++ [']']

/-- The name of the member with this value, if there is one: `val.name` of what `from_int` returns. -/
def memberName (enum : String) (v : Nat) : Option Text :=
  (classes.find? fun c => c.name = enum).bind fun c => (c.members.find? fun m => m.2 = v).map fun m => m.1.toList

/-- `├── ` and `└── `, `│   ` and `    ` for the last one. -/
def branch (last : Bool) : Text := if last then ['└', '─', '─', ' '] else ['├', '─', '─', ' ']
def stem (last : Bool) : Text := if last then [' ', ' ', ' ', ' '] else ['│', ' ', ' ', ' ']

/-- The width of the names, 76. -/
def Class.align (c : Class) : Nat :=
  ((c.fields.filter fun f => f.1 ≠ "payload").map fun f => f.1.toList.length).foldl max 0

mutual

/-- `show` of an object, 25-83. -/
def showObj (pre : Text) : Val → Printed
  | .obj c vs => (printed c.name.toList).then (showFields pre c.align c.fields vs)
  | _ => ⟨[], false⟩

/-- The loop over the fields, 78-83, from some field on. -/
def showFields (pre : Text) (align : Nat) : List Field → List Val → Printed
  | f :: fs, v :: vs =>
    (if f.1 = "payload" then ⟨[], true⟩
      else printVal (pre ++ branch fs.isEmpty) (pre ++ stem fs.isEmpty) f.1.toList align f.2 v).then
      (showFields pre align fs vs)
  | _, _ => ⟨[], true⟩

/-- `print_val`, 28-73, of anything but a payload. -/
def printVal (p pp name : Text) (align : Nat) : FieldType → Val → Printed
  | .int, .int n => printed (p ++ padded name align ++ " = ".toList ++ WebText.digits n ++ " (0x".toList ++ hexDigits n ++ [')'])
  | .enum e, .int n =>
    match memberName e n with
    | some m => printed (p ++ padded name align ++ " = ".toList ++ e.toList ++ "::".toList ++ m ++ " (0x".toList ++ hexDigits n ++ [')'])
    | none => ⟨[], false⟩
  | .struct _, .obj c vs =>
    (⟨p ++ padded name align ++ " = ".toList, true⟩ : Printed).then
      ((printed c.name.toList).then (showFields pp c.align c.fields vs))
  | .list t, .list vs => (printed (p ++ padded name align)).then (showElements pp t 0 vs)
  | .custom, .bytes b => printed (p ++ padded name align ++ " = ".toList ++ reprList b)
  | .other t, _ => printed (p ++ padded name align ++ " = ##".toList ++ t.toList ++ "##".toList)
  | _, _ => ⟨[], false⟩

/-- The loop over the elements of a list, 63-66, from some element on. -/
def showElements (pp : Text) (t : FieldType) (i : Nat) : List Val → Printed
  | [] => ⟨[], true⟩
  | v :: vs =>
    (printVal (pp ++ branch vs.isEmpty) (pp ++ stem vs.isEmpty) (['['] ++ WebText.digits i ++ [']']) 5 t v).then
      (showElements pp t (i + 1) vs)

end

/-- `show()` of a packet. -/
def Obj.show (o : Obj) : Printed := showObj [] o.value

/-! ### The console -/

/-- `{:02x}`. -/
def hexByte (b : UInt8) : Text := [hexDigit (b.toNat / 16), hexDigit (b.toNat % 16)]

/-- `chunks(packet, 16)`, `py/pica/console.py` 361-363. -/
def chunks (n : Nat) : Bytes → List Bytes
  | [] => []
  | b :: r => (b :: r).take (n + 1) :: chunks n (r.drop n)
termination_by b => b.length
decreasing_by simp only [List.length_drop, List.length_cons]; omega

/-- The raw data of a packet, `py/pica/console.py` 369-374. -/
def dump (packet : Bytes) : Text :=
  List.intercalate ['\n', ' ', ' '] ((chunks 15 packet).map fun shard => List.intercalate [' '] (shard.map hexByte))

/-- What is printed of a packet, `py/pica/console.py` 377-386, without the line being typed: exceptions are caught, what was
printed before them stays. -/
def report (packet : Bytes) : Text :=
  ['\r'] ++ "Received UCI packet [".toList ++ WebText.digits packet.length ++ "]:\n".toList ++ "  ".toList ++ dump packet ++
    ['\n'] ++ match parseControl packet with
    | some o => o.show.text
    | none => []

end Pica.Py
