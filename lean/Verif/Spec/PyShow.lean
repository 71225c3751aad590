import Verif.Model.PyUci
import Verif.Model.Packets
import Verif.Model.EnumNames
import Verif.Model.WebText
/-!
What can be read off the text that the console prints of a packet.
-/

namespace Pica.Spec
open Py (Obj Command DlTdoa FrameReport)

/-! ### The raw data -/

/-- The value of a digit in base sixteen. -/
def nibble (c : Char) : Option Nat := "0123456789abcdef".toList.idxOf? c

/-- Read bytes of two digits each, with white space between them or not. -/
def readHex : Text → Option Bytes
  | [] => some []
  | c :: t =>
    if c = ' ' ∨ c = '\n' then readHex t
    else match t with
      | [] => none
      | d :: t => do
        let x ← nibble c
        let y ← nibble d
        let r ← readHex t
        pure (UInt8.ofNat (16 * x + y) :: r)

/-! ### What is printed of an object -/

/-- A DL-TDoA measurement without its time stamps. -/
def unstamped (m : DlTdoa) : DlTdoa :=
  { m with txTimestamp40 := none, txTimestamp64 := none, rxTimestamp40 := none, rxTimestamp64 := none }

/-- What is printed of an object: all but the payload and the time stamps. -/
def visible : Obj → Obj
  | .controlPacket gid mt _ => .controlPacket gid mt []
  | .corePacket mt oid _ => .corePacket mt oid []
  | .sessionConfigPacket mt oid _ => .sessionConfigPacket mt oid []
  | .sessionControlPacket mt oid _ => .sessionControlPacket mt oid []
  | .androidPacket mt oid _ => .androidPacket mt oid []
  | .dataPacket dpf pbf mt _ => .dataPacket dpf pbf mt []
  | .sessionInfoNtf n t r i ty ind _ => .sessionInfoNtf n t r i ty ind []
  | .command (.sessionUpdateControllerMulticastList t a _) => .command (.sessionUpdateControllerMulticastList t a [])
  | .shortMacDlTDoASessionInfoNtf n t r i l => .shortMacDlTDoASessionInfoNtf n t r i (l.map fun m => (m.1, unstamped m.2))
  | .extendedMacDlTDoASessionInfoNtf n t r i l => .extendedMacDlTDoASessionInfoNtf n t r i (l.map fun m => (m.1, unstamped m.2))
  | o => o

/-! ### The objects that are printed to the end -/

/-- The status is one of those that the packet description names, outside of the ranges that it leaves to vendors. -/
def NamedStatus (v : Nat) : Prop := ∃ s ∈ Status.named, s.2.code.toNat = v
/-- The parameter has a name. -/
def NamedParameter (v : Nat) : Prop := ∃ s ∈ ConfigParameterId.named, s.2.code.toNat = v
/-- The configuration parameter of a session has a name. -/
def NamedAppConfig (v : Nat) : Prop := ∃ s ∈ AppConfigTlvType.named, s.2.code.toNat = v
/-- The capability has a name. -/
def NamedCap (v : Nat) : Prop := ∃ s ∈ CapTlvType.named, s.2.code.toNat = v

instance : DecidablePred NamedStatus := fun _ => by unfold NamedStatus; infer_instance
instance : DecidablePred NamedParameter := fun _ => by unfold NamedParameter; infer_instance
instance : DecidablePred NamedAppConfig := fun _ => by unfold NamedAppConfig; infer_instance
instance : DecidablePred NamedCap := fun _ => by unfold NamedCap; infer_instance

/-- Every status, parameter and capability of the object has a name. -/
def AllNamed : Obj → Prop
  | .coreDeviceResetRsp s | .coreGetDeviceInfoRsp s .. | .coreGenericErrorNtf s | .coreQueryTimeStampRsp s _
  | .sessionInitRspV2 s _ | .sessionInitRsp s | .sessionDeinitRsp s | .sessionGetCountRsp s _ | .sessionGetStateRsp s _
  | .sessionUpdateDtTagRangingRoundsRsp s _ | .sessionUpdateControllerMulticastListRsp s | .sessionStartRsp s
  | .sessionStopRsp s | .sessionGetRangingCountRsp s _ | .androidGetPowerStatsRsp s .. | .androidSetCountryCodeRsp s
  | .dataMessageRcv _ _ s .. => NamedStatus s
  | .coreGetCapsInfoRsp s l => NamedStatus s ∧ ∀ x ∈ l, NamedCap x.1
  | .coreSetConfigRsp s l => NamedStatus s ∧ ∀ x ∈ l, NamedParameter x.1 ∧ NamedStatus x.2
  | .coreGetConfigRsp s l => NamedStatus s ∧ ∀ x ∈ l, NamedParameter x.1
  | .sessionSetAppConfigRsp s l => NamedStatus s ∧ ∀ x ∈ l, NamedAppConfig x.1 ∧ NamedStatus x.2
  | .sessionGetAppConfigRsp s l => NamedStatus s ∧ ∀ x ∈ l, NamedAppConfig x.1
  | .command (.coreSetConfig l) => ∀ x ∈ l, NamedParameter x.1
  | .command (.coreGetConfig l) => ∀ x ∈ l, NamedParameter x
  | .command (.sessionSetAppConfig _ l) => ∀ x ∈ l, NamedAppConfig x.1
  | .command (.sessionGetAppConfig _ l) => ∀ x ∈ l, NamedAppConfig x
  | .shortMacTwoWaySessionInfoNtf _ _ _ _ l _ | .extendedMacTwoWaySessionInfoNtf _ _ _ _ l _ => ∀ m ∈ l, NamedStatus m.status
  | .shortMacDlTDoASessionInfoNtf _ _ _ _ l | .extendedMacDlTDoASessionInfoNtf _ _ _ _ l => ∀ m ∈ l, NamedStatus m.2.status
  | .shortMacOwrAoaSessionInfoNtf _ _ _ _ l _ | .extendedMacOwrAoaSessionInfoNtf _ _ _ _ l _ => ∀ m ∈ l, NamedStatus m.status
  | _ => True

/-- The identifiers in a response have names. -/
def NamedIds : Rsp → Prop
  | .coreGetCapsInfo _ l => ∀ x ∈ l, NamedCap x.t.code.toNat
  | .coreSetConfig _ l => ∀ x ∈ l, NamedParameter x.id.code.toNat
  | .coreGetConfig _ l => ∀ x ∈ l, NamedParameter x.id.code.toNat
  | .sessionSetAppConfig _ l => ∀ x ∈ l, NamedAppConfig x.cfgId.code.toNat
  | .sessionGetAppConfig _ l => ∀ x ∈ l, NamedAppConfig x.cfgId.code.toNat
  | _ => True

end Pica.Spec
