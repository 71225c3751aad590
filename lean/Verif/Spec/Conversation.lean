import Verif.Spec.PyUci
/-! Which object read by a Python host answers which object it has sent. -/

namespace Pica.Spec
open Py (Obj)

/-- The object is of the class of the response to the command. The response to a multicast list update is read as a packet of
its group, see C71. -/
def Fulfils : Py.Command → Obj → Prop
  | .coreDeviceReset _, .coreDeviceResetRsp _ => True
  | .coreGetDeviceInfo, .coreGetDeviceInfoRsp .. => True
  | .coreGetCapsInfo, .coreGetCapsInfoRsp .. => True
  | .coreSetConfig _, .coreSetConfigRsp .. => True
  | .coreGetConfig _, .coreGetConfigRsp .. => True
  | .sessionInit .., .sessionInitRsp .. => True
  | .sessionDeinit _, .sessionDeinitRsp .. => True
  | .sessionSetAppConfig .., .sessionSetAppConfigRsp .. => True
  | .sessionGetAppConfig .., .sessionGetAppConfigRsp .. => True
  | .sessionGetCount, .sessionGetCountRsp .. => True
  | .sessionGetState _, .sessionGetStateRsp .. => True
  | .sessionUpdateControllerMulticastList .., .sessionConfigPacket mt oid _ => mt = 2 ∧ oid = 7
  | .sessionStart _, .sessionStartRsp _ => True
  | .sessionStop _, .sessionStopRsp _ => True
  | .sessionGetRangingCount _, .sessionGetRangingCountRsp .. => True
  | .androidGetPowerStats, .androidGetPowerStatsRsp .. => True
  | .androidSetCountryCode _, .androidSetCountryCodeRsp _ => True
  | _, _ => False

/-- The commands from the first CORE_DEVICE_RESET on. -/
def fromReset (cs : List Cmd) : List Cmd := cs.dropWhile fun | .coreDeviceReset _ => false | _ => true

/-- The packets of type response among those read. -/
def responses (bs : List Bytes) : List Bytes := bs.filter fun b => decide ((b.headD 0).toNat / 32 = 2)

end Pica.Spec
