import Verif.Model.PyUci
import Verif.Model.Host
/-!
The interactive console, `py/pica/console.py`.
-/

namespace Pica.Console
open Py

/-- `MAX_DATA_PACKET_PAYLOAD_SIZE`, `py/pica/console.py` 33. -/
def maxDataPayload : Nat := 1024

/-- `int.from_bytes(bs)`: big endian is the default of Python. -/
def fromBytes (bs : Bytes) : Nat := ofLe bs.reverse

/-- `send_data(DataMessageSnd(..))`, `py/pica/console.py` 325-342: the bytes written, `none` for an
exception. -/
def sendSection (sid dst seq pbf : Nat) (b : Bytes) : Option Bytes :=
  (serializeData pbf sid dst seq b).bind Host.sendData

/-- The loop of `data_transfer`, `py/pica/console.py` 321-346: over the values of `i`, with `seq_num`. -/
def transferLoop (sid dst : Nat) (b : Bytes) : List Nat → Nat → Option (List Bytes)
  | [], _ => some []
  | i :: is, seq => do
    let part := (b.drop i).take maxDataPayload
    let w ← sendSection sid dst seq (if b.length ≤ i + maxDataPayload then 0 else 1) part
    let seq := seq + 1
    let seq := if 65535 ≤ seq then 0 else seq
    let ws ← transferLoop sid dst b is seq
    pure (w :: ws)

/-- `data_transfer`, `py/pica/console.py` 305-358 (and, without the waits for credit notifications,
`tests/data_transfer.py` 288-349): the packets written for a file with the bytes `b`. The session
identifier is a natural number and the address has been parsed. -/
def dataTransfer (dstMacAddress : Bytes) (b : Bytes) (sid : Nat) : Option (List Bytes) :=
  let dst := fromBytes dstMacAddress
  if maxDataPayload < b.length then
    -- `range(0, len(b), MAX_DATA_PACKET_PAYLOAD_SIZE)`
    transferLoop sid dst b ((List.range ((b.length + (maxDataPayload - 1)) / maxDataPayload)).map (· * maxDataPayload)) 0
  else do
    let w ← sendSection sid dst 0 0 b
    pure [w]

/-- The commands of the console that send control packets, `py/pica/console.py` 406-428, with their
arguments as numbers (the console applies `int` to their text). -/
inductive Line where
  | deviceReset
  | getDeviceInfo
  | getCapsInfo
  | setConfig (lowPowerMode : Nat)
  | getConfig
  | sessionInit (sessionId : Nat)
  | sessionDeinit (sessionId : Nat)
  | sessionSetAppConfig (sessionId rangingInterval : Nat) (dstMacAddresses : List Bytes)
  | sessionGetAppConfig (sessionId : Nat)
  | sessionGetCount
  | sessionGetState (sessionId : Nat)
  /-- `add` is the action `"add"`, otherwise it is `"remove"`. -/
  | sessionUpdateControllerMulticastList (sessionId : Nat) (add : Bool) (macAddress subsessionId : Nat)
  | rangeStart (sessionId : Nat)
  | rangeStop (sessionId : Nat)
  | getRangingCount (sessionId : Nat)

/-- The packet object a command builds, `py/pica/console.py` 146-303; `none` is an exception. The
classes `DeviceResetCmd`, `GetDeviceInfoCmd`, `GetCapsInfoCmd`, `SetConfigCmd`, `GetConfigCmd`, and the
name `AppConfigTlvType.NO_OF_CONTROLEE` do not exist in `py/pica/pica/packets/uci.py`, so that looking
them up raises `AttributeError`. -/
def Line.command : Line → Option Py.Command
  | .deviceReset | .getDeviceInfo | .getCapsInfo | .setConfig _ | .getConfig | .sessionSetAppConfig .. => none
  | .sessionInit n => some (.sessionInit n 0x1)
  | .sessionDeinit n => some (.sessionDeinit n)
  | .sessionGetAppConfig n => some (.sessionGetAppConfig n [0x9])
  | .sessionGetCount => some .sessionGetCount
  | .sessionGetState n => some (.sessionGetState n)
  | .sessionUpdateControllerMulticastList n add mac sub => do
    -- `encode_short_mac_address`, 36-37: `int(mac_address).to_bytes(2, byteorder="little")`
    let a ← if mac < 65536 then some (leBytes 2 mac) else none
    let l ← controlees [(a, sub, [])]
    pure (.sessionUpdateControllerMulticastList n (if add then 0x0 else 0x1) l)
  | .rangeStart n => some (.sessionStart n)
  | .rangeStop n => some (.sessionStop n)
  | .getRangingCount n => some (.sessionGetRangingCount n)

/-- The bytes written for a command; `none` is an exception, which ends the console. -/
def Line.write (l : Line) : Option Bytes := l.command.bind fun c => c.serialize.bind Host.sendControl

end Pica.Console
