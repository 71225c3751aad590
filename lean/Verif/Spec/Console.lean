import Verif.Model.Packets
import Verif.Spec.Wire
import Verif.Model.Console
/-! What the interactive console is to send. -/

namespace Pica.Spec

/-- The messages that carry a file to a session, in parts of 1024 bytes, numbered from 0 with 65535 left out. -/
structure Transfers (sid : UInt32) (dst : Nat) (file : Bytes) (ms : List DataMessageSnd) : Prop where
  target : ∀ m ∈ ms, m.sessionHandle = sid ∧ m.destinationAddress.toNat = dst
  contents : (ms.map (·.applicationData)).flatten = file
  some : ms ≠ []
  sizes : ∀ i (h : i < ms.length), ms[i].applicationData.length ≤ 1024 ∧
    (i + 1 < ms.length → ms[i].applicationData.length = 1024)
  numbers : ∀ i (h : i < ms.length), ms[i].dataSequenceNumber.toNat = i % 65535

/-- The number written by some bytes, the first one the most significant. -/
def bigEndian (bs : Bytes) : Nat := bs.foldl (fun n b => 256 * n + b.toNat) 0

open Console (Line)

/-- The arguments of a console command are in the range of the fields they are for. -/
def Line.InRange : Line → Prop
  | .sessionInit n | .sessionDeinit n | .sessionGetAppConfig n | .sessionGetState n | .rangeStart n | .rangeStop n
  | .getRangingCount n => n < 2 ^ 32
  | .sessionUpdateControllerMulticastList n _ mac sub => n < 2 ^ 32 ∧ mac < 2 ^ 16 ∧ sub < 2 ^ 32
  | .sessionSetAppConfig n r as => n < 2 ^ 32 ∧ r < 2 ^ 32 ∧ as.length ≤ 8 ∧ ∀ a ∈ as, a.length = 2
  | .setConfig m => m < 2 ^ 8
  | .deviceReset | .getDeviceInfo | .getCapsInfo | .getConfig | .sessionGetCount => True

/-- The UCI command a console command is for. -/
def lineMeans : Line → Cmd
  | .deviceReset => .coreDeviceReset .uwbsReset
  | .getDeviceInfo => .coreGetDeviceInfo
  | .getCapsInfo => .coreGetCapsInfo
  | .setConfig m => .coreSetConfig [⟨⟨0x01⟩, [UInt8.ofNat m]⟩]
  | .getConfig => .coreGetConfig [⟨0x01⟩, ⟨0x00⟩]
  | .sessionInit n => .sessionInit (UInt32.ofNat n) .firaRangingAndInBandDataSession
  | .sessionDeinit n => .sessionDeinit (UInt32.ofNat n)
  | .sessionSetAppConfig n r as => .sessionSetAppConfig (UInt32.ofNat n)
      [⟨.macAddressMode, [0]⟩, ⟨.rangingDuration, leBytes 4 r⟩, ⟨.numberOfControlees, [UInt8.ofNat as.length]⟩,
       ⟨.dstMacAddress, as.flatten⟩]
  | .sessionGetAppConfig n => .sessionGetAppConfig (UInt32.ofNat n) [.rangingDuration]
  | .sessionGetCount => .sessionGetCount
  | .sessionGetState n => .sessionGetState (UInt32.ofNat n)
  | .sessionUpdateControllerMulticastList n add mac sub =>
    .sessionUpdateMulticast (UInt32.ofNat n) (if add then .addControlee else .removeControlee)
      (1 :: (leBytes 2 mac ++ leBytes 4 sub))
  | .rangeStart n => .sessionStart (UInt32.ofNat n)
  | .rangeStop n => .sessionStop (UInt32.ofNat n)
  | .getRangingCount n => .sessionGetRangingCount (UInt32.ofNat n)

/-- The console commands whose code names things that do not exist. -/
def LineBroken : Line → Prop
  | .deviceReset | .getDeviceInfo | .getCapsInfo | .setConfig _ | .getConfig | .sessionSetAppConfig .. => True
  | _ => False

end Pica.Spec
