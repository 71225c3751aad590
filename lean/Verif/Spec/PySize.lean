import Verif.Model.PyUci
/-! The bytes of a packet that are written by the classes its own class is derived from. -/

namespace Pica.Spec
open Py (Obj)

/-- Four bytes of header, of which the group packets write three themselves and the bare packets all; the session
notifications share 24 bytes more. -/
def inherited : Obj → Nat
  | .controlPacket .. | .dataPacket .. => 0
  | .corePacket .. | .sessionConfigPacket .. | .sessionControlPacket .. | .androidPacket .. => 1
  | .shortMacTwoWaySessionInfoNtf .. | .extendedMacTwoWaySessionInfoNtf .. | .shortMacDlTDoASessionInfoNtf ..
  | .extendedMacDlTDoASessionInfoNtf .. | .shortMacOwrAoaSessionInfoNtf .. | .extendedMacOwrAoaSessionInfoNtf .. => 28
  | _ => 4

/-- The identifiers that a command asks for. -/
def asked : Obj → Nat
  | .command (.coreGetConfig l) | .command (.sessionGetAppConfig _ l) => l.length
  | _ => 0

/-- There is a DL-TDoA measurement in the packet. -/
def HasDlTdoa : Obj → Prop
  | .shortMacDlTDoASessionInfoNtf _ _ _ _ l | .extendedMacDlTDoASessionInfoNtf _ _ _ _ l => l ≠ []
  | _ => False

end Pica.Spec
