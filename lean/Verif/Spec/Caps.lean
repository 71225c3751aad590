import Verif.Model.Bytes
/-! The capabilities a device reports, as tag and value bytes (`CapTlvType` of `src/uci_packets.pdl`). -/

namespace Pica.Spec

/-- Tags and values in the order reported: FiRa parameters, then CCC parameters. -/
def capabilities : List (UInt8 × Bytes) := [
  (0x00, [1, 1, 1, 3]), (0x01, [1, 1, 1, 3]), (0x02, [0x03]), (0x03, [0x1f]), (0x04, [0x1f]), (0x05, [0xff]),
  (0x06, [0x01]), (0x07, [0x01]), (0x08, [0x00]), (0x09, [0x01]), (0x0a, [0x01]), (0x0b, [0xff]), (0x0c, [0xff]),
  (0x0d, [0xff]), (0x0e, [0xff]), (0x0f, [0xff]), (0x10, [0xff]), (0xe3, [0x01]), (0x11, [0x01]),
  (0xa4, [1, 0]), (0xa5, [0]), (0xa6, [0]), (0xa7, [0, 0, 0, 0]), (0xa0, [0xff]), (0xa1, [0xff, 0xff, 0xff, 0xff]),
  (0xa3, [0xff]), (0xa2, [0xff])]

end Pica.Spec
