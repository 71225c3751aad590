import Verif.Spec.Reading
/-!
The `test` blocks of `src/uci_packets.pdl`, 707-1501: bytes that are said to be a packet. The two of them that are not written in
`\x` escapes throughout, 842 and 1132, are left out.
-/

namespace Pica.Spec.Pdl

/-- A line of a `test` block: its number in the file, the packet and the bytes. -/
structure Vector where
  line : Nat
  packet : Packet
  wire : Bytes

/-- The values are some that the bytes are the packet with. -/
def Vector.ReadsAs (v : Vector) (env : Values) : Prop := v.packet.fits env ∧ Matches (v.packet.pattern env) v.wire

/-- The bytes are the packet, with some values for its fields. -/
def Vector.Valid (v : Vector) : Prop := ∃ env, v.ReadsAs env

/-- The lines. -/
def vectors : List Vector := [
  ⟨708, coreDeviceResetCmd, [0x20, 0x00, 0x00, 0x01, 0x00, 0x00, 0x00, 0x00]⟩,
  ⟨716, coreDeviceResetRsp, [0x40, 0x00, 0x00, 0x01, 0x00, 0x00, 0x00, 0x00]⟩,
  ⟨724, coreDeviceStatusNtf, [0x60, 0x01, 0x00, 0x01, 0x00, 0x00, 0x00, 0x01]⟩,
  ⟨731, coreGetDeviceInfoCmd, [0x20, 0x02, 0x00, 0x00, 0x00, 0x00, 0x00]⟩,
  ⟨745, coreGetDeviceInfoRsp, [0x40, 0x02, 0x00, 0x0b, 0x00, 0x00, 0x00, 0x01, 0x01, 0x00, 0x02, 0x00, 0x03, 0x00, 0x04,
    0x00, 0x01, 0x0a]⟩,
  ⟨752, coreGetCapsInfoCmd, [0x20, 0x03, 0x00, 0x00, 0x00, 0x00, 0x00]⟩,
  ⟨769, coreGetCapsInfoRsp, [0x40, 0x03, 0x00, 0x05, 0x00, 0x00, 0x00, 0x00, 0x01, 0x00, 0x01, 0x01]⟩,
  ⟨791, coreSetConfigCmd, [0x20, 0x04, 0x00, 0x03, 0x00, 0x00, 0x00, 0x01, 0x01, 0x00]⟩,
  ⟨806, coreSetConfigRsp, [0x40, 0x04, 0x00, 0x04, 0x00, 0x00, 0x00, 0x01, 0x01, 0x01, 0x01]⟩,
  ⟨807, coreSetConfigRsp, [0x40, 0x04, 0x00, 0x04, 0x00, 0x00, 0x00, 0x01, 0x01, 0x01, 0x0b]⟩,
  ⟨816, coreGetConfigCmd, [0x20, 0x05, 0x00, 0x02, 0x00, 0x00, 0x00, 0x01, 0x01]⟩,
  ⟨826, coreGetConfigRsp, [0x40, 0x05, 0x00, 0x05, 0x00, 0x00, 0x00, 0x01, 0x01, 0x00, 0x01, 0x01]⟩,
  ⟨834, coreGenericErrorNtf, [0x60, 0x07, 0x00, 0x01, 0x00, 0x00, 0x00, 0x01]⟩,
  ⟨851, coreQueryTimeStampRsp, [0x40, 0x08, 0x00, 0x09, 0x00, 0x00, 0x00, 0x01, 0x01, 0x00, 0x01, 0x01, 0x01]⟩,
  ⟨862, sessionInitCmd, [0x21, 0x00, 0x00, 0x05, 0x00, 0x00, 0x00, 0x01, 0x02, 0x03, 0x04, 0x01]⟩,
  ⟨873, sessionInitRsp_V2, [0x41, 0x00, 0x00, 0x01, 0x00, 0x00, 0x00, 0x11, 0x00, 0x00, 0x00, 0x01]⟩,
  ⟨881, sessionInitRsp, [0x41, 0x00, 0x00, 0x01, 0x00, 0x00, 0x00, 0x11]⟩,
  ⟨889, sessionDeinitCmd, [0x21, 0x01, 0x00, 0x04, 0x00, 0x00, 0x00, 0x01, 0x02, 0x03, 0x04]⟩,
  ⟨897, sessionDeinitRsp, [0x41, 0x01, 0x00, 0x01, 0x00, 0x00, 0x00, 0x00]⟩,
  ⟨909, sessionStatusNtf, [0x61, 0x02, 0x00, 0x06, 0x00, 0x00, 0x00, 0x01, 0x02, 0x03, 0x04, 0x02, 0x21]⟩,
  ⟨910, sessionStatusNtf, [0x61, 0x02, 0x00, 0x06, 0x00, 0x00, 0x00, 0x01, 0x02, 0x03, 0x04, 0x01, 0x82]⟩,
  ⟨926, sessionSetAppConfigCmd, [0x21, 0x03, 0x00, 0x05, 0x00, 0x00, 0x00, 0x01, 0x02, 0x03, 0x04, 0x00]⟩,
  ⟨941, sessionSetAppConfigRsp, [0x41, 0x03, 0x00, 0x04, 0x00, 0x00, 0x00, 0x01, 0x01, 0x01, 0x00]⟩,
  ⟨951, sessionGetAppConfigCmd, [0x21, 0x04, 0x00, 0x05, 0x00, 0x00, 0x00, 0x01, 0x02, 0x03, 0x04, 0x00]⟩,
  ⟨961, sessionGetAppConfigRsp, [0x41, 0x04, 0x00, 0x02, 0x00, 0x00, 0x00, 0x01, 0x00]⟩,
  ⟨968, sessionGetCountCmd, [0x21, 0x05, 0x00, 0x00, 0x00, 0x00, 0x00]⟩,
  ⟨977, sessionGetCountRsp, [0x41, 0x05, 0x00, 0x02, 0x00, 0x00, 0x00, 0x00, 0x01]⟩,
  ⟨985, sessionGetStateCmd, [0x21, 0x06, 0x00, 0x04, 0x00, 0x00, 0x00, 0x00, 0x01, 0x02, 0x03]⟩,
  ⟨994, sessionGetStateRsp, [0x41, 0x06, 0x00, 0x02, 0x00, 0x00, 0x00, 0x00, 0x01]⟩,
  ⟨1012, sessionUpdateDtTagRangingRoundsCmd, [0x21, 0x09, 0x00, 0x0a, 0x00, 0x00, 0x00, 0x03, 0x03, 0x0f, 0x0c, 0x05,
    0x08, 0x00, 0x00, 0x00, 0x00]⟩,
  ⟨1022, sessionUpdateDtTagRangingRoundsRsp, [0x41, 0x09, 0x00, 0x03, 0x00, 0x00, 0x00, 0x01, 0x01, 0x01]⟩,
  ⟨1078, sessionUpdateControllerMulticastListRsp, [0x41, 0x07, 0x00, 0x01, 0x00, 0x00, 0x00, 0x00]⟩,
  ⟨1093, sessionUpdateControllerMulticastListNtf, [0x61, 0x07, 0x00, 0x06, 0x00, 0x00, 0x00, 0x00, 0x01, 0x02, 0x03,
    0x04, 0x00]⟩,
  ⟨1104, sessionDataCreditNtf, [0x62, 0x04, 0x00, 0x05, 0x00, 0x00, 0x00, 0x00, 0x00, 0x00, 0x01, 0x01]⟩,
  ⟨1115, sessionDataTransferStatusNtf, [0x62, 0x05, 0x00, 0x06, 0x00, 0x00, 0x00, 0x00, 0x00, 0x00, 0x01, 0x01, 0x00, 0x00]⟩,
  ⟨1123, sessionQueryMaxDataSizeInRangingCmd, [0x21, 0x0b, 0x00, 0x04, 0x00, 0x00, 0x00, 0x00]⟩,
  ⟨1140, sessionStartCmd, [0x22, 0x00, 0x00, 0x04, 0x00, 0x00, 0x00, 0x00, 0x01, 0x02, 0x03]⟩,
  ⟨1148, sessionStartRsp, [0x42, 0x00, 0x00, 0x01, 0x00, 0x00, 0x00, 0x00]⟩,
  ⟨1295, shortMacTwoWaySessionInfoNtf, [0x62, 0x00, 0x00, 0x19, 0x00, 0x00, 0x00, 0x00, 0x02, 0x03, 0x04, 0x05, 0x06,
    0x07, 0x08, 0x00, 0x0a, 0x01, 0x01, 0x01, 0x01, 0x00, 0x00, 0x00, 0x00, 0x00, 0x00, 0x00, 0x00, 0x00, 0x00, 0x00]⟩,
  ⟨1305, extendedMacTwoWaySessionInfoNtf, [0x62, 0x00, 0x00, 0x19, 0x00, 0x00, 0x00, 0x00, 0x02, 0x03, 0x04, 0x05, 0x06,
    0x07, 0x08, 0x00, 0x0a, 0x01, 0x01, 0x01, 0x01, 0x00, 0x01, 0x00, 0x00, 0x00, 0x00, 0x00, 0x00, 0x00, 0x00, 0x00]⟩,
  ⟨1314, shortMacDlTDoASessionInfoNtf, [0x62, 0x00, 0x00, 0x19, 0x00, 0x00, 0x00, 0x00, 0x02, 0x03, 0x04, 0x05, 0x06,
    0x07, 0x08, 0x00, 0x0a, 0x02, 0x01, 0x01, 0x02, 0x00, 0x00, 0x00, 0x00, 0x00, 0x00, 0x00, 0x00, 0x00, 0x00, 0x00]⟩,
  ⟨1323, extendedMacDlTDoASessionInfoNtf, [0x62, 0x00, 0x00, 0x19, 0x00, 0x00, 0x00, 0x00, 0x02, 0x03, 0x04, 0x05, 0x06,
    0x07, 0x08, 0x00, 0x0a, 0x01, 0x01, 0x01, 0x02, 0x00, 0x01, 0x00, 0x00, 0x00, 0x00, 0x00, 0x00, 0x00, 0x00, 0x00]⟩,
  ⟨1333, shortMacOwrAoaSessionInfoNtf, [0x62, 0x00, 0x00, 0x19, 0x00, 0x00, 0x00, 0x00, 0x02, 0x03, 0x04, 0x05, 0x06,
    0x07, 0x08, 0x00, 0x0a, 0x01, 0x01, 0x01, 0x03, 0x00, 0x00, 0x00, 0x00, 0x00, 0x00, 0x00, 0x00, 0x00, 0x00, 0x00]⟩,
  ⟨1334, shortMacOwrAoaSessionInfoNtf, [0x62, 0x00, 0x00, 0x26, 0x00, 0x00, 0x00, 0x00, 0x02, 0x03, 0x04, 0x05, 0x06,
    0x07, 0x08, 0x00, 0x0a, 0x01, 0x01, 0x01, 0x03, 0x00, 0x00, 0x00, 0x00, 0x00, 0x00, 0x00, 0x00, 0x00, 0x00, 0x01,
    0xaa, 0xbb, 0x00, 0x00, 0x01, 0x01, 0x00, 0x03, 0x04, 0x60, 0x05, 0x06, 0x50]⟩,
  ⟨1344, extendedMacOwrAoaSessionInfoNtf, [0x62, 0x00, 0x00, 0x19, 0x00, 0x00, 0x00, 0x00, 0x02, 0x03, 0x04, 0x05, 0x06,
    0x07, 0x08, 0x00, 0x0a, 0x01, 0x01, 0x01, 0x03, 0x00, 0x01, 0x00, 0x00, 0x00, 0x00, 0x00, 0x00, 0x00, 0x00, 0x00]⟩,
  ⟨1345, extendedMacOwrAoaSessionInfoNtf, [0x62, 0x00, 0x00, 0x2c, 0x00, 0x00, 0x00, 0x00, 0x02, 0x03, 0x04, 0x05, 0x06,
    0x07, 0x08, 0x00, 0x0a, 0x01, 0x01, 0x01, 0x03, 0x00, 0x01, 0x00, 0x00, 0x00, 0x00, 0x00, 0x00, 0x00, 0x00, 0x01,
    0xaa, 0xbb, 0xcc, 0xdd, 0x01, 0x02, 0x03, 0x04, 0x00, 0x00, 0x01, 0x01, 0x00, 0x03, 0x04, 0x60, 0x05, 0x06, 0x50]⟩,
  ⟨1353, sessionStopCmd, [0x22, 0x01, 0x00, 0x04, 0x00, 0x00, 0x00, 0x00, 0x02, 0x03, 0x04]⟩,
  ⟨1361, sessionStopRsp, [0x42, 0x01, 0x00, 0x01, 0x00, 0x00, 0x00, 0x00]⟩,
  ⟨1369, sessionGetRangingCountCmd, [0x22, 0x03, 0x00, 0x04, 0x00, 0x00, 0x00, 0x00, 0x02, 0x03, 0x04]⟩,
  ⟨1378, sessionGetRangingCountRsp, [0x42, 0x03, 0x00, 0x05, 0x00, 0x00, 0x00, 0x00, 0x02, 0x03, 0x04, 0x05]⟩,
  ⟨1387, androidGetPowerStatsCmd, [0x2c, 0x00, 0x00, 0x00, 0x00, 0x00, 0x00]⟩,
  ⟨1403, androidGetPowerStatsRsp, [0x4c, 0x00, 0x00, 0x11, 0x00, 0x00, 0x00, 0x00, 0x00, 0x00, 0x00, 0x00, 0x00, 0x00,
    0x00, 0x00, 0x00, 0x00, 0x00, 0x00, 0x00, 0x00, 0x00, 0x00]⟩,
  ⟨1412, androidSetCountryCodeCmd, [0x2c, 0x01, 0x00, 0x02, 0x00, 0x00, 0x00, 0x55, 0x53]⟩,
  ⟨1420, androidSetCountryCodeRsp, [0x4c, 0x01, 0x00, 0x01, 0x00, 0x00, 0x00, 0x00]⟩,
  ⟨1458, aoa, [0x01, 0x08, 0x00, 0x00, 0x01, 0x00, 0x01, 0x00, 0x01, 0x01, 0x01]⟩,
  ⟨1480, cir, [0x02, 0x15, 0x00, 0x01, 0x01, 0x02, 0x01, 0x02, 0x01, 0x02, 0x01, 0x02, 0x01, 0x02, 0x01, 0x02, 0x00,
    0x02, 0x04, 0x00, 0x01, 0x02, 0x03, 0x04]⟩,
  ⟨1499, androidRangeDiagnosticsNtf, [0x6c, 0x02, 0x00, 0x11, 0x00, 0x00, 0x00, 0x01, 0x01, 0x01, 0x01, 0x02, 0x02, 0x02,
    0x02, 0x01, 0x00, 0x01, 0x02, 0x01, 0x00, 0x01, 0x00, 0x00]⟩,
  ⟨1500, androidRangeDiagnosticsNtf, [0x6c, 0x02, 0x00, 0x34, 0x00, 0x00, 0x00, 0x01, 0x01, 0x01, 0x01, 0x02, 0x02, 0x02,
    0x02, 0x01, 0x00, 0x01, 0x02, 0x03, 0x01, 0x08, 0x00, 0x01, 0x02, 0x01, 0x02, 0x01, 0x02, 0x01, 0x01, 0x02, 0x15,
    0x00, 0x01, 0x01, 0x02, 0x01, 0x02, 0x01, 0x02, 0x01, 0x02, 0x01, 0x02, 0x01, 0x02, 0x00, 0x02, 0x04, 0x00, 0x01,
    0x02, 0x03, 0x04, 0x00, 0x01, 0x00, 0x00]⟩]

end Pica.Spec.Pdl
