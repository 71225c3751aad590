import Verif.Spec.AppConfig
import Verif.Model.Session
/-! The parameters of a new session. -/

namespace Pica.Spec

/-- The value of each parameter nobody has set, as a host reads it. Multi-byte values are little endian. DEVICE_TYPE (0x00),
RANGING_ROUND_USAGE (0x01), MULTI_NODE_MODE (0x03), DEVICE_MAC_ADDRESS (0x06), DEVICE_ROLE (0x11) and SCHEDULE_MODE (0x22)
have no value, nor has any parameter that is not supported. -/
def defaults : List (UInt8 × Bytes) := [
  (0x02, [0]), -- STS_CONFIG: static
  (0x04, [9]), -- CHANNEL_NUMBER
  (0x05, [1]), -- NUMBER_OF_CONTROLEES
  (0x07, []), -- DST_MAC_ADDRESS
  (0x08, [0x60, 0x09]), -- SLOT_DURATION: 2400
  (0x09, [200, 0, 0, 0]), -- RANGING_DURATION: 200 ms
  (0x0a, [0, 0, 0, 0]), -- STS_INDEX
  (0x0b, [0]), -- MAC_FCS_TYPE: CRC 16
  (0x0c, [6]), -- RANGING_ROUND_CONTROL
  (0x0d, [1]), -- AOA_RESULT_REQ: enabled
  (0x0e, [1]), -- SESSION_INFO_NTF_CONFIG: enabled
  (0x0f, [0, 0]), -- NEAR_PROXIMITY_CONFIG
  (0x10, [0x20, 0x4e]), -- FAR_PROXIMITY_CONFIG: 20000
  (0x12, [3]), -- RFRAME_CONFIG: SP3
  (0x13, [0]), -- RSSI_REPORTING: disabled
  (0x14, [10]), -- PREAMBLE_CODE_INDEX
  (0x15, [2]), -- SFD_ID
  (0x16, [0]), -- PSDU_DATA_RATE: 6.81 Mbps
  (0x17, [1]), -- PREAMBLE_DURATION: 64 symbols
  (0x18, [0]), -- LINK_LAYER_MODE: bypass
  (0x19, [0]), -- DATA_REPETITION_COUNT
  (0x1a, [1]), -- RANGING_TIME_STRUCT: block based
  (0x1b, [25]), -- SLOTS_PER_RR
  (0x1d, [0, 0, 0, 0, 0, 0, 0, 0]), -- AOA_BOUND_CONFIG
  (0x1f, [0]), -- PRF_MODE: BPRF
  (0x20, [24, 5]), -- CAP_SIZE_RANGE
  (0x21, [0]), -- TX_JITTER_WINDOW_SIZE
  (0x23, [0]), -- KEY_ROTATION: disabled
  (0x24, [0]), -- KEY_ROTATION_RATE
  (0x25, [50]), -- SESSION_PRIORITY
  (0x26, [0]), -- MAC_ADDRESS_MODE: two bytes
  (0x27, [0, 0]), -- VENDOR_ID
  (0x28, [0, 0, 0, 0, 0, 0]), -- STATIC_STS_IV
  (0x29, [1]), -- NUMBER_OF_STS_SEGMENTS
  (0x2a, [0, 0]), -- MAX_RR_RETRY
  (0x2b, [0, 0, 0, 0, 0, 0, 0, 0]), -- UWB_INITIATION_TIME
  (0x2c, [0]), -- HOPPING_MODE: disabled
  (0x2d, [0]), -- BLOCK_STRIDE_LENGTH
  (0x2e, [1]), -- RESULT_REPORT_CONFIG: time of flight
  (0x2f, [1]), -- IN_BAND_TERMINATION_ATTEMPT_COUNT
  (0x30, [0, 0, 0, 0]), -- SUB_SESSION_ID
  (0x31, [0]), -- BPRF_PHR_DATA_RATE: 850 kbps
  (0x32, [0, 0]), -- MAX_NUMBER_OF_MEASUREMENTS
  (0x35, [1]), -- STS_LENGTH: 64 symbols
  (0x3a, [4]), -- MIN_FRAMES_PER_RR
  (0x3b, [0, 0]), -- MTU_SIZE
  (0x3c, [1]), -- INTER_FRAME_INTERVAL
  (0x45, []), -- SESSION_KEY
  (0x46, []), -- SUB_SESSION_KEY
  (0x47, [0]), -- SESSION_DATA_TRANSFER_STATUS_NTF_CONFIG: disabled
  (0x48, [0, 0, 0, 0, 0, 0, 0, 0, 0]), -- SESSION_TIME_BASE
  (0x4c, [0])] -- APPLICATION_DATA_ENDPOINT

/-- A session nobody has configured. -/
structure Fresh (sid : UInt32) (ty : SessionType) (s : Session) : Prop where
  id : s.id = sid
  type : s.sessionType = ty
  params : ∀ i, View.of s.appConfig i = (defaults.find? (fun e => e.1 = i)).map Prod.snd
  count : s.sequenceNumber = 0
  data : s.data = []
  idle : s.rangingTask = none

end Pica.Spec
