import Verif.Model.Bytes
/-!
Specification of the APP configuration parameters a FiRa session supports: for each identifier the
legal values. Typed from the FiRa UCI tables the packet description `src/uci_packets.pdl` follows;
does not mention the enumerations of the model.
-/

namespace Pica.Spec

/-- Shape of a parameter value. -/
inductive Format where
  /-- one byte among the given codes -/
  | codes (l : List UInt8)
  /-- any bytes, of one of the given lengths -/
  | bytes (lengths : List Nat)
  /-- any bytes -/
  | any
  /-- one MAC address -/
  | mac
  /-- NUMBER_OF_CONTROLEES MAC addresses -/
  | macs

/-- The supported parameters. -/
def appFormats : List (UInt8 × Format) := [
  (0x00, .codes [0, 1]),                          -- DEVICE_TYPE
  (0x01, .codes [1, 2, 3, 4, 5, 6, 7, 8]),        -- RANGING_ROUND_USAGE
  (0x02, .codes [0, 1, 2, 3, 4]),                 -- STS_CONFIG
  (0x03, .codes [0, 1]),                          -- MULTI_NODE_MODE
  (0x04, .codes [5, 6, 8, 9, 10, 12, 13, 14]),    -- CHANNEL_NUMBER
  (0x05, .bytes [1]),                             -- NUMBER_OF_CONTROLEES
  (0x06, .mac),                                   -- DEVICE_MAC_ADDRESS
  (0x07, .macs),                                  -- DST_MAC_ADDRESS
  (0x08, .bytes [2]),                             -- SLOT_DURATION
  (0x09, .bytes [4]),                             -- RANGING_DURATION
  (0x0a, .bytes [4]),                             -- STS_INDEX
  (0x0b, .codes [0, 1]),                          -- MAC_FCS_TYPE
  (0x0c, .bytes [1]),                             -- RANGING_ROUND_CONTROL
  (0x0d, .codes [0, 1, 2, 3]),                    -- AOA_RESULT_REQ
  (0x0e, .codes [0, 1, 2, 3, 4, 5, 6, 7]),        -- SESSION_INFO_NTF_CONFIG
  (0x0f, .bytes [2]),                             -- NEAR_PROXIMITY_CONFIG
  (0x10, .bytes [2]),                             -- FAR_PROXIMITY_CONFIG
  (0x11, .codes [0, 1, 5, 6, 7, 8]),              -- DEVICE_ROLE
  (0x12, .codes [0, 1, 3]),                       -- RFRAME_CONFIG
  (0x13, .codes [0, 1]),                          -- RSSI_REPORTING
  (0x14, .bytes [1]),                             -- PREAMBLE_CODE_INDEX
  (0x15, .bytes [1]),                             -- SFD_ID
  (0x16, .codes [0, 1, 2, 3]),                    -- PSDU_DATA_RATE
  (0x17, .codes [0, 1]),                          -- PREAMBLE_DURATION
  (0x18, .codes [0]),                             -- LINK_LAYER_MODE
  (0x19, .bytes [1]),                             -- DATA_REPETITION_COUNT
  (0x1a, .codes [1]),                             -- RANGING_TIME_STRUCT
  (0x1b, .bytes [1]),                             -- SLOTS_PER_RR
  (0x1d, .bytes [8]),                             -- AOA_BOUND_CONFIG
  (0x1f, .codes [0, 1, 2]),                       -- PRF_MODE
  (0x20, .bytes [2]),                             -- CAP_SIZE_RANGE
  (0x21, .bytes [1]),                             -- TX_JITTER_WINDOW_SIZE
  (0x22, .codes [0, 1]),                          -- SCHEDULE_MODE
  (0x23, .codes [0, 1]),                          -- KEY_ROTATION
  (0x24, .bytes [1]),                             -- KEY_ROTATION_RATE
  (0x25, .bytes [1]),                             -- SESSION_PRIORITY
  (0x26, .codes [0, 1, 2]),                       -- MAC_ADDRESS_MODE
  (0x27, .bytes [2]),                             -- VENDOR_ID
  (0x28, .bytes [6]),                             -- STATIC_STS_IV
  (0x29, .bytes [1]),                             -- NUMBER_OF_STS_SEGMENTS
  (0x2a, .bytes [2]),                             -- MAX_RR_RETRY
  (0x2b, .bytes [4, 8]),                          -- UWB_INITIATION_TIME
  (0x2c, .codes [0, 1]),                          -- HOPPING_MODE
  (0x2d, .bytes [1]),                             -- BLOCK_STRIDE_LENGTH
  (0x2e, .bytes [1]),                             -- RESULT_REPORT_CONFIG
  (0x2f, .bytes [1]),                             -- IN_BAND_TERMINATION_ATTEMPT_COUNT
  (0x30, .bytes [4]),                             -- SUB_SESSION_ID
  (0x31, .codes [0, 1]),                          -- BPRF_PHR_DATA_RATE
  (0x32, .bytes [2]),                             -- MAX_NUMBER_OF_MEASUREMENTS
  (0x35, .codes [0, 1, 2]),                       -- STS_LENGTH
  (0x3a, .bytes [1]),                             -- MIN_FRAMES_PER_RR
  (0x3b, .bytes [2]),                             -- MTU_SIZE
  (0x3c, .bytes [1]),                             -- INTER_FRAME_INTERVAL
  (0x45, .any),                                   -- SESSION_KEY
  (0x46, .bytes [16, 32]),                        -- SUB_SESSION_KEY
  (0x47, .codes [0, 1]),                          -- SESSION_DATA_TRANSFER_STATUS_NTF_CONFIG
  (0x48, .bytes [9]),                             -- SESSION_TIME_BASE
  (0x4c, .bytes [1])]                             -- APPLICATION_DATA_ENDPOINT

/-- Format of the parameter with the given identifier; `none` if it is not supported. -/
def formatOf (id : UInt8) : Option Format := appFormats.lookup id

/-- The parameters without a default: DEVICE_TYPE, RANGING_ROUND_USAGE, MULTI_NODE_MODE,
DEVICE_MAC_ADDRESS, DEVICE_ROLE, SCHEDULE_MODE. -/
def optionalIds : List UInt8 := [0x00, 0x01, 0x03, 0x06, 0x11, 0x22]

/-- Size in bytes of a MAC address in a MAC_ADDRESS_MODE. -/
def addressSize (mode : UInt8) : Nat := if mode = 0 then 2 else 8

/-- Legal values of a parameter, given MAC_ADDRESS_MODE and NUMBER_OF_CONTROLEES. -/
def Format.Allows (mode controlees : UInt8) : Format → Bytes → Prop
  | .codes l, v => ∃ b ∈ l, v = [b]
  | .bytes ns, v => v.length ∈ ns
  | .any, _ => True
  | .mac, v => v.length = addressSize mode
  | .macs, v => v.length = controlees.toNat * addressSize mode

end Pica.Spec
