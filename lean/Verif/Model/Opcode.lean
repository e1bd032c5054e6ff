import Verif.Basic

/-! # Model of `/repo/src/opcode.rs` -/

namespace Bt

/-- `Opcode(pub u16)`: opcode.rs 4-5. -/
structure Opcode where
  val : UInt16
  deriving DecidableEq, Repr

/-- `Opcode::new(ogf, ocf)`: opcode.rs 9-11. `<<` on `u16` drops the bits shifted out. -/
def Opcode.new (ogf ocf : UInt16) : Opcode := ⟨(ogf <<< 10) ||| (ocf &&& 0x03ff)⟩

/-- `Opcode::ogf`: opcode.rs 14-16. -/
def Opcode.ogf (o : Opcode) : UInt16 := o.val >>> 10

/-- `Opcode::ocf`: opcode.rs 19-21. -/
def Opcode.ocf (o : Opcode) : UInt16 := o.val &&& 0x03ff

namespace opcode

/-- opcode.rs 42 -/
def DISCONNECT : Opcode := Opcode.new 0x0001 0x0006
/-- opcode.rs 43 -/
def READ_REMOTE_VERSION_INFO : Opcode := Opcode.new 0x0001 0x001D
/-- opcode.rs 48 -/
def SET_EVENT_MASK : Opcode := Opcode.new 0x0003 0x0001
/-- opcode.rs 49 -/
def RESET : Opcode := Opcode.new 0x0003 0x0003
/-- opcode.rs 50 -/
def READ_TX_POWER_LEVEL : Opcode := Opcode.new 0x0003 0x002D
/-- opcode.rs 55 -/
def READ_LOCAL_VERSION_INFO : Opcode := Opcode.new 0x0004 0x0001
/-- opcode.rs 56 -/
def READ_LOCAL_SUPPORTED_COMMANDS : Opcode := Opcode.new 0x0004 0x0002
/-- opcode.rs 57 -/
def READ_LOCAL_SUPPORTED_FEATURES : Opcode := Opcode.new 0x0004 0x0003
/-- opcode.rs 58 -/
def READ_BD_ADDR : Opcode := Opcode.new 0x0004 0x0009
/-- opcode.rs 63 -/
def READ_RSSI : Opcode := Opcode.new 0x0005 0x0005
/-- opcode.rs 68 -/
def LE_SET_EVENT_MASK : Opcode := Opcode.new 0x0008 0x0001
/-- opcode.rs 69 -/
def LE_READ_BUFFER_SIZE : Opcode := Opcode.new 0x0008 0x0002
/-- opcode.rs 70 -/
def LE_READ_LOCAL_SUPPORTED_FEATURES : Opcode := Opcode.new 0x0008 0x0003
/-- opcode.rs 71 -/
def LE_SET_RANDOM_ADDRESS : Opcode := Opcode.new 0x0008 0x0005
/-- opcode.rs 72 -/
def LE_SET_ADVERTISING_PARAMETERS : Opcode := Opcode.new 0x0008 0x0006
/-- opcode.rs 73 -/
def LE_READ_ADVERTISING_CHANNEL_TX_POWER : Opcode := Opcode.new 0x0008 0x0007
/-- opcode.rs 74 -/
def LE_SET_ADVERTISING_DATA : Opcode := Opcode.new 0x0008 0x0008
/-- opcode.rs 75 -/
def LE_SET_SCAN_RESPONSE_DATA : Opcode := Opcode.new 0x0008 0x0009
/-- opcode.rs 76 -/
def LE_SET_ADVERTISE_ENABLE : Opcode := Opcode.new 0x0008 0x000A
/-- opcode.rs 77 -/
def LE_SET_SCAN_PARAMETERS : Opcode := Opcode.new 0x0008 0x000B
/-- opcode.rs 78 -/
def LE_SET_SCAN_ENABLE : Opcode := Opcode.new 0x0008 0x000C
/-- opcode.rs 79 -/
def LE_CREATE_CONNECTION : Opcode := Opcode.new 0x0008 0x000D
/-- opcode.rs 80 -/
def LE_CREATE_CONNECTION_CANCEL : Opcode := Opcode.new 0x0008 0x000E
/-- opcode.rs 81 -/
def LE_READ_WHITE_LIST_SIZE : Opcode := Opcode.new 0x0008 0x000F
/-- opcode.rs 82 -/
def LE_CLEAR_WHITE_LIST : Opcode := Opcode.new 0x0008 0x0010
/-- opcode.rs 83 -/
def LE_ADD_DEVICE_TO_WHITE_LIST : Opcode := Opcode.new 0x0008 0x0011
/-- opcode.rs 84 -/
def LE_REMOVE_DEVICE_FROM_WHITE_LIST : Opcode := Opcode.new 0x0008 0x0012
/-- opcode.rs 85 -/
def LE_CONNECTION_UPDATE : Opcode := Opcode.new 0x0008 0x0013
/-- opcode.rs 86 -/
def LE_SET_HOST_CHANNEL_CLASSIFICATION : Opcode := Opcode.new 0x0008 0x0014
/-- opcode.rs 87 -/
def LE_READ_CHANNEL_MAP : Opcode := Opcode.new 0x0008 0x0015
/-- opcode.rs 88 -/
def LE_READ_REMOTE_USED_FEATURES : Opcode := Opcode.new 0x0008 0x0016
/-- opcode.rs 89 -/
def LE_ENCRYPT : Opcode := Opcode.new 0x0008 0x0017
/-- opcode.rs 90 -/
def LE_RAND : Opcode := Opcode.new 0x0008 0x0018
/-- opcode.rs 91 -/
def LE_START_ENCRYPTION : Opcode := Opcode.new 0x0008 0x0019
/-- opcode.rs 92 -/
def LE_LTK_REQUEST_REPLY : Opcode := Opcode.new 0x0008 0x001A
/-- opcode.rs 93 -/
def LE_LTK_REQUEST_NEGATIVE_REPLY : Opcode := Opcode.new 0x0008 0x001B
/-- opcode.rs 94 -/
def LE_READ_STATES : Opcode := Opcode.new 0x0008 0x001C
/-- opcode.rs 95 -/
def LE_RECEIVER_TEST : Opcode := Opcode.new 0x0008 0x001D
/-- opcode.rs 96 -/
def LE_TRANSMITTER_TEST : Opcode := Opcode.new 0x0008 0x001E
/-- opcode.rs 97 -/
def LE_TEST_END : Opcode := Opcode.new 0x0008 0x001F

/-- All opcode constants of the table, in source order: opcode.rs 39-99. -/
def all : List Opcode :=
  [DISCONNECT,
   READ_REMOTE_VERSION_INFO,
   SET_EVENT_MASK,
   RESET,
   READ_TX_POWER_LEVEL,
   READ_LOCAL_VERSION_INFO,
   READ_LOCAL_SUPPORTED_COMMANDS,
   READ_LOCAL_SUPPORTED_FEATURES,
   READ_BD_ADDR,
   READ_RSSI,
   LE_SET_EVENT_MASK,
   LE_READ_BUFFER_SIZE,
   LE_READ_LOCAL_SUPPORTED_FEATURES,
   LE_SET_RANDOM_ADDRESS,
   LE_SET_ADVERTISING_PARAMETERS,
   LE_READ_ADVERTISING_CHANNEL_TX_POWER,
   LE_SET_ADVERTISING_DATA,
   LE_SET_SCAN_RESPONSE_DATA,
   LE_SET_ADVERTISE_ENABLE,
   LE_SET_SCAN_PARAMETERS,
   LE_SET_SCAN_ENABLE,
   LE_CREATE_CONNECTION,
   LE_CREATE_CONNECTION_CANCEL,
   LE_READ_WHITE_LIST_SIZE,
   LE_CLEAR_WHITE_LIST,
   LE_ADD_DEVICE_TO_WHITE_LIST,
   LE_REMOVE_DEVICE_FROM_WHITE_LIST,
   LE_CONNECTION_UPDATE,
   LE_SET_HOST_CHANNEL_CLASSIFICATION,
   LE_READ_CHANNEL_MAP,
   LE_READ_REMOTE_USED_FEATURES,
   LE_ENCRYPT,
   LE_RAND,
   LE_START_ENCRYPTION,
   LE_LTK_REQUEST_REPLY,
   LE_LTK_REQUEST_NEGATIVE_REPLY,
   LE_READ_STATES,
   LE_RECEIVER_TEST,
   LE_TRANSMITTER_TEST,
   LE_TEST_END]

end opcode

end Bt
