/-! # Specification of opcodes (Bluetooth spec, Vol 2, Part E, 5.4.1 and 7.x)

The opcode field (OGF * 1024 + OCF) of every command, in the order in which the crate lists its
commands. -/

namespace Spec

/-- OGF and OCF of each command, from the Bluetooth specification. -/
def commandFields : List (Nat × Nat) :=
  [(0x01, 0x06), -- Disconnect
   (0x01, 0x1D), -- Read Remote Version Information
   (0x03, 0x01), -- Set Event Mask
   (0x03, 0x03), -- Reset
   (0x03, 0x2D), -- Read Transmit Power Level
   (0x04, 0x01), -- Read Local Version Information
   (0x04, 0x02), -- Read Local Supported Commands
   (0x04, 0x03), -- Read Local Supported Features
   (0x04, 0x09), -- Read BD_ADDR
   (0x05, 0x05), -- Read RSSI
   (0x08, 0x01), -- LE Set Event Mask
   (0x08, 0x02), -- LE Read Buffer Size
   (0x08, 0x03), -- LE Read Local Supported Features
   (0x08, 0x05), -- LE Set Random Address
   (0x08, 0x06), -- LE Set Advertising Parameters
   (0x08, 0x07), -- LE Read Advertising Channel Tx Power
   (0x08, 0x08), -- LE Set Advertising Data
   (0x08, 0x09), -- LE Set Scan Response Data
   (0x08, 0x0A), -- LE Set Advertising Enable
   (0x08, 0x0B), -- LE Set Scan Parameters
   (0x08, 0x0C), -- LE Set Scan Enable
   (0x08, 0x0D), -- LE Create Connection
   (0x08, 0x0E), -- LE Create Connection Cancel
   (0x08, 0x0F), -- LE Read White List Size
   (0x08, 0x10), -- LE Clear White List
   (0x08, 0x11), -- LE Add Device To White List
   (0x08, 0x12), -- LE Remove Device From White List
   (0x08, 0x13), -- LE Connection Update
   (0x08, 0x14), -- LE Set Host Channel Classification
   (0x08, 0x15), -- LE Read Channel Map
   (0x08, 0x16), -- LE Read Remote Used Features
   (0x08, 0x17), -- LE Encrypt
   (0x08, 0x18), -- LE Rand
   (0x08, 0x19), -- LE Start Encryption
   (0x08, 0x1A), -- LE Long Term Key Request Reply
   (0x08, 0x1B), -- LE Long Term Key Request Negative Reply
   (0x08, 0x1C), -- LE Read Supported States
   (0x08, 0x1D), -- LE Receiver Test
   (0x08, 0x1E), -- LE Transmitter Test
   (0x08, 0x1F)] -- LE Test End

end Spec
