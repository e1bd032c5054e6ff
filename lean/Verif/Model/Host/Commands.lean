import Verif.Model.Host.Header
import Verif.Model.Host.Params

/-! # `impl Hci for T`: host/mod.rs 1179-1542

One definition per method of `host::Hci`, generic in the header type and the controller. -/

namespace Bt

/-- `x as u8` for a `bool`. -/
def boolAsU8 (b : Bool) : UInt8 := if b then 1 else 0

/-- `[0; n]` as a buffer. -/
def zeros (n : Nat) : List UInt8 := (Arr.zero n).val

section
variable {σ E VS : Type} (H : HciHeader) (k : Controller σ E)

/-- `set_outbound_data`: host/mod.rs 1179-1196. -/
def setOutboundData (op : Opcode) (data : List UInt8) : Ctl σ (Nb (HostError E VS)) Unit := do
  if data.length > 31 then Ctl.lift (.err (.other (.advertisingDataTooLong data.length)))
  else do
    let params ← Ctl.lift (setByte (zeros 32) 0 (UInt8.ofNat data.length))
    let params ← Ctl.lift (copyRange params 1 (data.length + 1) data)
    Ctl.mapErr rewrapAsComm (writeCommand H k op params)

namespace Hci

/-- `disconnect`: host/mod.rs 1205-1226. `vinto` is the vendor's `Into<u8>` for statuses. -/
def disconnect (vinto : VS → UInt8) (h : ConnectionHandle) (reason : Status VS) :
    Ctl σ (Nb (HostError E VS)) Unit := do
  match reason with
  | .authFailure | .remoteTerminationByUser | .remoteTerminationLowResources
  | .remoteTerminationPowerOff | .unsupportedRemoteFeature | .pairingWithUnitKeyNotSupported
  | .unacceptableConnectionParameters => do
    let params ← Ctl.lift (withRange (zeros 3) 0 3 (fun s => writeU16 s h.val))
    let params ← Ctl.lift (setByte params 2 (reason.into vinto))
    Ctl.mapErr rewrapAsComm (writeCommand H k opcode.DISCONNECT params)
  | _ => Ctl.lift (.err (.other (.badDisconnectionReason reason)))

/-- `read_remote_version_information`: host/mod.rs 1228-1235. -/
def readRemoteVersionInformation (h : ConnectionHandle) : Ctl σ (Nb E) Unit := do
  let params ← Ctl.lift (writeU16 (zeros 2) h.val)
  writeCommand H k opcode.READ_REMOTE_VERSION_INFO params

/-- `set_event_mask`: host/mod.rs 1237-1242. `EventFlags` is its bits. -/
def setEventMask (mask : UInt64) : Ctl σ (Nb E) Unit := do
  let params ← Ctl.lift (writeU64 (zeros 8) mask)
  writeCommand H k opcode.SET_EVENT_MASK params

/-- `reset`: host/mod.rs 1244-1246. -/
def reset : Ctl σ (Nb E) Unit := writeCommand H k opcode.RESET []

/-- `read_tx_power_level`: host/mod.rs 1248-1257. -/
def readTxPowerLevel (h : ConnectionHandle) (t : TxPowerLevel) : Ctl σ (Nb E) Unit := do
  let params ← Ctl.lift (writeU16 (zeros 3) h.val)
  let params ← Ctl.lift (setByte params 2 t.asU8)
  writeCommand H k opcode.READ_TX_POWER_LEVEL params

/-- `read_local_version_information`: host/mod.rs 1259-1261. -/
def readLocalVersionInformation : Ctl σ (Nb E) Unit :=
  writeCommand H k opcode.READ_LOCAL_VERSION_INFO []

/-- `read_local_supported_commands`: host/mod.rs 1263-1265. -/
def readLocalSupportedCommands : Ctl σ (Nb E) Unit :=
  writeCommand H k opcode.READ_LOCAL_SUPPORTED_COMMANDS []

/-- `read_local_supported_features`: host/mod.rs 1267-1269. -/
def readLocalSupportedFeatures : Ctl σ (Nb E) Unit :=
  writeCommand H k opcode.READ_LOCAL_SUPPORTED_FEATURES []

/-- `read_bd_addr`: host/mod.rs 1271-1273. -/
def readBdAddr : Ctl σ (Nb E) Unit := writeCommand H k opcode.READ_BD_ADDR []

/-- `read_rssi`: host/mod.rs 1275-1279. -/
def readRssi (h : ConnectionHandle) : Ctl σ (Nb E) Unit := do
  let params ← Ctl.lift (writeU16 (zeros 2) h.val)
  writeCommand H k opcode.READ_RSSI params

/-- `le_set_event_mask`: host/mod.rs 1281-1286. `LeEventFlags` is its bits. -/
def leSetEventMask (mask : UInt64) : Ctl σ (Nb E) Unit := do
  let params ← Ctl.lift (writeU64 (zeros 8) mask)
  writeCommand H k opcode.LE_SET_EVENT_MASK params

/-- `le_read_buffer_size`: host/mod.rs 1288-1290. -/
def leReadBufferSize : Ctl σ (Nb E) Unit := writeCommand H k opcode.LE_READ_BUFFER_SIZE []

/-- `le_read_local_supported_features`: host/mod.rs 1292-1294. -/
def leReadLocalSupportedFeatures : Ctl σ (Nb E) Unit :=
  writeCommand H k opcode.LE_READ_LOCAL_SUPPORTED_FEATURES []

/-- `le_set_random_address`: host/mod.rs 1296-1303. -/
def leSetRandomAddress (a : BdAddr) : Ctl σ (Nb (HostError E VS)) Unit := do
  Ctl.lift ((validateRandomAddress a).mapErr Nb.other)
  Ctl.mapErr rewrapAsComm (writeCommand H k opcode.LE_SET_RANDOM_ADDRESS a.val.val)

/-- `le_set_advertising_parameters`: host/mod.rs 1305-1315. -/
def leSetAdvertisingParameters (p : AdvertisingParameters) : Ctl σ (Nb (HostError E VS)) Unit := do
  let bytes ← Ctl.lift ((p.copyIntoSlice (zeros 15)).mapErr Nb.other)
  Ctl.mapErr rewrapAsComm (writeCommand H k opcode.LE_SET_ADVERTISING_PARAMETERS bytes)

/-- `le_read_advertising_channel_tx_power`: host/mod.rs 1317-1323. -/
def leReadAdvertisingChannelTxPower : Ctl σ (Nb E) Unit :=
  writeCommand H k opcode.LE_READ_ADVERTISING_CHANNEL_TX_POWER []

/-- `le_set_advertising_data`: host/mod.rs 1325-1331. -/
def leSetAdvertisingData (data : List UInt8) : Ctl σ (Nb (HostError E VS)) Unit :=
  setOutboundData H k opcode.LE_SET_ADVERTISING_DATA data

/-- `le_set_scan_response_data`: host/mod.rs 1333-1339. -/
def leSetScanResponseData (data : List UInt8) : Ctl σ (Nb (HostError E VS)) Unit :=
  setOutboundData H k opcode.LE_SET_SCAN_RESPONSE_DATA data

/-- `le_set_advertise_enable` (without `version-5-0`): host/mod.rs 1341-1348. -/
def leSetAdvertiseEnable (enable : Bool) : Ctl σ (Nb E) Unit :=
  writeCommand H k opcode.LE_SET_ADVERTISE_ENABLE [boolAsU8 enable]

/-- `le_set_advertising_enable` (with `version-5-0`): host/mod.rs 1350-1357. -/
def leSetAdvertisingEnable (enable : Bool) : Ctl σ (Nb E) Unit :=
  writeCommand H k opcode.LE_SET_ADVERTISE_ENABLE [boolAsU8 enable]

/-- `le_set_scan_parameters`: host/mod.rs 1359-1363. -/
def leSetScanParameters (p : ScanParameters) : Ctl σ (Nb E) Unit := do
  let bytes ← Ctl.lift (p.copyIntoSlice (zeros 7))
  writeCommand H k opcode.LE_SET_SCAN_PARAMETERS bytes

/-- `le_set_scan_enable`: host/mod.rs 1365-1371. -/
def leSetScanEnable (enable filterDuplicates : Bool) : Ctl σ (Nb E) Unit :=
  writeCommand H k opcode.LE_SET_SCAN_ENABLE [boolAsU8 enable, boolAsU8 filterDuplicates]

/-- `le_create_connection`: host/mod.rs 1373-1377. -/
def leCreateConnection (p : ConnectionParameters) : Ctl σ (Nb E) Unit := do
  let bytes ← Ctl.lift (p.copyIntoSlice (zeros 25))
  writeCommand H k opcode.LE_CREATE_CONNECTION bytes

/-- `le_create_connection_cancel`: host/mod.rs 1379-1381. -/
def leCreateConnectionCancel : Ctl σ (Nb E) Unit :=
  writeCommand H k opcode.LE_CREATE_CONNECTION_CANCEL []

/-- `le_read_white_list_size`: host/mod.rs 1383-1385. -/
def leReadWhiteListSize : Ctl σ (Nb E) Unit := writeCommand H k opcode.LE_READ_WHITE_LIST_SIZE []

/-- `le_clear_white_list`: host/mod.rs 1387-1389. -/
def leClearWhiteList : Ctl σ (Nb E) Unit := writeCommand H k opcode.LE_CLEAR_WHITE_LIST []

/-- `le_add_device_to_white_list`: host/mod.rs 1391-1395. -/
def leAddDeviceToWhiteList (a : BdAddrType) : Ctl σ (Nb E) Unit := do
  let params ← Ctl.lift (a.copyIntoSlice (zeros 7))
  writeCommand H k opcode.LE_ADD_DEVICE_TO_WHITE_LIST params

/-- `le_add_anon_advertising_devices_to_white_list` (with `version-5-0`): host/mod.rs 1397-1404. -/
def leAddAnonAdvertisingDevicesToWhiteList : Ctl σ (Nb E) Unit :=
  writeCommand H k opcode.LE_ADD_DEVICE_TO_WHITE_LIST [0xFF, 0, 0, 0, 0, 0, 0]

/-- `le_remove_device_from_white_list`: host/mod.rs 1406-1414. -/
def leRemoveDeviceFromWhiteList (a : BdAddrType) : Ctl σ (Nb E) Unit := do
  let params ← Ctl.lift (a.copyIntoSlice (zeros 7))
  writeCommand H k opcode.LE_REMOVE_DEVICE_FROM_WHITE_LIST params

/-- `le_remove_anon_advertising_devices_from_white_list` (with `version-5-0`): host/mod.rs 1416-1423. -/
def leRemoveAnonAdvertisingDevicesFromWhiteList : Ctl σ (Nb E) Unit :=
  writeCommand H k opcode.LE_REMOVE_DEVICE_FROM_WHITE_LIST [0xFF, 0, 0, 0, 0, 0, 0]

/-- `le_connection_update`: host/mod.rs 1425-1429. -/
def leConnectionUpdate (p : ConnectionUpdateParameters) : Ctl σ (Nb E) Unit := do
  let bytes ← Ctl.lift (p.copyIntoSlice (zeros 14))
  writeCommand H k opcode.LE_CONNECTION_UPDATE bytes

/-- `le_set_host_channel_classification`: host/mod.rs 1431-1447. -/
def leSetHostChannelClassification (ch : ChannelClassification) :
    Ctl σ (Nb (HostError E VS)) Unit := do
  if ch.isEmpty then Ctl.lift (.err (.other .noValidChannel))
  else do
    let bytes ← Ctl.lift (ch.copyIntoSlice (zeros 5))
    Ctl.mapErr rewrapAsComm (writeCommand H k opcode.LE_SET_HOST_CHANNEL_CLASSIFICATION bytes)

/-- `le_read_channel_map`: host/mod.rs 1449-1453. -/
def leReadChannelMap (h : ConnectionHandle) : Ctl σ (Nb E) Unit := do
  let bytes ← Ctl.lift (writeU16 (zeros 2) h.val)
  writeCommand H k opcode.LE_READ_CHANNEL_MAP bytes

/-- `le_read_remote_used_features`: host/mod.rs 1455-1459. -/
def leReadRemoteUsedFeatures (h : ConnectionHandle) : Ctl σ (Nb E) Unit := do
  let bytes ← Ctl.lift (writeU16 (zeros 2) h.val)
  writeCommand H k opcode.LE_READ_REMOTE_USED_FEATURES bytes

/-- `le_encrypt`: host/mod.rs 1461-1466. -/
def leEncrypt (p : AesParameters) : Ctl σ (Nb E) Unit := do
  let bytes ← Ctl.lift (copyRange (zeros 32) 0 16 p.key.val)
  let bytes ← Ctl.lift (copyRange bytes 16 bytes.length p.plaintextData.val)
  writeCommand H k opcode.LE_ENCRYPT bytes

/-- `le_rand`: host/mod.rs 1468-1470. -/
def leRand : Ctl σ (Nb E) Unit := writeCommand H k opcode.LE_RAND []

/-- `le_start_encryption`: host/mod.rs 1472-1479. -/
def leStartEncryption (p : EncryptionParameters) : Ctl σ (Nb E) Unit := do
  let bytes := zeros 28
  let bytes ← Ctl.lift (withRange bytes 0 bytes.length (fun s => writeU16 s p.connHandle.val))
  let bytes ← Ctl.lift (withRange bytes 2 bytes.length (fun s => writeU64 s p.randomNumber))
  let bytes ← Ctl.lift (withRange bytes 10 bytes.length (fun s => writeU16 s p.encryptedDiversifier))
  let bytes ← Ctl.lift (copyRange bytes 12 bytes.length p.longTermKey.val)
  writeCommand H k opcode.LE_START_ENCRYPTION bytes

/-- `le_long_term_key_request_reply`: host/mod.rs 1481-1490. -/
def leLongTermKeyRequestReply (h : ConnectionHandle) (key : Arr 16) : Ctl σ (Nb E) Unit := do
  let bytes := zeros 18
  let bytes ← Ctl.lift (withRange bytes 0 bytes.length (fun s => writeU16 s h.val))
  let bytes ← Ctl.lift (copyRange bytes 2 bytes.length key.val)
  writeCommand H k opcode.LE_LTK_REQUEST_REPLY bytes

/-- `le_long_term_key_request_negative_reply`: host/mod.rs 1492-1499. -/
def leLongTermKeyRequestNegativeReply (h : ConnectionHandle) : Ctl σ (Nb E) Unit := do
  let bytes := zeros 2
  let bytes ← Ctl.lift (withRange bytes 0 bytes.length (fun s => writeU16 s h.val))
  writeCommand H k opcode.LE_LTK_REQUEST_NEGATIVE_REPLY bytes

/-- `le_read_supported_states`: host/mod.rs 1501-1503. -/
def leReadSupportedStates : Ctl σ (Nb E) Unit := writeCommand H k opcode.LE_READ_STATES []

/-- `MAX_TEST_CHANNEL`: host/mod.rs 1544. -/
def MAX_TEST_CHANNEL : UInt8 := 0x27

/-- `le_receiver_test`: host/mod.rs 1505-1512. -/
def leReceiverTest (channel : UInt8) : Ctl σ (Nb (HostError E VS)) Unit := do
  if channel > MAX_TEST_CHANNEL then Ctl.lift (.err (.other (.invalidTestChannel channel)))
  else Ctl.mapErr rewrapAsComm (writeCommand H k opcode.LE_RECEIVER_TEST [channel])

/-- `le_transmitter_test`: host/mod.rs 1514-1537. -/
def leTransmitterTest (channel : UInt8) (payloadLength : Nat) (payload : TestPacketPayload) :
    Ctl σ (Nb (HostError E VS)) Unit := do
  if channel > MAX_TEST_CHANNEL then Ctl.lift (.err (.other (.invalidTestChannel channel)))
  else if payloadLength > 0x25 then
    Ctl.lift (.err (.other (.invalidTestPayloadLength payloadLength)))
  else
    Ctl.mapErr rewrapAsComm
      (writeCommand H k opcode.LE_TRANSMITTER_TEST
        [channel, UInt8.ofNat payloadLength, payload.asU8])

/-- `le_test_end`: host/mod.rs 1539-1541. -/
def leTestEnd : Ctl σ (Nb E) Unit := writeCommand H k opcode.LE_TEST_END []

end Hci

end

/-- A call of a method of `host::Hci` (host/mod.rs 66-1110) with its arguments; one constructor per method. -/
inductive Command (VS : Type) where
  | disconnect (h : ConnectionHandle) (reason : Status VS)
  | readRemoteVersionInformation (h : ConnectionHandle)
  | setEventMask (mask : UInt64)
  | reset
  | readTxPowerLevel (h : ConnectionHandle) (t : TxPowerLevel)
  | readLocalVersionInformation
  | readLocalSupportedCommands
  | readLocalSupportedFeatures
  | readBdAddr
  | readRssi (h : ConnectionHandle)
  | leSetEventMask (mask : UInt64)
  | leReadBufferSize
  | leReadLocalSupportedFeatures
  | leSetRandomAddress (a : BdAddr)
  | leSetAdvertisingParameters (p : AdvertisingParameters)
  | leReadAdvertisingChannelTxPower
  | leSetAdvertisingData (data : List UInt8)
  | leSetScanResponseData (data : List UInt8)
  | leSetAdvertiseEnable (enable : Bool)
  | leSetAdvertisingEnable (enable : Bool)
  | leSetScanParameters (p : ScanParameters)
  | leSetScanEnable (enable filterDuplicates : Bool)
  | leCreateConnection (p : ConnectionParameters)
  | leCreateConnectionCancel
  | leReadWhiteListSize
  | leClearWhiteList
  | leAddDeviceToWhiteList (a : BdAddrType)
  | leAddAnonAdvertisingDevicesToWhiteList
  | leRemoveDeviceFromWhiteList (a : BdAddrType)
  | leRemoveAnonAdvertisingDevicesFromWhiteList
  | leConnectionUpdate (p : ConnectionUpdateParameters)
  | leSetHostChannelClassification (ch : ChannelClassification)
  | leReadChannelMap (h : ConnectionHandle)
  | leReadRemoteUsedFeatures (h : ConnectionHandle)
  | leEncrypt (p : AesParameters)
  | leRand
  | leStartEncryption (p : EncryptionParameters)
  | leLongTermKeyRequestReply (h : ConnectionHandle) (key : Arr 16)
  | leLongTermKeyRequestNegativeReply (h : ConnectionHandle)
  | leReadSupportedStates
  | leReceiverTest (channel : UInt8)
  | leTransmitterTest (channel : UInt8) (payloadLength : Nat) (payload : TestPacketPayload)
  | leTestEnd
  deriving DecidableEq, Repr

/-- Run a method: host/mod.rs 1198-1542. The methods whose error type in Rust is the controller's own error `E`
are embedded by wrapping that error as `Comm`, so that all methods have one type; nothing else happens here. -/
def Command.exec {σ E VS : Type} (H : HciHeader) (k : Controller σ E) (vinto : VS → UInt8) :
    Command VS → Ctl σ (Nb (HostError E VS)) Unit
  | .disconnect h r => Hci.disconnect H k vinto h r
  | .readRemoteVersionInformation h => .mapErr rewrapAsComm (Hci.readRemoteVersionInformation H k h)
  | .setEventMask m => .mapErr rewrapAsComm (Hci.setEventMask H k m)
  | .reset => .mapErr rewrapAsComm (Hci.reset H k)
  | .readTxPowerLevel h t => .mapErr rewrapAsComm (Hci.readTxPowerLevel H k h t)
  | .readLocalVersionInformation => .mapErr rewrapAsComm (Hci.readLocalVersionInformation H k)
  | .readLocalSupportedCommands => .mapErr rewrapAsComm (Hci.readLocalSupportedCommands H k)
  | .readLocalSupportedFeatures => .mapErr rewrapAsComm (Hci.readLocalSupportedFeatures H k)
  | .readBdAddr => .mapErr rewrapAsComm (Hci.readBdAddr H k)
  | .readRssi h => .mapErr rewrapAsComm (Hci.readRssi H k h)
  | .leSetEventMask m => .mapErr rewrapAsComm (Hci.leSetEventMask H k m)
  | .leReadBufferSize => .mapErr rewrapAsComm (Hci.leReadBufferSize H k)
  | .leReadLocalSupportedFeatures => .mapErr rewrapAsComm (Hci.leReadLocalSupportedFeatures H k)
  | .leSetRandomAddress a => Hci.leSetRandomAddress H k a
  | .leSetAdvertisingParameters p => Hci.leSetAdvertisingParameters H k p
  | .leReadAdvertisingChannelTxPower =>
    .mapErr rewrapAsComm (Hci.leReadAdvertisingChannelTxPower H k)
  | .leSetAdvertisingData d => Hci.leSetAdvertisingData H k d
  | .leSetScanResponseData d => Hci.leSetScanResponseData H k d
  | .leSetAdvertiseEnable b => .mapErr rewrapAsComm (Hci.leSetAdvertiseEnable H k b)
  | .leSetAdvertisingEnable b => .mapErr rewrapAsComm (Hci.leSetAdvertisingEnable H k b)
  | .leSetScanParameters p => .mapErr rewrapAsComm (Hci.leSetScanParameters H k p)
  | .leSetScanEnable e f => .mapErr rewrapAsComm (Hci.leSetScanEnable H k e f)
  | .leCreateConnection p => .mapErr rewrapAsComm (Hci.leCreateConnection H k p)
  | .leCreateConnectionCancel => .mapErr rewrapAsComm (Hci.leCreateConnectionCancel H k)
  | .leReadWhiteListSize => .mapErr rewrapAsComm (Hci.leReadWhiteListSize H k)
  | .leClearWhiteList => .mapErr rewrapAsComm (Hci.leClearWhiteList H k)
  | .leAddDeviceToWhiteList a => .mapErr rewrapAsComm (Hci.leAddDeviceToWhiteList H k a)
  | .leAddAnonAdvertisingDevicesToWhiteList =>
    .mapErr rewrapAsComm (Hci.leAddAnonAdvertisingDevicesToWhiteList H k)
  | .leRemoveDeviceFromWhiteList a => .mapErr rewrapAsComm (Hci.leRemoveDeviceFromWhiteList H k a)
  | .leRemoveAnonAdvertisingDevicesFromWhiteList =>
    .mapErr rewrapAsComm (Hci.leRemoveAnonAdvertisingDevicesFromWhiteList H k)
  | .leConnectionUpdate p => .mapErr rewrapAsComm (Hci.leConnectionUpdate H k p)
  | .leSetHostChannelClassification ch => Hci.leSetHostChannelClassification H k ch
  | .leReadChannelMap h => .mapErr rewrapAsComm (Hci.leReadChannelMap H k h)
  | .leReadRemoteUsedFeatures h => .mapErr rewrapAsComm (Hci.leReadRemoteUsedFeatures H k h)
  | .leEncrypt p => .mapErr rewrapAsComm (Hci.leEncrypt H k p)
  | .leRand => .mapErr rewrapAsComm (Hci.leRand H k)
  | .leStartEncryption p => .mapErr rewrapAsComm (Hci.leStartEncryption H k p)
  | .leLongTermKeyRequestReply h key =>
    .mapErr rewrapAsComm (Hci.leLongTermKeyRequestReply H k h key)
  | .leLongTermKeyRequestNegativeReply h =>
    .mapErr rewrapAsComm (Hci.leLongTermKeyRequestNegativeReply H k h)
  | .leReadSupportedStates => .mapErr rewrapAsComm (Hci.leReadSupportedStates H k)
  | .leReceiverTest ch => Hci.leReceiverTest H k ch
  | .leTransmitterTest ch n p => Hci.leTransmitterTest H k ch n p
  | .leTestEnd => .mapErr rewrapAsComm (Hci.leTestEnd H k)

end Bt
