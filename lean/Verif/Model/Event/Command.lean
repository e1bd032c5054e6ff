import Verif.Model.Event.Base

/-! # Model of `/repo/src/event/command.rs`

Struct-literal fields are evaluated in source order, as in Rust, so the first failing field decides the
error. `usize` values read from a `u8`/`u16` are natural numbers. -/

namespace Bt

/-- `TxPowerLevel<VS>`: event/command.rs 335-346. -/
structure TxPowerLevelRet (VS : Type) where
  status : Status VS
  connHandle : ConnectionHandle
  txPowerLevelDbm : Int8
  deriving DecidableEq, Repr

/-- `LocalVersionInfo<VS>`: event/command.rs 363-393. -/
structure LocalVersionInfo (VS : Type) where
  status : Status VS
  hciVersion : UInt8
  hciRevision : UInt16
  lmpVersion : UInt8
  manufacturerName : UInt16
  lmpSubversion : UInt16
  deriving DecidableEq, Repr

/-- `LocalSupportedCommands<VS>`: event/command.rs 416-422. -/
structure LocalSupportedCommands (VS : Type) where
  status : Status VS
  supportedCommands : CommandFlags
  deriving DecidableEq, Repr

/-- `LocalSupportedFeatures<VS>`: event/command.rs 1081-1087; `LmpFeatures` is its bits. -/
structure LocalSupportedFeatures (VS : Type) where
  status : Status VS
  supportedFeatures : UInt64
  deriving DecidableEq, Repr

/-- `ReadBdAddr<VS>`: event/command.rs 1220-1226. -/
structure ReadBdAddr (VS : Type) where
  status : Status VS
  bdAddr : BdAddr
  deriving DecidableEq, Repr

/-- `ReadRssi<VS>`: event/command.rs 1243-1264. -/
structure ReadRssi (VS : Type) where
  status : Status VS
  connHandle : ConnectionHandle
  rssi : Int8
  deriving DecidableEq, Repr

/-- `LeReadBufferSize<VS>`: event/command.rs 1280-1302. -/
structure LeReadBufferSize (VS : Type) where
  status : Status VS
  dataPacketLength : UInt16
  dataPacketCount : UInt8
  deriving DecidableEq, Repr

/-- `LeSupportedFeatures<VS>`: event/command.rs 1321-1327; `LeFeatures` is its bits. -/
structure LeSupportedFeatures (VS : Type) where
  status : Status VS
  supportedFeatures : UInt64
  deriving DecidableEq, Repr

/-- `LeAdvertisingChannelTxPower<VS>`: event/command.rs 1400-1408. -/
structure LeAdvertisingChannelTxPower (VS : Type) where
  status : Status VS
  power : Int8
  deriving DecidableEq, Repr

/-- `ChannelMapParameters<VS>`: event/command.rs 1441-1450. -/
structure ChannelMapParameters (VS : Type) where
  status : Status VS
  connHandle : ConnectionHandle
  channelMap : ChannelClassification
  deriving DecidableEq, Repr

/-- `EncryptedReturnParameters<VS>`: event/command.rs 1473-1488. -/
structure EncryptedReturnParameters (VS : Type) where
  status : Status VS
  encryptedData : Arr 16
  deriving DecidableEq, Repr

/-- `LeRandom<VS>`: event/command.rs 1514-1520. -/
structure LeRandom (VS : Type) where
  status : Status VS
  randomNumber : UInt64
  deriving DecidableEq, Repr

/-- `LeLongTermRequestReply<VS>`: event/command.rs 1537-1543. -/
structure LeLongTermRequestReply (VS : Type) where
  status : Status VS
  connHandle : ConnectionHandle
  deriving DecidableEq, Repr

/-- `LeReadSupportedStates<VS>`: event/command.rs 1562-1569; `LeStates` is its bits. -/
structure LeReadSupportedStates (VS : Type) where
  status : Status VS
  supportedStates : UInt64
  deriving DecidableEq, Repr

/-- `LeTestEnd<VS>`: event/command.rs 1680-1687. -/
structure LeTestEnd (VS : Type) where
  status : Status VS
  numberOfPackets : Nat
  deriving DecidableEq, Repr

/-- `ReturnParameters<V>`: event/command.rs 184-323. `leSetAdvertiseEnable` exists without
`version-5-0`, `leSetAdvertisingEnable` with it. -/
inductive ReturnParameters (VS VR : Type) where
  | spontaneous
  | setEventMask (s : Status VS)
  | reset (s : Status VS)
  | readTxPowerLevel (p : TxPowerLevelRet VS)
  | readLocalVersionInformation (p : LocalVersionInfo VS)
  | readLocalSupportedCommands (p : LocalSupportedCommands VS)
  | readLocalSupportedFeatures (p : LocalSupportedFeatures VS)
  | readBdAddr (p : ReadBdAddr VS)
  | readRssi (p : ReadRssi VS)
  | leSetEventMask (s : Status VS)
  | leReadBufferSize (p : LeReadBufferSize VS)
  | leReadLocalSupportedFeatures (p : LeSupportedFeatures VS)
  | leSetRandomAddress (s : Status VS)
  | leSetAdvertisingParameters (s : Status VS)
  | leReadAdvertisingChannelTxPower (p : LeAdvertisingChannelTxPower VS)
  | leSetAdvertisingData (s : Status VS)
  | leSetScanResponseData (s : Status VS)
  | leSetAdvertiseEnable (s : Status VS)
  | leSetAdvertisingEnable (s : Status VS)
  | leSetScanParameters (s : Status VS)
  | leSetScanEnable (s : Status VS)
  | leCreateConnectionCancel (s : Status VS)
  | leReadWhiteListSize (s : Status VS) (size : Nat)
  | leClearWhiteList (s : Status VS)
  | leAddDeviceToWhiteList (s : Status VS)
  | leRemoveDeviceFromWhiteList (s : Status VS)
  | leSetHostChannelClassification (s : Status VS)
  | leReadChannelMap (p : ChannelMapParameters VS)
  | leEncrypt (p : EncryptedReturnParameters VS)
  | leRand (p : LeRandom VS)
  | leLongTermKeyRequestReply (p : LeLongTermRequestReply VS)
  | leLongTermKeyRequestNegativeReply (p : LeLongTermRequestReply VS)
  | leReadSupportedStates (p : LeReadSupportedStates VS)
  | leReceiverTest (s : Status VS)
  | leTransmitterTest (s : Status VS)
  | leTestEnd (p : LeTestEnd VS)
  | vendor (r : VR)
  deriving DecidableEq, Repr

/-- `CommandComplete<V>`: event/command.rs 27-44. -/
structure CommandComplete (VS VR : Type) where
  numHciCommandPackets : UInt8
  returnParams : ReturnParameters VS VR
  deriving DecidableEq, Repr

section Parsers
variable (c : Cfg) (V : Vendor)

/-- `to_status`: event/command.rs 325-330. -/
def toStatus (bytes : List UInt8) : Res (EvError V.VErr) (Status V.VStatus) := do
  let b ← idx bytes 0
  tryStatus c V b

/-- `to_tx_power_level`: event/command.rs 348-358. -/
def toTxPowerLevel (bytes : List UInt8) : Res (EvError V.VErr) (TxPowerLevelRet V.VStatus) := do
  requireLen bytes 4
  let status ← toStatus c V bytes
  let connHandle ← readU16From bytes 1
  let p ← idx bytes 3
  .ok ⟨status, ⟨connHandle⟩, p.toInt8⟩

/-- `to_local_version_info`: event/command.rs 395-411. -/
def toLocalVersionInfo (bytes : List UInt8) : Res (EvError V.VErr) (LocalVersionInfo V.VStatus) := do
  requireLen bytes 9
  let status ← tryStatus c V (← idx bytes 0)
  let hciVersion ← idx bytes 1
  let hciRevision ← readU16From bytes 2
  let lmpVersion ← idx bytes 4
  let manufacturerName ← readU16From bytes 5
  let lmpSubversion ← readU16From bytes 7
  .ok ⟨status, hciVersion, hciRevision, lmpVersion, manufacturerName, lmpSubversion⟩

/-- `TryFrom<&[u8]> for CommandFlags` with the error re-wrapped by the caller: event/command.rs
1048-1055 and 1066-1074 (only `BadLength` and `BadCommandFlag` can occur, so the `unreachable!` is). -/
def tryCommandFlags {VE : Type} (value : List UInt8) : Res (EvError VE) CommandFlags := do
  requireLen value COMMAND_FLAGS_SIZE
  match ← BFlags.fromBits c commandFlags COMMAND_FLAGS_SIZE value with
  | some f => .ok f
  | none => .err .badCommandFlag

/-- `to_supported_commands`: event/command.rs 1057-1076. -/
def toSupportedCommands (bytes : List UInt8) :
    Res (EvError V.VErr) (LocalSupportedCommands V.VStatus) := do
  requireLen bytes (1 + COMMAND_FLAGS_SIZE)
  let status ← tryStatus c V (← idx bytes 0)
  let flags ← tryCommandFlags c (← slice bytes 1 (COMMAND_FLAGS_SIZE + 1))
  .ok ⟨status, flags⟩

/-- `to_supported_features`: event/command.rs 1205-1216. -/
def toSupportedFeatures (bytes : List UInt8) :
    Res (EvError V.VErr) (LocalSupportedFeatures V.VStatus) := do
  requireLen bytes 9
  let status ← toStatus c V bytes
  let bits ← readU64From bytes 1
  .ok ⟨status, fromBitsTruncate c lmpFeatures bits⟩

/-- `to_bd_addr`: event/command.rs 1228-1239. -/
def toBdAddr (bytes : List UInt8) : Res (EvError V.VErr) (ReadBdAddr V.VStatus) := do
  requireLen bytes 7
  let addr ← toArr 6 (← sliceFrom bytes 1)
  let status ← toStatus c V bytes
  .ok ⟨status, ⟨addr⟩⟩

/-- `to_read_rssi`: event/command.rs 1266-1276. -/
def toReadRssi (bytes : List UInt8) : Res (EvError V.VErr) (ReadRssi V.VStatus) := do
  requireLen bytes 4
  let status ← toStatus c V bytes
  let connHandle ← readU16From bytes 1
  let r ← idx bytes 3
  .ok ⟨status, ⟨connHandle⟩, r.toInt8⟩

/-- `to_le_read_buffer_status`: event/command.rs 1304-1316. -/
def toLeReadBufferStatus (bytes : List UInt8) :
    Res (EvError V.VErr) (LeReadBufferSize V.VStatus) := do
  requireLen bytes 4
  let status ← toStatus c V bytes
  let len ← readU16From bytes 1
  let count ← idx bytes 3
  .ok ⟨status, len, count⟩

/-- `to_le_local_supported_features`: event/command.rs 1384-1395. -/
def toLeLocalSupportedFeatures (bytes : List UInt8) :
    Res (EvError V.VErr) (LeSupportedFeatures V.VStatus) := do
  requireLen bytes 9
  let status ← toStatus c V bytes
  let bits ← readU64From bytes 1
  .ok ⟨status, fromBitsTruncate c leFeatures bits⟩

/-- `to_le_advertising_channel_tx_power`: event/command.rs 1410-1421. -/
def toLeAdvertisingChannelTxPower (bytes : List UInt8) :
    Res (EvError V.VErr) (LeAdvertisingChannelTxPower V.VStatus) := do
  requireLen bytes 2
  let status ← toStatus c V bytes
  let p ← idx bytes 1
  .ok ⟨status, p.toInt8⟩

/-- `to_le_set_advertise_enable`: event/command.rs 1423-1437, one definition per configuration. -/
def toLeSetAdvertiseEnable (status : Status V.VStatus) : ReturnParameters V.VStatus V.VRet :=
  if c.v50 then .leSetAdvertisingEnable status else .leSetAdvertiseEnable status

/-- `to_le_channel_map_parameters`: event/command.rs 1452-1469. -/
def toLeChannelMapParameters (bytes : List UInt8) :
    Res (EvError V.VErr) (ChannelMapParameters V.VStatus) := do
  requireLen bytes 8
  let channelBits ← toArr 5 (← slice bytes 3 8)
  let status ← toStatus c V (← sliceFrom bytes 0)
  let connHandle ← readU16From bytes 1
  match ← BFlags.fromBits c channelClassification 5 (← sliceFrom bytes 3) with
  | some m => .ok ⟨status, ⟨connHandle⟩, m⟩
  | none => .err (.invalidChannelMap channelBits)

/-- `to_le_encrypted_data`: event/command.rs 1496-1510. -/
def toLeEncryptedData (bytes : List UInt8) :
    Res (EvError V.VErr) (EncryptedReturnParameters V.VStatus) := do
  requireLen bytes 17
  let block ← toArr 16 (← sliceFrom bytes 1)
  let status ← toStatus c V bytes
  .ok ⟨status, block⟩

/-- `to_random_number`: event/command.rs 1522-1532. -/
def toRandomNumber (bytes : List UInt8) : Res (EvError V.VErr) (LeRandom V.VStatus) := do
  requireLen bytes 9
  let status ← toStatus c V bytes
  let r ← readU64From bytes 1
  .ok ⟨status, r⟩

/-- `to_le_ltk_request_reply`: event/command.rs 1545-1557. -/
def toLeLtkRequestReply (bytes : List UInt8) :
    Res (EvError V.VErr) (LeLongTermRequestReply V.VStatus) := do
  requireLen bytes 3
  let status ← toStatus c V bytes
  let connHandle ← readU16From bytes 1
  .ok ⟨status, ⟨connHandle⟩⟩

/-- `to_le_read_states`: event/command.rs 1662-1676. -/
def toLeReadStates (bytes : List UInt8) :
    Res (EvError V.VErr) (LeReadSupportedStates V.VStatus) := do
  requireLen bytes 9
  let bitfield ← readU64From bytes 1
  let status ← toStatus c V bytes
  match fromBits c leStates bitfield with
  | some s => .ok ⟨status, s⟩
  | none => .err (.invalidLeStates bitfield)

/-- `to_le_test_end`: event/command.rs 1689-1699. -/
def toLeTestEnd (bytes : List UInt8) : Res (EvError V.VErr) (LeTestEnd V.VStatus) := do
  requireLen bytes 3
  let status ← toStatus c V bytes
  let n ← readU16From bytes 1
  .ok ⟨status, n.toNat⟩

/-- The `match` on the opcode in `CommandComplete::new`: event/command.rs 65-173. The constant patterns
are compared in source order. -/
def returnParams (op : Opcode) (bytes : List UInt8) :
    Res (EvError V.VErr) (ReturnParameters V.VStatus V.VRet) :=
  if op = ⟨0x0000⟩ then .ok .spontaneous
  else if op = opcode.SET_EVENT_MASK then do
    .ok (.setEventMask (← toStatus c V (← sliceFrom bytes 3)))
  else if op = opcode.RESET then do
    .ok (.reset (← toStatus c V (← sliceFrom bytes 3)))
  else if op = opcode.READ_TX_POWER_LEVEL then do
    .ok (.readTxPowerLevel (← toTxPowerLevel c V (← sliceFrom bytes 3)))
  else if op = opcode.READ_LOCAL_VERSION_INFO then do
    .ok (.readLocalVersionInformation (← toLocalVersionInfo c V (← sliceFrom bytes 3)))
  else if op = opcode.READ_LOCAL_SUPPORTED_COMMANDS then do
    .ok (.readLocalSupportedCommands (← toSupportedCommands c V (← sliceFrom bytes 3)))
  else if op = opcode.READ_LOCAL_SUPPORTED_FEATURES then do
    .ok (.readLocalSupportedFeatures (← toSupportedFeatures c V (← sliceFrom bytes 3)))
  else if op = opcode.READ_BD_ADDR then do
    .ok (.readBdAddr (← toBdAddr c V (← sliceFrom bytes 3)))
  else if op = opcode.READ_RSSI then do
    .ok (.readRssi (← toReadRssi c V (← sliceFrom bytes 3)))
  else if op = opcode.LE_SET_EVENT_MASK then do
    .ok (.leSetEventMask (← toStatus c V (← sliceFrom bytes 3)))
  else if op = opcode.LE_READ_BUFFER_SIZE then do
    .ok (.leReadBufferSize (← toLeReadBufferStatus c V (← sliceFrom bytes 3)))
  else if op = opcode.LE_READ_LOCAL_SUPPORTED_FEATURES then do
    .ok (.leReadLocalSupportedFeatures (← toLeLocalSupportedFeatures c V (← sliceFrom bytes 3)))
  else if op = opcode.LE_SET_RANDOM_ADDRESS then do
    .ok (.leSetRandomAddress (← toStatus c V (← sliceFrom bytes 3)))
  else if op = opcode.LE_SET_ADVERTISING_PARAMETERS then do
    .ok (.leSetAdvertisingParameters (← toStatus c V (← sliceFrom bytes 3)))
  else if op = opcode.LE_READ_ADVERTISING_CHANNEL_TX_POWER then do
    .ok (.leReadAdvertisingChannelTxPower
      (← toLeAdvertisingChannelTxPower c V (← sliceFrom bytes 3)))
  else if op = opcode.LE_SET_ADVERTISING_DATA then do
    .ok (.leSetAdvertisingData (← toStatus c V (← sliceFrom bytes 3)))
  else if op = opcode.LE_SET_SCAN_RESPONSE_DATA then do
    .ok (.leSetScanResponseData (← toStatus c V (← sliceFrom bytes 3)))
  else if op = opcode.LE_SET_ADVERTISE_ENABLE then do
    .ok (toLeSetAdvertiseEnable c V (← toStatus c V (← sliceFrom bytes 3)))
  else if op = opcode.LE_SET_SCAN_PARAMETERS then do
    .ok (.leSetScanParameters (← toStatus c V (← sliceFrom bytes 3)))
  else if op = opcode.LE_SET_SCAN_ENABLE then do
    .ok (.leSetScanEnable (← toStatus c V (← sliceFrom bytes 3)))
  else if op = opcode.LE_CREATE_CONNECTION_CANCEL then do
    .ok (.leCreateConnectionCancel (← toStatus c V (← sliceFrom bytes 3)))
  else if op = opcode.LE_READ_WHITE_LIST_SIZE then do
    let s ← toStatus c V (← sliceFrom bytes 3)
    let n ← idx bytes 4
    .ok (.leReadWhiteListSize s n.toNat)
  else if op = opcode.LE_CLEAR_WHITE_LIST then do
    .ok (.leClearWhiteList (← toStatus c V (← sliceFrom bytes 3)))
  else if op = opcode.LE_ADD_DEVICE_TO_WHITE_LIST then do
    .ok (.leAddDeviceToWhiteList (← toStatus c V (← sliceFrom bytes 3)))
  else if op = opcode.LE_REMOVE_DEVICE_FROM_WHITE_LIST then do
    .ok (.leRemoveDeviceFromWhiteList (← toStatus c V (← sliceFrom bytes 3)))
  else if op = opcode.LE_SET_HOST_CHANNEL_CLASSIFICATION then do
    .ok (.leSetHostChannelClassification (← toStatus c V (← sliceFrom bytes 3)))
  else if op = opcode.LE_READ_CHANNEL_MAP then do
    .ok (.leReadChannelMap (← toLeChannelMapParameters c V (← sliceFrom bytes 3)))
  else if op = opcode.LE_ENCRYPT then do
    .ok (.leEncrypt (← toLeEncryptedData c V (← sliceFrom bytes 3)))
  else if op = opcode.LE_RAND then do
    .ok (.leRand (← toRandomNumber c V (← sliceFrom bytes 3)))
  else if op = opcode.LE_LTK_REQUEST_REPLY then do
    .ok (.leLongTermKeyRequestReply (← toLeLtkRequestReply c V (← sliceFrom bytes 3)))
  else if op = opcode.LE_LTK_REQUEST_NEGATIVE_REPLY then do
    .ok (.leLongTermKeyRequestNegativeReply (← toLeLtkRequestReply c V (← sliceFrom bytes 3)))
  else if op = opcode.LE_READ_STATES then do
    .ok (.leReadSupportedStates (← toLeReadStates c V (← sliceFrom bytes 3)))
  else if op = opcode.LE_RECEIVER_TEST then do
    .ok (.leReceiverTest (← toStatus c V (← sliceFrom bytes 3)))
  else if op = opcode.LE_TRANSMITTER_TEST then do
    .ok (.leTransmitterTest (← toStatus c V (← sliceFrom bytes 3)))
  else if op = opcode.LE_TEST_END then do
    .ok (.leTestEnd (← toLeTestEnd c V (← sliceFrom bytes 3)))
  else if op.ogf ≠ 0x3F then .err (.unknownOpcode op)
  else do
    .ok (.vendor (← V.retNew bytes))

/-- `CommandComplete::new`: event/command.rs 62-178. -/
def CommandComplete.new (bytes : List UInt8) :
    Res (EvError V.VErr) (CommandComplete V.VStatus V.VRet) := do
  requireLenAtLeast bytes 3
  let op ← readU16From bytes 1
  let params ← Bt.returnParams c V ⟨op⟩ bytes
  let n ← idx bytes 0
  .ok ⟨n, params⟩

end Parsers

end Bt
