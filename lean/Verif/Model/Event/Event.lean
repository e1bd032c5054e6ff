import Verif.Model.Event.Command
import Verif.Model.Event.AdvReport

/-! # Model of the rest of `/repo/src/event/mod.rs`

Struct-literal fields are evaluated in source order. `self_convert!` (event/mod.rs 34-43) only ever sees
the one error its conversion produces, so each `TryFrom` is modelled together with it. -/

namespace Bt

/-- `LinkType`: event/mod.rs 382-388. -/
inductive LinkType where
  | sco
  | acl
  deriving DecidableEq, Repr

/-- `Encryption`: event/mod.rs 508-517. -/
inductive Encryption where
  | off
  | on
  | onAesCcmForBrEdr
  deriving DecidableEq, Repr

/-- `ConnectionRole`: event/mod.rs 836-846. -/
inductive ConnectionRole where
  | central
  | peripheral
  deriving DecidableEq, Repr

/-- `CentralClockAccuracy`: event/mod.rs 861-880. -/
inductive CentralClockAccuracy where
  | ppm500
  | ppm250
  | ppm150
  | ppm100
  | ppm75
  | ppm50
  | ppm30
  | ppm20
  deriving DecidableEq, Repr

/-- `Phy`: event/mod.rs 1277-1285. -/
inductive Phy where
  | le1M
  | le2M
  | leCoded
  deriving DecidableEq, Repr

section Conversions
variable {VE : Type}

/-- `TryFrom<u8> for LinkType`: event/mod.rs 395-405. -/
def LinkType.tryFrom (value : UInt8) : Res (EvError VE) LinkType :=
  match value with
  | 0 => .ok .sco
  | 1 => .ok .acl
  | _ => .err (.badLinkType value)

/-- `try_into_encryption_enabled`: event/mod.rs 427-433. -/
def tryIntoEncryptionEnabled (value : UInt8) : Res (EvError VE) Bool :=
  match value with
  | 0 => .ok false
  | 1 => .ok true
  | _ => .err (.badEncryptionEnabledValue value)

/-- `TryFrom<u8> for Encryption`: event/mod.rs 519-529. -/
def Encryption.tryFrom (value : UInt8) : Res (EvError VE) Encryption :=
  match value with
  | 0 => .ok .off
  | 1 => .ok .on
  | 2 => .ok .onAesCcmForBrEdr
  | _ => .err (.badEncryptionType value)

/-- `TryFrom<u8> for ConnectionRole`: event/mod.rs 848-857. -/
def ConnectionRole.tryFrom (value : UInt8) : Res (EvError VE) ConnectionRole :=
  match value with
  | 0 => .ok .central
  | 1 => .ok .peripheral
  | _ => .err (.badLeConnectionRole value)

/-- `TryFrom<u8> for CentralClockAccuracy`: event/mod.rs 882-897. -/
def CentralClockAccuracy.tryFrom (value : UInt8) : Res (EvError VE) CentralClockAccuracy :=
  match value with
  | 0 => .ok .ppm500
  | 1 => .ok .ppm250
  | 2 => .ok .ppm150
  | 3 => .ok .ppm100
  | 4 => .ok .ppm75
  | 5 => .ok .ppm50
  | 6 => .ok .ppm30
  | 7 => .ok .ppm20
  | _ => .err (.badLeCentralClockAccuracy value)

/-- `TryFrom<u8> for Phy`: event/mod.rs 1287-1298. -/
def Phy.tryFrom (value : UInt8) : Res (EvError VE) Phy :=
  match value with
  | 0 => .ok .le1M
  | 1 => .ok .le2M
  | 2 => .ok .leCoded
  | _ => .err (.badPhy value)

end Conversions

/-- `ConnectionComplete<VS>`: event/mod.rs 366-379. -/
structure ConnectionComplete (VS : Type) where
  status : Status VS
  connHandle : ConnectionHandle
  bdAddr : BdAddr
  linkType : LinkType
  encryptionEnabled : Bool
  deriving DecidableEq, Repr

/-- `DisconnectionComplete<VS>`: event/mod.rs 443-458. -/
structure DisconnectionComplete (VS : Type) where
  status : Status VS
  connHandle : ConnectionHandle
  reason : Status VS
  deriving DecidableEq, Repr

/-- `EncryptionChange<VS>`: event/mod.rs 481-496. -/
structure EncryptionChange (VS : Type) where
  status : Status VS
  connHandle : ConnectionHandle
  encryption : Encryption
  deriving DecidableEq, Repr

/-- `RemoteVersionInformation<VS>`: event/mod.rs 549-586. -/
structure RemoteVersionInformation (VS : Type) where
  status : Status VS
  connHandle : ConnectionHandle
  version : UInt8
  mfgrName : UInt16
  subversion : UInt16
  deriving DecidableEq, Repr

/-- `CommandStatus<VS>`: event/mod.rs 607-619. -/
structure CommandStatus (VS : Type) where
  status : Status VS
  numHciCommandPackets : UInt8
  opcode : Opcode
  deriving DecidableEq, Repr

/-- `HardwareError`: event/mod.rs 638-643. -/
structure HardwareError where
  code : UInt8
  deriving DecidableEq, Repr

/-- `NUMBER_OF_COMPLETED_PACKETS_MAX_LEN`: event/mod.rs 667. -/
def NUMBER_OF_COMPLETED_PACKETS_MAX_LEN : Nat := 254

/-- `NUM_COMPLETED_PACKETS_PAIR_LEN`: event/mod.rs 696. -/
def NUM_COMPLETED_PACKETS_PAIR_LEN : Nat := 4

/-- `NumberOfCompletedPackets`: event/mod.rs 656-663. -/
structure NumberOfCompletedPackets where
  numHandles : Nat
  dataBuf : Arr NUMBER_OF_COMPLETED_PACKETS_MAX_LEN
  deriving DecidableEq, Repr

/-- `NumberOfCompletedPacketsPair`: event/mod.rs 718-726. -/
structure NumberOfCompletedPacketsPair where
  connHandle : ConnectionHandle
  numCompletedPackets : Nat
  deriving DecidableEq, Repr

/-- `DataBufferOverflow`: event/mod.rs 748-752. -/
structure DataBufferOverflow where
  linkType : LinkType
  deriving DecidableEq, Repr

/-- `EncryptionKeyRefreshComplete<VS>`: event/mod.rs 780-786. -/
structure EncryptionKeyRefreshComplete (VS : Type) where
  status : Status VS
  connHandle : ConnectionHandle
  deriving DecidableEq, Repr

/-- `LeConnectionComplete<VS>`: event/mod.rs 812-833. -/
structure LeConnectionComplete (VS : Type) where
  status : Status VS
  connHandle : ConnectionHandle
  role : ConnectionRole
  peerBdAddr : BdAddrType
  connInterval : FixedConnectionInterval
  centralClockAccuracy : CentralClockAccuracy
  deriving DecidableEq, Repr

/-- `LeConnectionUpdateComplete<VS>`: event/mod.rs 1144-1155. -/
structure LeConnectionUpdateComplete (VS : Type) where
  status : Status VS
  connHandle : ConnectionHandle
  connInterval : FixedConnectionInterval
  deriving DecidableEq, Repr

/-- `LeReadRemoteUsedFeaturesComplete<VS>`: event/mod.rs 1181-1189; `LinkLayerFeature` is its bits. -/
structure LeReadRemoteUsedFeaturesComplete (VS : Type) where
  status : Status VS
  connHandle : ConnectionHandle
  features : UInt64
  deriving DecidableEq, Repr

/-- `LeLongTermKeyRequest`: event/mod.rs 1213-1221. -/
structure LeLongTermKeyRequest where
  connHandle : ConnectionHandle
  randomValue : UInt64
  encryptedDiversifier : UInt16
  deriving DecidableEq, Repr

/-- `LeDataLengthChangeEvent`: event/mod.rs 1240-1256. -/
structure LeDataLengthChangeEvent where
  connHandle : ConnectionHandle
  maxTxOctets : UInt16
  maxTxTime : UInt16
  maxRxOctets : UInt16
  maxRxTime : UInt16
  deriving DecidableEq, Repr

/-- `LePhyUpdateComplete<VS>`: event/mod.rs 1307-1317. -/
structure LePhyUpdateComplete (VS : Type) where
  connHandle : ConnectionHandle
  status : Status VS
  txPhy : Phy
  rxPhy : Phy
  deriving DecidableEq, Repr

/-- `Event<V>`: event/mod.rs 63-121. -/
inductive Event (VS VR VEv : Type) where
  | connectionComplete (e : ConnectionComplete VS)
  | disconnectionComplete (e : DisconnectionComplete VS)
  | encryptionChange (e : EncryptionChange VS)
  | readRemoteVersionInformationComplete (e : RemoteVersionInformation VS)
  | commandComplete (e : CommandComplete VS VR)
  | commandStatus (e : CommandStatus VS)
  | hardwareError (e : HardwareError)
  | numberOfCompletedPackets (e : NumberOfCompletedPackets)
  | dataBufferOverflow (e : DataBufferOverflow)
  | encryptionKeyRefreshComplete (e : EncryptionKeyRefreshComplete VS)
  | leConnectionComplete (e : LeConnectionComplete VS)
  | leAdvertisingReport (e : LeAdvertisingReport)
  | leConnectionUpdateComplete (e : LeConnectionUpdateComplete VS)
  | leReadRemoteUsedFeaturesComplete (e : LeReadRemoteUsedFeaturesComplete VS)
  | leLongTermKeyRequest (e : LeLongTermKeyRequest)
  | leDataLengthChangeEvent (e : LeDataLengthChangeEvent)
  | lePhyUpdateComplete (e : LePhyUpdateComplete VS)
  | vendor (e : VEv)
  deriving DecidableEq, Repr

/-- The event type of a vendor: `Event<V>`. -/
abbrev Vendor.Ev (V : Vendor) := Event V.VStatus V.VRet V.VEvent

/-- The error type of a vendor: `event::Error<V::Error>`. -/
abbrev Vendor.EvErr (V : Vendor) := EvError V.VErr

section Parsers
variable (c : Cfg) (V : Vendor)

/-- `to_connection_complete`: event/mod.rs 407-425. -/
def toConnectionComplete (payload : List UInt8) : Res V.EvErr (ConnectionComplete V.VStatus) := do
  requireLen payload 11
  let addr ← toArr 6 (← slice payload 3 9)
  let status ← tryStatus c V (← idx payload 0)
  let h ← readU16From payload 1
  let lt ← LinkType.tryFrom (← idx payload 9)
  let enc ← tryIntoEncryptionEnabled (← idx payload 10)
  .ok ⟨status, ⟨h⟩, ⟨addr⟩, lt, enc⟩

/-- `to_disconnection_complete`: event/mod.rs 460-471. -/
def toDisconnectionComplete (payload : List UInt8) :
    Res V.EvErr (DisconnectionComplete V.VStatus) := do
  requireLen payload 4
  let status ← tryStatus c V (← idx payload 0)
  let h ← readU16From payload 1
  let reason ← tryReason c V (← idx payload 3)
  .ok ⟨status, ⟨h⟩, reason⟩

/-- `to_encryption_change`: event/mod.rs 531-543. -/
def toEncryptionChange (payload : List UInt8) : Res V.EvErr (EncryptionChange V.VStatus) := do
  requireLen payload 4
  let status ← tryStatus c V (← idx payload 0)
  let h ← readU16From payload 1
  let enc ← Encryption.tryFrom (← idx payload 3)
  .ok ⟨status, ⟨h⟩, enc⟩

/-- `to_remote_version_info`: event/mod.rs 588-600. -/
def toRemoteVersionInfo (payload : List UInt8) :
    Res V.EvErr (RemoteVersionInformation V.VStatus) := do
  requireLen payload 8
  let status ← tryStatus c V (← idx payload 0)
  let h ← readU16From payload 1
  let version ← idx payload 3
  let mfgr ← readU16From payload 4
  let sub ← readU16From payload 6
  .ok ⟨status, ⟨h⟩, version, mfgr, sub⟩

/-- `to_command_status`: event/mod.rs 621-632. -/
def toCommandStatus (buffer : List UInt8) : Res V.EvErr (CommandStatus V.VStatus) := do
  requireLen buffer 4
  let status ← tryStatus c V (← idx buffer 0)
  let n ← idx buffer 1
  let op ← readU16From buffer 2
  .ok ⟨status, n, ⟨op⟩⟩

/-- `to_hardware_error`: event/mod.rs 645-648. -/
def toHardwareError (payload : List UInt8) : Res V.EvErr HardwareError := do
  requireLen payload 1
  let code ← idx payload 0
  .ok ⟨code⟩

/-- `to_number_of_completed_packets`: event/mod.rs 728-742. -/
def toNumberOfCompletedPackets (payload : List UInt8) :
    Res V.EvErr NumberOfCompletedPackets := do
  requireLenAtLeast payload 1
  let n ← idx payload 0
  let numPairs := n.toNat
  requireLen payload (1 + numPairs * NUM_COMPLETED_PACKETS_PAIR_LEN)
  let buf ← copyRange (Arr.zero NUMBER_OF_COMPLETED_PACKETS_MAX_LEN).val 0
    (numPairs * NUM_COMPLETED_PACKETS_PAIR_LEN) (← sliceFrom payload 1)
  let buf ← toArr NUMBER_OF_COMPLETED_PACKETS_MAX_LEN buf
  .ok ⟨numPairs, buf⟩

/-- `to_data_buffer_overflow`: event/mod.rs 754-761. -/
def toDataBufferOverflow (payload : List UInt8) : Res V.EvErr DataBufferOverflow := do
  requireLen payload 1
  let lt ← LinkType.tryFrom (← idx payload 0)
  .ok ⟨lt⟩

/-- `to_encryption_key_refresh_complete`: event/mod.rs 788-799. -/
def toEncryptionKeyRefreshComplete (payload : List UInt8) :
    Res V.EvErr (EncryptionKeyRefreshComplete V.VStatus) := do
  requireLen payload 3
  let status ← tryStatus c V (← idx payload 0)
  let h ← readU16From payload 1
  .ok ⟨status, ⟨h⟩⟩

/-- `to_le_connection_complete`: event/mod.rs 899-920. -/
def toLeConnectionComplete (payload : List UInt8) :
    Res V.EvErr (LeConnectionComplete V.VStatus) := do
  requireLen payload 19
  let addr ← toArr 6 (← slice payload 6 12)
  let status ← tryStatus c V (← idx payload 1)
  let h ← readU16From payload 2
  let role ← ConnectionRole.tryFrom (← idx payload 4)
  let peer ← (toBdAddrType (← idx payload 5) ⟨addr⟩).mapErr .badLeAddressType
  let interval ←
    (FixedConnectionInterval.fromBytes (← slice payload 12 18)).mapErr .badConnectionInterval
  let clock ← CentralClockAccuracy.tryFrom (← idx payload 18)
  .ok ⟨status, ⟨h⟩, role, peer, interval, clock⟩

/-- `to_le_connection_update_complete`: event/mod.rs 1157-1170. -/
def toLeConnectionUpdateComplete (payload : List UInt8) :
    Res V.EvErr (LeConnectionUpdateComplete V.VStatus) := do
  requireLen payload 10
  let status ← tryStatus c V (← idx payload 1)
  let h ← readU16From payload 2
  let interval ←
    (FixedConnectionInterval.fromBytes (← slice payload 4 10)).mapErr .badConnectionInterval
  .ok ⟨status, ⟨h⟩, interval⟩

/-- `to_le_read_remote_used_features_complete`: event/mod.rs 1191-1206. -/
def toLeReadRemoteUsedFeaturesComplete (payload : List UInt8) :
    Res V.EvErr (LeReadRemoteUsedFeaturesComplete V.VStatus) := do
  requireLen payload 12
  let flags ← readU64From payload 4
  let status ← tryStatus c V (← idx payload 1)
  let h ← readU16From payload 2
  match fromBits c linkLayerFeature flags with
  | some f => .ok ⟨status, ⟨h⟩, f⟩
  | none => .err (.badRemoteUsedFeatureFlag flags)

/-- `to_le_ltk_request`: event/mod.rs 1223-1231. -/
def toLeLtkRequest (payload : List UInt8) : Res V.EvErr LeLongTermKeyRequest := do
  requireLen payload 13
  let h ← readU16From payload 1
  let r ← readU64From payload 3
  let d ← readU16From payload 11
  .ok ⟨⟨h⟩, r, d⟩

/-- `to_le_data_length_change_event`: event/mod.rs 1258-1272. -/
def toLeDataLengthChangeEvent (payload : List UInt8) : Res V.EvErr LeDataLengthChangeEvent := do
  requireLen payload 11
  let h ← readU16From payload 1
  let txo ← readU16From payload 3
  let txt ← readU16From payload 5
  let rxo ← readU16From payload 7
  let rxt ← readU16From payload 9
  .ok ⟨⟨h⟩, txo, txt, rxo, rxt⟩

/-- `to_le_phy_update_complete`: event/mod.rs 1319-1331. -/
def toLePhyUpdateComplete (payload : List UInt8) :
    Res V.EvErr (LePhyUpdateComplete V.VStatus) := do
  requireLen payload 6
  let status ← tryStatus c V (← idx payload 1)
  let h ← readU16From payload 2
  let tx ← Phy.tryFrom (← idx payload 4)
  let rx ← Phy.tryFrom (← idx payload 5)
  .ok ⟨⟨h⟩, status, tx, rx⟩

/-- `to_le_meta_event`: event/mod.rs 332-359. -/
def toLeMetaEvent (payload : List UInt8) : Res V.EvErr V.Ev := do
  requireLenAtLeast payload 1
  let sub ← idx payload 0
  match sub with
  | 0x01 => do .ok (.leConnectionComplete (← toLeConnectionComplete c V payload))
  | 0x02 => do .ok (.leAdvertisingReport (← toLeAdvertisingReport payload))
  | 0x03 => do .ok (.leConnectionUpdateComplete (← toLeConnectionUpdateComplete c V payload))
  | 0x04 => do
    .ok (.leReadRemoteUsedFeaturesComplete (← toLeReadRemoteUsedFeaturesComplete c V payload))
  | 0x05 => do .ok (.leLongTermKeyRequest (← toLeLtkRequest V payload))
  | 0x07 => do .ok (.leDataLengthChangeEvent (← toLeDataLengthChangeEvent V payload))
  | 0x0C => do .ok (.lePhyUpdateComplete (← toLePhyUpdateComplete c V payload))
  | _ => .err (.unknownEvent sub)

/-- `PACKET_HEADER_LENGTH`: event/mod.rs 277. -/
def PACKET_HEADER_LENGTH : Nat := 2

/-- `EVENT_TYPE_BYTE`: event/mod.rs 278. -/
def EVENT_TYPE_BYTE : Nat := 0

/-- `PARAM_LEN_BYTE`: event/mod.rs 279. -/
def PARAM_LEN_BYTE : Nat := 1

/-- `Packet::full_length`: event/mod.rs 272-274. -/
def fullLength {ε : Type} (packet : List UInt8) : Res ε Nat := do
  let b ← idx packet PARAM_LEN_BYTE
  .ok (PACKET_HEADER_LENGTH + b.toNat)

/-- `Event::new`: event/mod.rs 298-329. -/
def Event.new (packet : List UInt8) : Res V.EvErr V.Ev := do
  requireLenAtLeast packet PACKET_HEADER_LENGTH
  requireLen packet (← fullLength packet)
  let eventType ← idx packet EVENT_TYPE_BYTE
  let payload ← slice packet PACKET_HEADER_LENGTH (← fullLength packet)
  match eventType with
  | 0x03 => do .ok (.connectionComplete (← toConnectionComplete c V payload))
  | 0x05 => do .ok (.disconnectionComplete (← toDisconnectionComplete c V payload))
  | 0x08 => do .ok (.encryptionChange (← toEncryptionChange c V payload))
  | 0x0C => do .ok (.readRemoteVersionInformationComplete (← toRemoteVersionInfo c V payload))
  | 0x0E => do .ok (.commandComplete (← CommandComplete.new c V payload))
  | 0x0F => do .ok (.commandStatus (← toCommandStatus c V payload))
  | 0x10 => do .ok (.hardwareError (← toHardwareError V payload))
  | 0x13 => do .ok (.numberOfCompletedPackets (← toNumberOfCompletedPackets V payload))
  | 0x1A => do .ok (.dataBufferOverflow (← toDataBufferOverflow V payload))
  | 0x30 => do
    .ok (.encryptionKeyRefreshComplete (← toEncryptionKeyRefreshComplete c V payload))
  | 0x3E => toLeMetaEvent c V payload
  | 0xFF => do .ok (.vendor (← V.eventNew payload))
  | _ => .err (.unknownEvent eventType)

end Parsers

/-- `NumberOfCompletedPacketsIterator::next`: event/mod.rs 701-713. `i` is `next_index`. -/
def NumberOfCompletedPackets.iterNext {ε : Type} (e : NumberOfCompletedPackets) (i : Nat) :
    Res ε (Option NumberOfCompletedPacketsPair × Nat) :=
  if e.numHandles * NUM_COMPLETED_PACKETS_PAIR_LEN ≤ i then .ok (none, i)
  else do
    let h ← readU16From e.dataBuf.val i
    let n ← readU16From e.dataBuf.val (i + 2)
    .ok (some ⟨⟨h⟩, n.toNat⟩, i + NUM_COMPLETED_PACKETS_PAIR_LEN)

theorem NumberOfCompletedPackets.iterNext_advances {ε : Type} {e : NumberOfCompletedPackets}
    {i j : Nat} {a : NumberOfCompletedPacketsPair}
    (h : e.iterNext (ε := ε) i = .ok (some a, j)) : i < e.numHandles * 4 ∧ j = i + 4 := by
  unfold iterNext at h
  split at h
  · simp at h
  · rename_i hn
    simp only [NUM_COMPLETED_PACKETS_PAIR_LEN] at h hn
    revert h
    cases readU16From (ε := ε) e.dataBuf.val i <;>
      simp only [Res.bind_ok, Res.bind_err, Res.bind_panic, reduceCtorEq, false_imp_iff]
    cases readU16From (ε := ε) e.dataBuf.val (i + 2) <;>
      simp only [Res.bind_ok, Res.bind_err, Res.bind_panic, reduceCtorEq, false_imp_iff]
    intro h
    simp only [Res.ok.injEq, Prod.mk.injEq] at h
    omega

/-- All the items that `for x in event.iter()` sees from index `i` on (the user's loop, not crate code):
calls `next` until it returns `None`. -/
def NumberOfCompletedPackets.iterFrom {ε : Type} (e : NumberOfCompletedPackets) (i : Nat) :
    Res ε (List NumberOfCompletedPacketsPair) :=
  match _h : e.iterNext (ε := ε) i with
  | .ok (none, _) => .ok []
  | .ok (some a, j) => do
    let rest ← iterFrom e j
    .ok (a :: rest)
  | .err x => .err x
  | .panic => .panic
termination_by e.numHandles * 4 - i
decreasing_by
  have := NumberOfCompletedPackets.iterNext_advances _h
  omega

/-- `event.iter()` (event/mod.rs 681-686) collected into a list. -/
def NumberOfCompletedPackets.iter {ε : Type} (e : NumberOfCompletedPackets) :
    Res ε (List NumberOfCompletedPacketsPair) := e.iterFrom 0

end Bt
