import Verif.Model.Host.Read
import Verif.Model.Host.Commands
import Verif.Model.Types.Advertisement

/-! # The functions with arithmetic on `usize`, on a machine

The rest of the model computes with `usize` as with natural numbers. On a machine a `usize` has 16 bits or more,
and an operation whose result does not fit panics in a debug build and wraps around in a release build. This file
has the functions of the crate that add, multiply or subtract values of type `usize` which are not all constants,
and those that call them, with the operations of the machine, in the order of the source. -/

namespace Bt

/-- What the crate is compiled for: the width of `usize` (at least 16 bits by the definition of Rust) and whether
overflow is checked. -/
structure Target where
  bits : Nat
  checked : Bool
  atLeast16 : 16 ≤ bits

namespace Target
variable (t : Target) {ε : Type}

/-- The result of an operation as a `usize`. -/
def word (n : Nat) : Res ε Nat :=
  if n < 2 ^ t.bits then .ok n else if t.checked then .panic else .ok (n % 2 ^ t.bits)

/-- `a + b`. -/
def add (a b : Nat) : Res ε Nat := t.word (a + b)

/-- `a * b`. -/
def mul (a b : Nat) : Res ε Nat := t.word (a * b)

/-- `a - b`. -/
def sub (a b : Nat) : Res ε Nat :=
  if b ≤ a then .ok (a - b) else if t.checked then .panic else .ok (2 ^ t.bits + a - b)

/-- `buf[a..=b].copy_from_slice(src)`: the range ends before `b + 1`; `usize::MAX` as end of the range panics in
every build. -/
def copyInclusive (buf : List UInt8) (a b : Nat) (src : List UInt8) : Res ε (List UInt8) :=
  if b + 1 < 2 ^ t.bits then copyRange buf a (b + 1) src else .panic

/-! ## event/mod.rs -/

/-- `Packet::full_length`: event/mod.rs 272-274. -/
def fullLength (packet : List UInt8) : Res ε Nat := do
  let b ← idx packet PARAM_LEN_BYTE
  t.add PACKET_HEADER_LENGTH b.toNat

/-- `to_number_of_completed_packets`: event/mod.rs 728-742. -/
def toNumberOfCompletedPackets (V : Vendor) (payload : List UInt8) : Res V.EvErr NumberOfCompletedPackets := do
  requireLenAtLeast payload 1
  let n ← idx payload 0
  let numPairs := n.toNat
  requireLen payload (← t.add 1 (← t.mul numPairs NUM_COMPLETED_PACKETS_PAIR_LEN))
  let buf ← copyRange (Arr.zero NUMBER_OF_COMPLETED_PACKETS_MAX_LEN).val 0
    (← t.mul numPairs NUM_COMPLETED_PACKETS_PAIR_LEN) (← sliceFrom payload 1)
  let buf ← toArr NUMBER_OF_COMPLETED_PACKETS_MAX_LEN buf
  .ok ⟨numPairs, buf⟩

/-- `NumberOfCompletedPacketsIterator::next`: event/mod.rs 701-713. -/
def completedNext (e : NumberOfCompletedPackets) (i : Nat) :
    Res ε (Option NumberOfCompletedPacketsPair × Nat) := do
  let total ← t.mul e.numHandles NUM_COMPLETED_PACKETS_PAIR_LEN
  if total ≤ i then .ok (none, i)
  else do
    let next ← t.add i NUM_COMPLETED_PACKETS_PAIR_LEN
    let h ← readU16From e.dataBuf.val i
    let n ← readU16From e.dataBuf.val (← t.add i 2)
    .ok (some ⟨⟨h⟩, n.toNat⟩, next)

/-- `LeAdvertisingReportInnerIterator::next`: event/mod.rs 1025-1059. -/
def innerNext {VE : Type} (eventData : List UInt8) (i : Nat) :
    Res (EvError VE) (Option LeAdvertisement × Nat) :=
  if eventData.length ≤ i then .ok (none, i)
  else do
    let addrTypeIndex ← t.add i 1
    let addrIndex ← t.add addrTypeIndex 1
    let dataLenIndex ← t.add addrIndex 6
    let dataLen ← idx eventData dataLenIndex
    let dataStart ← t.add dataLenIndex 1
    let rssiIndex ← t.add dataStart dataLen.toNat
    let next ← t.add rssiIndex 1
    if eventData.length < next then .err .leAdvertisementReportIncomplete
    else
      let addr ← toArr 6 (← slice eventData addrIndex dataLenIndex)
      let eventType ← AdvertisementEvent.tryFrom (← idx eventData i)
      let address ← (toBdAddrType (← idx eventData addrTypeIndex) ⟨addr⟩).mapErr .badLeAddressType
      let data ← slice eventData dataStart rssiIndex
      let r ← idx eventData rssiIndex
      let rssi := if r.toInt8 = 127 then none else some r.toInt8
      .ok (some ⟨eventType, address, data, rssi⟩, next)

/-- `while let Some(_) = check_iter.next()? {}`: event/mod.rs 1119. A loop that does not move on, and so would not
end, is taken for a panic; that this does not happen is stated separately (`C94_steps`). -/
def checkLoop {VE : Type} (eventData : List UInt8) (i : Nat) : Res (EvError VE) Unit :=
  match t.innerNext (VE := VE) eventData i with
  | .ok (none, _) => .ok ()
  | .ok (some _, j) => if _h : i < j ∧ j ≤ eventData.length then checkLoop eventData j else .panic
  | .err e => .err e
  | .panic => .panic
termination_by eventData.length - i

/-- `to_le_advertising_report`: event/mod.rs 1113-1125. -/
def toLeAdvertisingReport {VE : Type} (payload : List UInt8) : Res (EvError VE) LeAdvertisingReport := do
  let eventData ← sliceFrom payload 2
  t.checkLoop eventData 0
  let dataLen ← t.sub payload.length 2
  let buf ← copyRange (Arr.zero MAX_ADVERTISING_REPORT_LEN).val 0 dataLen (← sliceFrom payload 2)
  let buf ← toArr MAX_ADVERTISING_REPORT_LEN buf
  .ok ⟨dataLen, buf⟩

/-- `LeAdvertisingReportIterator::next`: event/mod.rs 941-954 and 1015-1022. -/
def reportNext (r : LeAdvertisingReport) (i : Nat) : Res ε (Option LeAdvertisement × Nat) := do
  let eventData ← slice r.dataBuf.val 0 r.dataLen
  (t.innerNext (VE := Empty) eventData i).unwrap

/-- One iteration of the loop of `report_with_advertisements`: event/mod.rs 970-987. -/
def reportStep (dataLen : Nat) (buf : List UInt8) (a : LeAdvertisement) : Res ε (Nat × List UInt8) := do
  let eventTypeIndex := dataLen
  let addrIndex ← t.add 1 eventTypeIndex
  let dataLenIndex ← t.add 7 addrIndex
  let dataStartIndex ← t.add 1 dataLenIndex
  let rssiIndex ← t.add dataStartIndex a.data.length
  let buf ← setByte buf eventTypeIndex a.eventType.asU8
  let buf ← withRange buf addrIndex dataLenIndex (a.address.copyIntoSlice ·)
  let buf ← setByte buf dataLenIndex (UInt8.ofNat a.data.length)
  let buf ← copyRange buf dataStartIndex rssiIndex a.data
  let buf ← setByte buf rssiIndex (a.rssi.getD 127).toUInt8
  .ok (← t.add 1 rssiIndex, buf)

/-- The loop of `report_with_advertisements`: event/mod.rs 970-987. -/
def reportLoop : List LeAdvertisement → Nat → List UInt8 → Res ε (Nat × List UInt8)
  | [], dataLen, buf => .ok (dataLen, buf)
  | a :: as, dataLen, buf => do
    let (dataLen, buf) ← t.reportStep dataLen buf a
    reportLoop as dataLen buf

/-- `test_helpers::report_with_advertisements`: event/mod.rs 964-990. -/
def reportWithAdvertisements (as : List LeAdvertisement) : Res ε LeAdvertisingReport := do
  let (dataLen, buf) ← t.reportLoop as 0 (Arr.zero MAX_ADVERTISING_REPORT_LEN).val
  let buf ← toArr MAX_ADVERTISING_REPORT_LEN buf
  .ok ⟨dataLen, buf⟩

section
variable (c : Cfg) (V : Vendor)

/-- `to_le_meta_event`: event/mod.rs 332-359. -/
def toLeMetaEvent (payload : List UInt8) : Res V.EvErr V.Ev := do
  requireLenAtLeast payload 1
  let sub ← idx payload 0
  match sub with
  | 0x01 => do .ok (.leConnectionComplete (← toLeConnectionComplete c V payload))
  | 0x02 => do .ok (.leAdvertisingReport (← t.toLeAdvertisingReport payload))
  | 0x03 => do .ok (.leConnectionUpdateComplete (← toLeConnectionUpdateComplete c V payload))
  | 0x04 => do
    .ok (.leReadRemoteUsedFeaturesComplete (← toLeReadRemoteUsedFeaturesComplete c V payload))
  | 0x05 => do .ok (.leLongTermKeyRequest (← toLeLtkRequest V payload))
  | 0x07 => do .ok (.leDataLengthChangeEvent (← toLeDataLengthChangeEvent V payload))
  | 0x0C => do .ok (.lePhyUpdateComplete (← toLePhyUpdateComplete c V payload))
  | _ => .err (.unknownEvent sub)

/-- `Event::new`: event/mod.rs 298-329. -/
def newEvent (packet : List UInt8) : Res V.EvErr V.Ev := do
  requireLenAtLeast packet PACKET_HEADER_LENGTH
  requireLen packet (← t.fullLength packet)
  let eventType ← idx packet EVENT_TYPE_BYTE
  let payload ← slice packet PACKET_HEADER_LENGTH (← t.fullLength packet)
  match eventType with
  | 0x03 => do .ok (.connectionComplete (← toConnectionComplete c V payload))
  | 0x05 => do .ok (.disconnectionComplete (← toDisconnectionComplete c V payload))
  | 0x08 => do .ok (.encryptionChange (← toEncryptionChange c V payload))
  | 0x0C => do .ok (.readRemoteVersionInformationComplete (← toRemoteVersionInfo c V payload))
  | 0x0E => do .ok (.commandComplete (← CommandComplete.new c V payload))
  | 0x0F => do .ok (.commandStatus (← toCommandStatus c V payload))
  | 0x10 => do .ok (.hardwareError (← toHardwareError V payload))
  | 0x13 => do .ok (.numberOfCompletedPackets (← t.toNumberOfCompletedPackets V payload))
  | 0x1A => do .ok (.dataBufferOverflow (← toDataBufferOverflow V payload))
  | 0x30 => do
    .ok (.encryptionKeyRefreshComplete (← toEncryptionKeyRefreshComplete c V payload))
  | 0x3E => t.toLeMetaEvent c V payload
  | 0xFF => do .ok (.vendor (← V.eventNew payload))
  | _ => .err (.unknownEvent eventType)

/-! ## host/uart.rs and host/event_link.rs -/

variable {σ E : Type} (k : Controller σ E)

/-- `read_event`: host/uart.rs 97-120. -/
def uartReadEvent : Ctl σ (Nb (UartError E V.VErr)) V.Ev := do
  let paramLen ← Ctl.mapErr Uart.rewrapError (k.peek Uart.PARAM_LEN_BYTE)
  let buf := (Arr.zero (Uart.MAX_EVENT_LENGTH + Uart.EVENT_PACKET_HEADER_LENGTH)).val
  let n ← Ctl.lift (t.add Uart.EVENT_PACKET_HEADER_LENGTH paramLen.toNat)
  let _ ← Ctl.lift (slice buf 0 n)
  let got ← Ctl.mapErr Uart.rewrapError (k.readInto n)
  let buf ← Ctl.lift (copyRange buf 0 n got.val)
  let n ← Ctl.lift (t.add Uart.EVENT_PACKET_HEADER_LENGTH paramLen.toNat)
  let packet ← Ctl.lift (slice buf Uart.PACKET_HEADER_LENGTH n)
  Ctl.lift ((t.newEvent c V packet).mapErr (fun e => .other (.ble e)))

/-- `uart::Hci::read`: host/uart.rs 126-134. -/
def uartRead : Ctl σ (Nb (UartError E V.VErr)) (UartPacket V) := do
  let x ← Ctl.mapErr Uart.rewrapError (k.peek 0)
  if x = Uart.PACKET_TYPE_HCI_EVENT then do
    let e ← t.uartReadEvent c V k
    pure (.event e)
  else Ctl.lift (.err (.other (.badPacketType x)))

/-- `event_link::Hci::read`: host/event_link.rs 84-102. -/
def linkRead : Ctl σ (Nb (EventLinkError E V.VErr)) V.Ev := do
  let paramLen ← Ctl.mapErr EventLink.rewrapError (k.peek EventLink.PARAM_LEN_BYTE)
  let buf := (Arr.zero (EventLink.MAX_EVENT_LENGTH + EventLink.EVENT_HEADER_LENGTH)).val
  let n ← Ctl.lift (t.add EventLink.EVENT_HEADER_LENGTH paramLen.toNat)
  let _ ← Ctl.lift (slice buf 0 n)
  let got ← Ctl.mapErr EventLink.rewrapError (k.readInto n)
  let buf ← Ctl.lift (copyRange buf 0 n got.val)
  let n ← Ctl.lift (t.add EventLink.EVENT_HEADER_LENGTH paramLen.toNat)
  let packet ← Ctl.lift (slice buf 0 n)
  Ctl.lift ((t.newEvent c V packet).mapErr (fun e => .other (.ble e)))

end

/-! ## host/mod.rs -/

section
variable {σ E VS : Type} (H : HciHeader) (k : Controller σ E)

/-- `set_outbound_data`: host/mod.rs 1179-1196. -/
def setOutboundData (op : Opcode) (data : List UInt8) : Ctl σ (Nb (HostError E VS)) Unit := do
  if data.length > 31 then Ctl.lift (.err (.other (.advertisingDataTooLong data.length)))
  else do
    let params ← Ctl.lift (setByte (zeros 32) 0 (UInt8.ofNat data.length))
    let params ← Ctl.lift (t.copyInclusive params 1 data.length data)
    Ctl.mapErr rewrapAsComm (writeCommand H k op params)

end

/-- `pop_count_except_top_2_bits`: host/mod.rs 1740-1748. The sum, a `u32`, is at most 8 per byte. -/
def popCountExceptTop2Bits (bytes : List UInt8) : Res ε Nat := do
  let body ← slice bytes 0 (← t.sub bytes.length 1)
  let last ← idx bytes (← t.sub bytes.length 1)
  .ok (body.foldl (fun acc b => acc + popCountOf b) 0 + popCountOf (last &&& 0b00111111))

/-- `validate_random_address`: host/mod.rs 1726-1738. -/
def validateRandomAddress {E VS : Type} (a : BdAddr) : Res (HostError E VS) Unit := do
  let top ← idx a.val.val 5
  let kind := (top &&& 0b11000000) >>> 6
  let (popCount, bitCount) ←
    if kind = 0b00 ∨ kind = 0b11 then do
      let n ← t.popCountExceptTop2Bits (← sliceFrom a.val.val 0)
      .ok (n, 46)
    else if kind = 0b10 then do
      let n ← t.popCountExceptTop2Bits (← sliceFrom a.val.val 3)
      .ok (n, 22)
    else .err (.badRandomAddress a)
  if popCount = 0 ∨ popCount = bitCount then .err (.badRandomAddress a) else .ok ()

/-! ## types/advertisement.rs -/

/-- `Advertisement::len`: types/advertisement.rs 42-50. -/
def adLen (a : Advertisement) : Res ε Nat := do
  t.add 2 (← match a with
    | .completeLocalName n => .ok n.length
    | .serviceData16BitUuid _ b => t.add 2 b.length
    | .manufacturerSpecificData _ b => t.add 2 b.length
    | .serviceData32BitUuid _ b => t.add 4 b.length
    | .serviceData128BitUuid _ b => t.add 16 b.length)

/-- `Advertisement::copy_into_slice`: types/advertisement.rs 70-94. -/
def adCopyIntoSlice (a : Advertisement) (bytes : List UInt8) : Res ε (List UInt8 × Nat) := do
  let len ← t.adLen a
  let bytes ← setByte bytes 0 (UInt8.ofNat (← t.sub len 1))
  let bytes ← setByte bytes 1 a.getType.asU8
  let bytes ← match a with
    | .completeLocalName n => do copyRange bytes 2 (← t.add 2 n.length) n
    | .serviceData16BitUuid u b => do
      let bytes ← withRange bytes 2 bytes.length (fun s => writeU16 s u)
      copyRange bytes 4 (← t.add 4 b.length) b
    | .manufacturerSpecificData u b => do
      let bytes ← withRange bytes 2 bytes.length (fun s => writeU16 s u)
      copyRange bytes 4 (← t.add 4 b.length) b
    | .serviceData32BitUuid u b => do
      let bytes ← withRange bytes 2 bytes.length (fun s => writeU32 s u)
      copyRange bytes 6 (← t.add 6 b.length) b
    | .serviceData128BitUuid u b => do
      let bytes ← withRange bytes 2 bytes.length (fun s => writeU128 s u.val)
      copyRange bytes 18 (← t.add 18 b.length) b
  .ok (bytes, len)

end Target

end Bt
