import Verif.Spec.Config
import Verif.Spec.FlagTables

/-! # Specification: which command packets a conforming controller accepts

Bluetooth specification, Vol 2, Part E, section 7: the number of parameter bytes of each command and the
ranges of the parameters. It is stated on the bytes of a packet and knows nothing of the crate. -/

namespace Spec

open Bt

/-- The number at byte `i`. -/
def byteAt (ps : List UInt8) (i : Nat) : Nat := (ps.getD i 0).toNat

/-- The 16-bit little-endian number at bytes `i` and `i + 1`. -/
def u16At (ps : List UInt8) (i : Nat) : Nat := byteAt ps i + 256 * byteAt ps (i + 1)

/-- Connection_Handle: 0x0000-0x0EFF. -/
def HandleAt (ps : List UInt8) (i : Nat) : Prop := u16At ps i ≤ 0x0EFF

/-- Own_Address_Type: 0 and 1, and 2 and 3 since 4.2. -/
def OwnAddressAt (c : Cfg) (ps : List UInt8) (i : Nat) : Prop :=
  byteAt ps i ≤ 1 ∨ (From42 c ∧ byteAt ps i ≤ 3)

/-- LE_Scan_Interval and LE_Scan_Window: 0x0004-0x4000, the window not above the interval. -/
def ScanAt (ps : List UInt8) (i : Nat) : Prop :=
  4 ≤ u16At ps (i + 2) ∧ u16At ps (i + 2) ≤ u16At ps i ∧ u16At ps i ≤ 0x4000

/-- Conn_Interval_Min, Conn_Interval_Max, Conn_Latency, Supervision_Timeout, Minimum_CE_Length and
Maximum_CE_Length. The supervision timeout in milliseconds (units of 10 ms) shall be larger than
(1 + Conn_Latency) * Conn_Interval_Max * 2 with the interval in milliseconds (units of 1.25 ms). -/
def ConnectionAt (ps : List UInt8) (i : Nat) : Prop :=
  6 ≤ u16At ps i ∧ u16At ps i ≤ u16At ps (i + 2) ∧ u16At ps (i + 2) ≤ 0x0C80 ∧
  u16At ps (i + 4) ≤ 0x01F3 ∧ 0x000A ≤ u16At ps (i + 6) ∧ u16At ps (i + 6) ≤ 0x0C80 ∧
  (1 + u16At ps (i + 4)) * (125 * u16At ps (i + 2)) * 2 < 1000 * u16At ps (i + 6) ∧
  u16At ps (i + 8) ≤ u16At ps (i + 10)

/-- The number of parameter bytes of the commands. -/
def paramCount (op : UInt16) : Option Nat :=
  if op ∈ ([0x0C03, 0x1001, 0x1002, 0x1003, 0x1009, 0x2002, 0x2003, 0x2007, 0x200E, 0x200F, 0x2010, 0x2018,
    0x201C, 0x201F] : List UInt16) then some 0
  else if op ∈ ([0x200A, 0x201D] : List UInt16) then some 1
  else if op ∈ ([0x041D, 0x1405, 0x200C, 0x2015, 0x2016, 0x201B] : List UInt16) then some 2
  else if op ∈ ([0x0406, 0x0C2D, 0x201E] : List UInt16) then some 3
  else if op = 0x2014 then some 5
  else if op = 0x2005 then some 6
  else if op ∈ ([0x200B, 0x2011, 0x2012] : List UInt16) then some 7
  else if op ∈ ([0x0C01, 0x2001] : List UInt16) then some 8
  else if op = 0x2013 then some 14
  else if op = 0x2006 then some 15
  else if op = 0x201A then some 18
  else if op = 0x200D then some 25
  else if op = 0x2019 then some 28
  else if op ∈ ([0x2008, 0x2009, 0x2017] : List UInt16) then some 32
  else none

/-- The ranges of the parameters. Commands that are not listed have no parameters or no restricted ones. -/
def RangesOk (c : Cfg) (op : UInt16) (ps : List UInt8) : Prop :=
  -- Disconnect
  (op = 0x0406 → HandleAt ps 0 ∧ byteAt ps 2 ∈ [0x05, 0x13, 0x14, 0x15, 0x1A, 0x29, 0x3B]) ∧
  -- Read Remote Version Information, Read RSSI, LE Read Channel Map, LE Read Remote Features, LE Start
  -- Encryption, LE Long Term Key Request Reply, LE Long Term Key Request Negative Reply
  (op ∈ ([0x041D, 0x1405, 0x2015, 0x2016, 0x2019, 0x201A, 0x201B] : List UInt16) → HandleAt ps 0) ∧
  -- Read Transmit Power Level
  (op = 0x0C2D → HandleAt ps 0 ∧ byteAt ps 2 ≤ 1) ∧
  -- LE Set Random Address
  (op = 0x2005 → ∃ h : ps.length = 6, ValidRandomAddress ⟨⟨ps, h⟩⟩) ∧
  -- LE Set Advertising Parameters; the intervals are not used by high duty cycle directed advertising, and
  -- were at least 100 ms for scannable and non-connectable advertising before 5.0
  (op = 0x2006 →
    (byteAt ps 4 ≠ 1 → 0x0020 ≤ u16At ps 0 ∧ u16At ps 0 ≤ u16At ps 2 ∧ u16At ps 2 ≤ 0x4000) ∧
    (c.v50 = false → byteAt ps 4 = 2 ∨ byteAt ps 4 = 3 → 0x00A0 ≤ u16At ps 0) ∧
    byteAt ps 4 ≤ 4 ∧ OwnAddressAt c ps 5 ∧ byteAt ps 6 ≤ 1 ∧
    1 ≤ byteAt ps 13 ∧ byteAt ps 13 ≤ 7 ∧ byteAt ps 14 ≤ 3) ∧
  -- LE Set Advertising Data, LE Set Scan Response Data
  (op = 0x2008 ∨ op = 0x2009 → byteAt ps 0 ≤ 31) ∧
  -- LE Set Advertising Enable
  (op = 0x200A → byteAt ps 0 ≤ 1) ∧
  -- LE Set Scan Parameters
  (op = 0x200B → byteAt ps 0 ≤ 1 ∧ ScanAt ps 1 ∧ OwnAddressAt c ps 5 ∧
    (byteAt ps 6 ≤ 1 ∨ (From42 c ∧ byteAt ps 6 ≤ 3))) ∧
  -- LE Set Scan Enable
  (op = 0x200C → byteAt ps 0 ≤ 1 ∧ byteAt ps 1 ≤ 1) ∧
  -- LE Create Connection
  (op = 0x200D → ScanAt ps 0 ∧ byteAt ps 4 ≤ 1 ∧ (byteAt ps 5 ≤ 1 ∨ (From42 c ∧ byteAt ps 5 ≤ 3)) ∧
    OwnAddressAt c ps 12 ∧ ConnectionAt ps 13) ∧
  -- LE Add Device To White List, LE Remove Device From White List; anonymous devices since 5.0
  (op = 0x2011 ∨ op = 0x2012 → byteAt ps 0 ≤ 1 ∨ (c.v50 = true ∧ byteAt ps 0 = 0xFF)) ∧
  -- LE Connection Update
  (op = 0x2013 → HandleAt ps 0 ∧ ConnectionAt ps 2) ∧
  -- LE Set Host Channel Classification: 37 channels, at least one of them usable
  (op = 0x2014 → (∃ b ∈ ps, b ≠ 0) ∧ byteAt ps 4 < 32) ∧
  -- LE Receiver Test
  (op = 0x201D → byteAt ps 0 ≤ 0x27) ∧
  -- LE Transmitter Test: up to 37 bytes, and up to 255 since 4.2
  (op = 0x201E → byteAt ps 0 ≤ 0x27 ∧ (byteAt ps 1 ≤ 0x25 ∨ From42 c) ∧ byteAt ps 2 ≤ 7) ∧
  -- Set Event Mask, LE Set Event Mask: reserved bits are zero
  (op = 0x0C01 → ∀ k < 64, HasBit ps (k / 8) (k % 8) → EventMaskBit k) ∧
  (op = 0x2001 → ∀ k < 64, HasBit ps (k / 8) (k % 8) → LeEventMaskBit c k)

/-- A command packet that a conforming controller does not reject for its parameters. -/
def Acceptable (c : Cfg) (op : UInt16) (ps : List UInt8) : Prop :=
  paramCount op = some ps.length ∧ RangesOk c op ps

/-! ## Arguments -/

/-- The value exists in configuration `c`: host/mod.rs 1810-1824. -/
def OwnAddressExists (c : Cfg) : OwnAddressType → Prop
  | .pub | .random => True
  | .privateFallbackPublic | .privateFallbackRandom => From42 c

/-- The value exists in configuration `c`: host/mod.rs 1908-1931. -/
def ScanFilterExists (c : Cfg) : ScanFilterPolicy → Prop
  | .acceptAll | .whiteList => True
  | .addressedToThisDevice | .whiteListAddressedToThisDevice => From42 c

/-- The value exists in configuration `c`: host/mod.rs 2017-2032. -/
def PeerAddressExists (c : Cfg) : PeerAddrType → Prop
  | .publicDeviceAddress _ | .randomDeviceAddress _ => True
  | .publicIdentityAddress _ | .randomIdentityAddress _ => From42 c

/-- The call can be written down in configuration `c`: the method exists, the values of the enumerations
exist, and flag sets have only declared flags, of which `Channels` has bits 0-2 (host/mod.rs 1826-1836),
`ChannelClassification` bits 0-36 (lib.rs 817-900), and `EventFlags` and `LeEventFlags` those listed by the
standard for the version (C55). -/
def Expressible {VS : Type} (c : Cfg) (cmd : Command VS) : Prop :=
  Command.Exists c cmd ∧
  match cmd with
  | .setEventMask m => ∀ k, m.toNat.testBit k = true → Declared64 c eventFlags k
  | .leSetEventMask m => ∀ k, m.toNat.testBit k = true → Declared64 c leEventFlags k
  | .leSetAdvertisingParameters p => OwnAddressExists c p.ownAddressType ∧ p.advertisingChannelMap.toNat ≤ 7
  | .leSetScanParameters p => OwnAddressExists c p.ownAddressType ∧ ScanFilterExists c p.filterPolicy
  | .leCreateConnection p => OwnAddressExists c p.ownAddressType ∧ PeerAddressExists c p.peerAddress
  | .leSetHostChannelClassification ch => byteAt ch.arr.val 4 < 32
  | _ => True

/-- The connection handles among the arguments are in the range of the standard. -/
def HandlesOk {VS : Type} : Command VS → Prop
  | .disconnect h _ | .readRemoteVersionInformation h | .readTxPowerLevel h _ | .readRssi h
  | .leReadChannelMap h | .leReadRemoteUsedFeatures h | .leLongTermKeyRequestReply h _
  | .leLongTermKeyRequestNegativeReply h => h.val.toNat ≤ 0x0EFF
  | .leConnectionUpdate p => p.connHandle.val.toNat ≤ 0x0EFF
  | .leStartEncryption p => p.connHandle.val.toNat ≤ 0x0EFF
  | _ => True

/-- Connection parameters that are still legal when cut off to the units of the wire: an interval of at least
8 ms, and a timeout that is long enough in whole units of 10 ms. -/
def LegalWhenWritten (x : ConnectionInterval) : Prop :=
  8 * ms ≤ x.intervalMin.ns ∧
    (1 + x.connLatency.toNat) * writtenInterval x.intervalMax.ns < 4 * units10ms x.supervisionTimeout.ns

/-- The intervals among the arguments for which the packet is legal. -/
def IntervalsOk {VS : Type} (c : Cfg) : Command VS → Prop
  | .leSetAdvertisingParameters p => c.v50 = false →
    p.advertisingInterval.advertisingType = .nonConnectableUndirected → 100 * ms ≤ p.advertisingInterval.min.ns
  | .leCreateConnection p => LegalWhenWritten p.connInterval
  | .leConnectionUpdate p => LegalWhenWritten p.connInterval
  | _ => True

end Spec
