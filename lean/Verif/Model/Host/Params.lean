import Verif.Model.Status
import Verif.Model.BitflagArray
import Verif.Model.Types.ConnectionInterval
import Verif.Model.Types.ScanWindow
import Verif.Model.Types.AdvertisingInterval
import Verif.Model.Types.ExpectedConnectionLength

/-! # Parameter types of the commands: host/mod.rs 1112-1155 and 1652-2186

Enum variants gated by a Cargo feature are part of the model's type; in a configuration without the
feature they do not exist. -/

namespace Bt

/-- `host::Error<E, VS>`: host/mod.rs 1114-1155. `Channels` is its bits. -/
inductive HostError (E VS : Type) where
  | badDisconnectionReason (s : Status VS)
  | badRandomAddress (a : BdAddr)
  | badChannelMap (bits : UInt8)
  | advertisingDataTooLong (n : Nat)
  | badConnectionLengthRange (min max : Duration)
  | noValidChannel
  | invalidTestChannel (b : UInt8)
  | invalidTestPayloadLength (n : Nat)
  | comm (e : E)
  deriving DecidableEq, Repr

/-- `rewrap_as_comm`: host/mod.rs 1157-1162. -/
def rewrapAsComm {E VS : Type} : Nb E → Nb (HostError E VS)
  | .wouldBlock => .wouldBlock
  | .other e => .other (.comm e)

/-- `TxPowerLevel`: host/mod.rs 1656-1663. -/
inductive TxPowerLevel where
  | current
  | maximum
  deriving DecidableEq, Repr

/-- `as u8`: host/mod.rs 1660-1662. -/
def TxPowerLevel.asU8 : TxPowerLevel → UInt8
  | .current => 0x00
  | .maximum => 0x01

/-- `OwnAddressType`: host/mod.rs 1808-1824. The last two exist with `version-4-2` or `version-5-0`. -/
inductive OwnAddressType where
  | pub
  | random
  | privateFallbackPublic
  | privateFallbackRandom
  deriving DecidableEq, Repr

/-- `as u8`: host/mod.rs 1812-1823. -/
def OwnAddressType.asU8 : OwnAddressType → UInt8
  | .pub => 0x00
  | .random => 0x01
  | .privateFallbackPublic => 0x02
  | .privateFallbackRandom => 0x03

/-- `AdvertisingFilterPolicy`: host/mod.rs 1847-1861. -/
inductive AdvertisingFilterPolicy where
  | allowConnectionAndScan
  | allowConnectionWhiteListScan
  | whiteListConnectionAllowScan
  | whiteListConnectionAndScan
  deriving DecidableEq, Repr

/-- `as u8`: host/mod.rs 1852-1860. -/
def AdvertisingFilterPolicy.asU8 : AdvertisingFilterPolicy → UInt8
  | .allowConnectionAndScan => 0x00
  | .allowConnectionWhiteListScan => 0x01
  | .whiteListConnectionAllowScan => 0x02
  | .whiteListConnectionAndScan => 0x03

/-- `ScanType`: host/mod.rs 1894-1901. -/
inductive ScanType where
  | passive
  | active
  deriving DecidableEq, Repr

/-- `as u8`: host/mod.rs 1898-1900. -/
def ScanType.asU8 : ScanType → UInt8
  | .passive => 0x00
  | .active => 0x01

/-- `ScanFilterPolicy`: host/mod.rs 1906-1931. The last two exist with `version-4-2` or `version-5-0`. -/
inductive ScanFilterPolicy where
  | acceptAll
  | whiteList
  | addressedToThisDevice
  | whiteListAddressedToThisDevice
  deriving DecidableEq, Repr

/-- `as u8`: host/mod.rs 1911-1930. -/
def ScanFilterPolicy.asU8 : ScanFilterPolicy → UInt8
  | .acceptAll => 0x00
  | .whiteList => 0x01
  | .addressedToThisDevice => 0x02
  | .whiteListAddressedToThisDevice => 0x03

/-- `ConnectionFilterPolicy`: host/mod.rs 2002-2012. -/
inductive ConnectionFilterPolicy where
  | useAddress
  | whiteList
  deriving DecidableEq, Repr

/-- `as u8`: host/mod.rs 2007-2011. -/
def ConnectionFilterPolicy.asU8 : ConnectionFilterPolicy → UInt8
  | .useAddress => 0x00
  | .whiteList => 0x01

/-- `PeerAddrType`: host/mod.rs 2016-2032. The last two exist with `version-4-2` or `version-5-0`. -/
inductive PeerAddrType where
  | publicDeviceAddress (a : BdAddr)
  | randomDeviceAddress (a : BdAddr)
  | publicIdentityAddress (a : BdAddr)
  | randomIdentityAddress (a : BdAddr)
  deriving DecidableEq, Repr

/-- `PeerAddrType::copy_into_slice`: host/mod.rs 2061-2081; the version for other configurations
(2041-2053) is the same without the arms for the variants that do not exist there. -/
def PeerAddrType.copyIntoSlice {ε : Type} (t : PeerAddrType) (bytes : List UInt8) :
    Res ε (List UInt8) := do
  Res.assert (bytes.length == 7)
  match t with
  | .publicDeviceAddress a => do
    let bytes ← setByte bytes 0 0x00
    copyRange bytes 1 7 a.val.val
  | .randomDeviceAddress a => do
    let bytes ← setByte bytes 0 0x01
    copyRange bytes 1 7 a.val.val
  | .publicIdentityAddress a => do
    let bytes ← setByte bytes 0 0x02
    copyRange bytes 1 7 a.val.val
  | .randomIdentityAddress a => do
    let bytes ← setByte bytes 0 0x03
    copyRange bytes 1 7 a.val.val

/-- `TestPacketPayload`: host/mod.rs 2167-2186. -/
inductive TestPacketPayload where
  | prbS9
  | nibbles10
  | bits10
  | prbS15
  | all1
  | all0
  | nibbles01
  | bits01
  deriving DecidableEq, Repr

/-- `as u8`: host/mod.rs 2171-2185. -/
def TestPacketPayload.asU8 : TestPacketPayload → UInt8
  | .prbS9 => 0x00
  | .nibbles10 => 0x01
  | .bits10 => 0x02
  | .prbS15 => 0x03
  | .all1 => 0x04
  | .all0 => 0x05
  | .nibbles01 => 0x06
  | .bits01 => 0x07

/-- `pop_count_of`: host/mod.rs 1750-1752 (`u8::count_ones`). -/
def popCountOf (b : UInt8) : Nat :=
  ((List.range 8).filter (fun i => b.toNat.testBit i)).length

/-- `pop_count_except_top_2_bits`: host/mod.rs 1740-1748. -/
def popCountExceptTop2Bits {ε : Type} (bytes : List UInt8) : Res ε Nat := do
  let body ← slice bytes 0 (bytes.length - 1)
  let last ← idx bytes (bytes.length - 1)
  .ok (body.foldl (fun acc b => acc + popCountOf b) 0 + popCountOf (last &&& 0b00111111))

/-- `validate_random_address`: host/mod.rs 1726-1738. -/
def validateRandomAddress {E VS : Type} (a : BdAddr) : Res (HostError E VS) Unit := do
  let top ← idx a.val.val 5
  let kind := (top &&& 0b11000000) >>> 6
  let (popCount, bitCount) ←
    if kind = 0b00 ∨ kind = 0b11 then do
      let n ← popCountExceptTop2Bits (← sliceFrom a.val.val 0)
      .ok (n, 46)
    else if kind = 0b10 then do
      let n ← popCountExceptTop2Bits (← sliceFrom a.val.val 3)
      .ok (n, 22)
    else .err (.badRandomAddress a)
  if popCount = 0 ∨ popCount = bitCount then .err (.badRandomAddress a) else .ok ()

/-- `AdvertisingParameters`: host/mod.rs 1756-1787. `Channels` is its bits. -/
structure AdvertisingParameters where
  advertisingInterval : AdvertisingInterval
  ownAddressType : OwnAddressType
  peerAddress : BdAddrType
  advertisingChannelMap : UInt8
  advertisingFilterPolicy : AdvertisingFilterPolicy
  deriving DecidableEq, Repr

/-- `impl Default for Channels`: host/mod.rs 1838-1842; the 64-bit union of the flags, as a `u8`. -/
def channelsDefault (c : Cfg) : UInt8 := (allBits c channels).toUInt8

/-- `AdvertisingParameters::copy_into_slice`: host/mod.rs 1790-1804. -/
def AdvertisingParameters.copyIntoSlice {E VS : Type} (p : AdvertisingParameters)
    (bytes : List UInt8) : Res (HostError E VS) (List UInt8) := do
  Res.assert (bytes.length == 15)
  if p.advertisingChannelMap = 0 then .err (.badChannelMap p.advertisingChannelMap)
  else do
    let bytes ← withRange bytes 0 5 (p.advertisingInterval.copyIntoSlice ·)
    let bytes ← setByte bytes 5 p.ownAddressType.asU8
    let bytes ← withRange bytes 6 13 (p.peerAddress.copyIntoSlice ·)
    let bytes ← setByte bytes 13 p.advertisingChannelMap
    setByte bytes 14 p.advertisingFilterPolicy.asU8

/-- `ScanParameters`: host/mod.rs 1864-1878. -/
structure ScanParameters where
  scanType : ScanType
  scanWindow : ScanWindow
  ownAddressType : OwnAddressType
  filterPolicy : ScanFilterPolicy
  deriving DecidableEq, Repr

/-- `ScanParameters::copy_into_slice`: host/mod.rs 1881-1888. -/
def ScanParameters.copyIntoSlice {ε : Type} (p : ScanParameters) (bytes : List UInt8) :
    Res ε (List UInt8) := do
  Res.assert (bytes.length == 7)
  let bytes ← setByte bytes 0 p.scanType.asU8
  let bytes ← withRange bytes 1 5 (p.scanWindow.copyIntoSlice ·)
  let bytes ← setByte bytes 5 p.ownAddressType.asU8
  setByte bytes 6 p.filterPolicy.asU8

/-- `ConnectionParameters`: host/mod.rs 1934-1977. -/
structure ConnectionParameters where
  scanWindow : ScanWindow
  initiatorFilterPolicy : ConnectionFilterPolicy
  peerAddress : PeerAddrType
  ownAddressType : OwnAddressType
  connInterval : ConnectionInterval
  expectedConnectionLength : ExpectedConnectionLength
  deriving DecidableEq, Repr

/-- `ConnectionParameters::copy_into_slice`: host/mod.rs 1980-1997. -/
def ConnectionParameters.copyIntoSlice {ε : Type} (p : ConnectionParameters) (bytes : List UInt8) :
    Res ε (List UInt8) := do
  Res.assert (bytes.length == 25)
  let bytes ← withRange bytes 0 4 (p.scanWindow.copyIntoSlice ·)
  let bytes ← setByte bytes 4 p.initiatorFilterPolicy.asU8
  let bytes ← match p.initiatorFilterPolicy with
    | .useAddress => withRange bytes 5 12 (p.peerAddress.copyIntoSlice ·)
    | .whiteList => copyRange bytes 5 12 [0, 0, 0, 0, 0, 0, 0]
  let bytes ← setByte bytes 12 p.ownAddressType.asU8
  let bytes ← withRange bytes 13 21 (p.connInterval.copyIntoSlice ·)
  withRange bytes 21 25 (p.expectedConnectionLength.copyIntoSlice ·)

/-- `ConnectionUpdateParameters`: host/mod.rs 2087-2097. -/
structure ConnectionUpdateParameters where
  connHandle : ConnectionHandle
  connInterval : ConnectionInterval
  expectedConnectionLength : ExpectedConnectionLength
  deriving DecidableEq, Repr

/-- `ConnectionUpdateParameters::copy_into_slice`: host/mod.rs 2100-2107. -/
def ConnectionUpdateParameters.copyIntoSlice {ε : Type} (p : ConnectionUpdateParameters)
    (bytes : List UInt8) : Res ε (List UInt8) := do
  Res.assert (bytes.length == 14)
  let bytes ← withRange bytes 0 bytes.length (fun s => writeU16 s p.connHandle.val)
  let bytes ← withRange bytes 2 10 (p.connInterval.copyIntoSlice ·)
  withRange bytes 10 14 (p.expectedConnectionLength.copyIntoSlice ·)

/-- `AesParameters`: host/mod.rs 2111-2124; `EncryptionKey` (2130) and `PlaintextBlock` (2142) are their
16 bytes. -/
structure AesParameters where
  key : Arr 16
  plaintextData : Arr 16
  deriving DecidableEq, Repr

/-- `EncryptionParameters`: host/mod.rs 2151-2163. -/
structure EncryptionParameters where
  connHandle : ConnectionHandle
  randomNumber : UInt64
  encryptedDiversifier : UInt16
  longTermKey : Arr 16
  deriving DecidableEq, Repr

end Bt
