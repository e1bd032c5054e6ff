import Verif.Spec.Bytes
import Verif.Spec.Status
import Verif.Spec.Types
import Verif.Spec.Flags
import Verif.Spec.FlagTables
import Verif.Spec.Address
import Verif.Model.Event.Event

/-! # Specification of HCI events on the wire (Bluetooth spec, Vol 2, Part E, 5.4.4 and 7.7)

Only the types and the vendor record of the model are used, none of its functions. The meaningful bits of
flag fields come from `Spec.FlagTables`. -/

namespace Spec

open Bt

/-! ## Encoded fields -/

/-- An event packet: event code, number of parameter bytes, parameters. -/
def frame (code : UInt8) (params : List UInt8) : List UInt8 :=
  code :: UInt8.ofNat params.length :: params

/-- A 16-bit opcode from its group and command fields. -/
def op (ogf ocf : Nat) : UInt16 := UInt16.ofNat (1024 * ogf + ocf)

/-- Two's complement. -/
def twos (x : Int8) : UInt8 := UInt8.ofNat (x.toInt % 256).toNat

/-- Link type codes. -/
def linkTypeCode : LinkType → UInt8
  | .sco => 0
  | .acl => 1

/-- A boolean field. -/
def boolCode : Bool → UInt8
  | false => 0
  | true => 1

/-- Encryption_Enabled codes. -/
def encryptionCode : Encryption → UInt8
  | .off => 0
  | .on => 1
  | .onAesCcmForBrEdr => 2

/-- Role codes. -/
def roleCode : ConnectionRole → UInt8
  | .central => 0
  | .peripheral => 1

/-- Clock accuracy codes. -/
def clockCode : CentralClockAccuracy → UInt8
  | .ppm500 => 0
  | .ppm250 => 1
  | .ppm150 => 2
  | .ppm100 => 3
  | .ppm75 => 4
  | .ppm50 => 5
  | .ppm30 => 6
  | .ppm20 => 7

/-- The PHY codes that the crate accepts. (The Bluetooth specification numbers them 1, 2, 3: see
`DESIGN.md`.) -/
def phyCode : Phy → UInt8
  | .le1M => 0
  | .le2M => 1
  | .leCoded => 2

/-- The PHY codes of the Bluetooth specification (Vol 2, Part E, 7.7.65.12). -/
def phyCodeOfStandard : Phy → UInt8
  | .le1M => 1
  | .le2M => 2
  | .leCoded => 3

/-- Advertising event type codes. -/
def advEventCode : AdvertisementEvent → UInt8
  | .advertisement => 0
  | .directAdvertisement => 1
  | .scan => 2
  | .nonConnectableAdvertisement => 3
  | .scanResponse => 4

/-- The six bytes `interval, latency, timeout` and the legal connection parameters they stand for. -/
def IntervalFields (a l t : UInt16) (i : FixedConnectionInterval) : Prop :=
  LegalRaw a.toNat a.toNat l.toNat t.toNat ∧
    i.interval.ns = 1250 * us * a.toNat ∧ i.connLatency = l ∧
    i.supervisionTimeout.ns = 10 * ms * t.toNat

/-- One pair of Number Of Completed Packets. -/
def pairBytes (x : UInt16 × UInt16) : List UInt8 := le16 x.1 ++ le16 x.2

/-- All the pairs. -/
def pairsBytes (xs : List (UInt16 × UInt16)) : List UInt8 := (xs.map pairBytes).flatten

/-- RSSI byte: 127 means not available. -/
def rssiByte : Option Int8 → UInt8
  | none => 127
  | some r => twos r

/-- One advertising report. -/
def advBytes (a : LeAdvertisement) : List UInt8 :=
  advEventCode a.eventType :: addrTypeBytes a.address ++ UInt8.ofNat a.data.length :: a.data ++
    [rssiByte a.rssi]

/-- Several advertising reports. -/
def advsBytes (as : List LeAdvertisement) : List UInt8 := (as.map advBytes).flatten

/-- The length byte can hold the data length, and an available RSSI is not 127. -/
def Reportable (a : LeAdvertisement) : Prop := a.data.length ≤ 255 ∧ a.rssi ≠ some 127

/-- The bytes at the beginning of a zero-filled array. -/
def InZeroes {n : Nat} (buf : Arr n) (bs : List UInt8) : Prop := buf.val = bs ++ zeroes (n - bs.length)

/-! ## Command Complete -/

/-- The commands that return only a status: opcode and kind of reply. -/
def statusReplies (c : Cfg) {VS VR : Type} : List (UInt16 × (Status VS → ReturnParameters VS VR)) :=
  [(op 0x03 0x01, .setEventMask),
   (op 0x03 0x03, .reset),
   (op 0x08 0x01, .leSetEventMask),
   (op 0x08 0x05, .leSetRandomAddress),
   (op 0x08 0x06, .leSetAdvertisingParameters),
   (op 0x08 0x08, .leSetAdvertisingData),
   (op 0x08 0x09, .leSetScanResponseData),
   (op 0x08 0x0A, if c.v50 then .leSetAdvertisingEnable else .leSetAdvertiseEnable),
   (op 0x08 0x0B, .leSetScanParameters),
   (op 0x08 0x0C, .leSetScanEnable),
   (op 0x08 0x0E, .leCreateConnectionCancel),
   (op 0x08 0x10, .leClearWhiteList),
   (op 0x08 0x11, .leAddDeviceToWhiteList),
   (op 0x08 0x12, .leRemoveDeviceFromWhiteList),
   (op 0x08 0x14, .leSetHostChannelClassification),
   (op 0x08 0x1D, .leReceiverTest),
   (op 0x08 0x1E, .leTransmitterTest)]

/-- `Returns c V o ps r`: the return parameters `ps` of the command with opcode `o` mean `r`. Opcode 0
carries no reply; status-only replies and the white list size are followed by ignored bytes. -/
inductive Returns (c : Cfg) (V : Vendor) :
    UInt16 → List UInt8 → ReturnParameters V.VStatus V.VRet → Prop where
  | spontaneous {rest} : Returns c V 0 rest .spontaneous
  | statusOnly {o mk st s rest} : (o, mk) ∈ statusReplies c → StatusByte c V st s →
      Returns c V o (st :: rest) (mk s)
  | readTxPowerLevel {st s h x} : StatusByte c V st s →
      Returns c V (op 0x03 0x2D) (st :: le16 h ++ [twos x]) (.readTxPowerLevel ⟨s, ⟨h⟩, x⟩)
  | readLocalVersionInformation {st s hv hr lv m ls} : StatusByte c V st s →
      Returns c V (op 0x04 0x01) (st :: hv :: le16 hr ++ lv :: le16 m ++ le16 ls)
        (.readLocalVersionInformation ⟨s, hv, hr, lv, m, ls⟩)
  | readLocalSupportedCommands {st s} {f : CommandFlags} : StatusByte c V st s →
      (∀ i j, HasBit f.arr.val i j → CommandBit c i j) →
      Returns c V (op 0x04 0x02) (st :: f.arr.val) (.readLocalSupportedCommands ⟨s, f⟩)
  | readLocalSupportedFeatures {st s x y} : StatusByte c V st s →
      (∀ j, y.toNat.testBit j = true ↔ x.toNat.testBit j = true ∧ LmpFeatureBit j) →
      Returns c V (op 0x04 0x03) (st :: le64 x) (.readLocalSupportedFeatures ⟨s, y⟩)
  | readBdAddr {st s a} : StatusByte c V st s →
      Returns c V (op 0x04 0x09) (st :: a.val.val) (.readBdAddr ⟨s, a⟩)
  | readRssi {st s h x} : StatusByte c V st s →
      Returns c V (op 0x05 0x05) (st :: le16 h ++ [twos x]) (.readRssi ⟨s, ⟨h⟩, x⟩)
  | leReadBufferSize {st s l n} : StatusByte c V st s →
      Returns c V (op 0x08 0x02) (st :: le16 l ++ [n]) (.leReadBufferSize ⟨s, l, n⟩)
  | leReadLocalSupportedFeatures {st s x y} : StatusByte c V st s →
      (∀ j, y.toNat.testBit j = true ↔ x.toNat.testBit j = true ∧ LeFeatureBit c j) →
      Returns c V (op 0x08 0x03) (st :: le64 x) (.leReadLocalSupportedFeatures ⟨s, y⟩)
  | leReadAdvertisingChannelTxPower {st s x} : StatusByte c V st s →
      Returns c V (op 0x08 0x07) [st, twos x] (.leReadAdvertisingChannelTxPower ⟨s, x⟩)
  | leReadWhiteListSize {st s n rest} : StatusByte c V st s →
      Returns c V (op 0x08 0x0F) (st :: n :: rest) (.leReadWhiteListSize s n.toNat)
  | leReadChannelMap {st s h} {m : ChannelClassification} : StatusByte c V st s →
      (∀ i j, HasBit m.arr.val i j → ChannelBit i j) →
      Returns c V (op 0x08 0x15) (st :: le16 h ++ m.arr.val) (.leReadChannelMap ⟨s, ⟨h⟩, m⟩)
  | leEncrypt {st s} {d : Arr 16} : StatusByte c V st s →
      Returns c V (op 0x08 0x17) (st :: d.val) (.leEncrypt ⟨s, d⟩)
  | leRand {st s x} : StatusByte c V st s →
      Returns c V (op 0x08 0x18) (st :: le64 x) (.leRand ⟨s, x⟩)
  | leLongTermKeyRequestReply {st s h} : StatusByte c V st s →
      Returns c V (op 0x08 0x1A) (st :: le16 h) (.leLongTermKeyRequestReply ⟨s, ⟨h⟩⟩)
  | leLongTermKeyRequestNegativeReply {st s h} : StatusByte c V st s →
      Returns c V (op 0x08 0x1B) (st :: le16 h) (.leLongTermKeyRequestNegativeReply ⟨s, ⟨h⟩⟩)
  | leReadSupportedStates {st s x} : StatusByte c V st s →
      (∀ j, x.toNat.testBit j = true → LeStateBit j) →
      Returns c V (op 0x08 0x1C) (st :: le64 x) (.leReadSupportedStates ⟨s, x⟩)
  | leTestEnd {st s n} : StatusByte c V st s →
      Returns c V (op 0x08 0x1F) (st :: le16 n) (.leTestEnd ⟨s, n.toNat⟩)

/-- The opcodes whose Command Complete has a reply of the given exact number of bytes. -/
def fixedReturns : List (UInt16 × Nat) :=
  [(op 0x03 0x2D, 4), (op 0x04 0x01, 9), (op 0x04 0x02, 65), (op 0x04 0x03, 9), (op 0x04 0x09, 7),
   (op 0x05 0x05, 4), (op 0x08 0x02, 4), (op 0x08 0x03, 9), (op 0x08 0x07, 2), (op 0x08 0x15, 8),
   (op 0x08 0x17, 17), (op 0x08 0x18, 9), (op 0x08 0x1A, 3), (op 0x08 0x1B, 3), (op 0x08 0x1C, 9),
   (op 0x08 0x1F, 3)]

/-- The opcodes whose Command Complete has a reply of a status and possibly more. -/
def openReturns : List UInt16 :=
  [op 0x03 0x01, op 0x03 0x03, op 0x08 0x01, op 0x08 0x05, op 0x08 0x06, op 0x08 0x08, op 0x08 0x09,
   op 0x08 0x0A, op 0x08 0x0B, op 0x08 0x0C, op 0x08 0x0E, op 0x08 0x0F, op 0x08 0x10, op 0x08 0x11,
   op 0x08 0x12, op 0x08 0x14, op 0x08 0x1D, op 0x08 0x1E]

/-- The opcode has a known reply that begins with a status. -/
def KnownReply (o : UInt16) : Prop := o ∈ openReturns ∨ ∃ n, (o, n) ∈ fixedReturns

/-- Vendor opcodes: group field 0x3F. -/
def VendorOpcode (o : UInt16) : Prop := o.toNat / 1024 = 0x3F

/-! ## All events -/

/-- `Says c V code ps e`: an event packet with this event code and these parameters means `e`. -/
inductive Says (c : Cfg) (V : Vendor) : UInt8 → List UInt8 → V.Ev → Prop where
  | connectionComplete {st s h a lt enc} : StatusByte c V st s →
      Says c V 0x03 (st :: le16 h ++ a.val.val ++ [linkTypeCode lt, boolCode enc])
        (.connectionComplete ⟨s, ⟨h⟩, a, lt, enc⟩)
  | disconnectionComplete {st s h rs r} : StatusByte c V st s → StatusByte c V rs r →
      Says c V 0x05 (st :: le16 h ++ [rs]) (.disconnectionComplete ⟨s, ⟨h⟩, r⟩)
  | encryptionChange {st s h x} : StatusByte c V st s →
      Says c V 0x08 (st :: le16 h ++ [encryptionCode x]) (.encryptionChange ⟨s, ⟨h⟩, x⟩)
  | readRemoteVersionInformationComplete {st s h v m x} : StatusByte c V st s →
      Says c V 0x0C (st :: le16 h ++ v :: le16 m ++ le16 x)
        (.readRemoteVersionInformationComplete ⟨s, ⟨h⟩, v, m, x⟩)
  | commandComplete {n o ps r} : Returns c V o ps r →
      Says c V 0x0E (n :: le16 o ++ ps) (.commandComplete ⟨n, r⟩)
  | commandCompleteVendor {n o ps r} : VendorOpcode o → V.retNew (n :: le16 o ++ ps) = .ok r →
      Says c V 0x0E (n :: le16 o ++ ps) (.commandComplete ⟨n, .vendor r⟩)
  | commandStatus {st s n o} : StatusByte c V st s →
      Says c V 0x0F (st :: n :: le16 o) (.commandStatus ⟨s, n, ⟨o⟩⟩)
  | hardwareError {x} : Says c V 0x10 [x] (.hardwareError ⟨x⟩)
  | numberOfCompletedPackets {xs buf} : InZeroes buf (pairsBytes xs) →
      Says c V 0x13 (UInt8.ofNat xs.length :: pairsBytes xs) (.numberOfCompletedPackets ⟨xs.length, buf⟩)
  | dataBufferOverflow {lt} : Says c V 0x1A [linkTypeCode lt] (.dataBufferOverflow ⟨lt⟩)
  | encryptionKeyRefreshComplete {st s h} : StatusByte c V st s →
      Says c V 0x30 (st :: le16 h) (.encryptionKeyRefreshComplete ⟨s, ⟨h⟩⟩)
  | leConnectionComplete {st s h role peer a l t i clock} : StatusByte c V st s →
      IntervalFields a l t i →
      Says c V 0x3E (0x01 :: st :: le16 h ++ roleCode role :: addrTypeBytes peer ++
          le16 a ++ le16 l ++ le16 t ++ [clockCode clock])
        (.leConnectionComplete ⟨s, ⟨h⟩, role, peer, i, clock⟩)
  | leAdvertisingReport {n as buf} : (∀ a ∈ as, Reportable a) → InZeroes buf (advsBytes as) →
      Says c V 0x3E (0x02 :: n :: advsBytes as) (.leAdvertisingReport ⟨(advsBytes as).length, buf⟩)
  | leConnectionUpdateComplete {st s h a l t i} : StatusByte c V st s → IntervalFields a l t i →
      Says c V 0x3E (0x03 :: st :: le16 h ++ le16 a ++ le16 l ++ le16 t)
        (.leConnectionUpdateComplete ⟨s, ⟨h⟩, i⟩)
  | leReadRemoteUsedFeaturesComplete {st s h x} : StatusByte c V st s →
      (∀ j, x.toNat.testBit j = true → LeFeatureBit c j) →
      Says c V 0x3E (0x04 :: st :: le16 h ++ le64 x) (.leReadRemoteUsedFeaturesComplete ⟨s, ⟨h⟩, x⟩)
  | leLongTermKeyRequest {h x d} :
      Says c V 0x3E (0x05 :: le16 h ++ le64 x ++ le16 d) (.leLongTermKeyRequest ⟨⟨h⟩, x, d⟩)
  | leDataLengthChangeEvent {h a b d e} :
      Says c V 0x3E (0x07 :: le16 h ++ le16 a ++ le16 b ++ le16 d ++ le16 e)
        (.leDataLengthChangeEvent ⟨⟨h⟩, a, b, d, e⟩)
  | lePhyUpdateComplete {st s h tx rx} : StatusByte c V st s →
      Says c V 0x3E (0x0C :: st :: le16 h ++ [phyCode tx, phyCode rx])
        (.lePhyUpdateComplete ⟨⟨h⟩, s, tx, rx⟩)
  | vendor {ps e} : V.eventNew ps = .ok e → Says c V 0xFF ps (.vendor e)

/-- The packet is a wire encoding of the event. -/
def Encodes (c : Cfg) (V : Vendor) (packet : List UInt8) (e : V.Ev) : Prop :=
  ∃ code ps, packet = frame code ps ∧ ps.length ≤ 255 ∧ Says c V code ps e

/-- The supported event codes. -/
def eventCodes : List UInt8 :=
  [0x03, 0x05, 0x08, 0x0C, 0x0E, 0x0F, 0x10, 0x13, 0x1A, 0x30, 0x3E, 0xFF]

/-- The supported LE subevent codes. -/
def subeventCodes : List UInt8 := [0x01, 0x02, 0x03, 0x04, 0x05, 0x07, 0x0C]

/-! ## Faults -/

/-- Parameter lengths of the events of fixed length. -/
def fixedParams : List (UInt8 × Nat) :=
  [(0x03, 11), (0x05, 4), (0x08, 4), (0x0C, 8), (0x0F, 4), (0x10, 1), (0x1A, 1), (0x30, 3)]

/-- Parameter lengths (with the subevent code) of the LE events of fixed length. -/
def fixedMeta : List (UInt8 × Nat) :=
  [(0x01, 19), (0x03, 10), (0x04, 12), (0x05, 13), (0x07, 11), (0x0C, 6)]

/-- `LengthFault packet actual required`: a length of the packet is not as required. -/
inductive LengthFault : List UInt8 → Nat → Nat → Prop where
  | header {packet} : packet.length < 2 → LengthFault packet packet.length 2
  | framing {code n ps} : ps.length ≠ n.toNat →
      LengthFault (code :: n :: ps) (2 + ps.length) (2 + n.toNat)
  | params {code n ps} : (code, n) ∈ fixedParams → ps.length ≤ 255 → ps.length ≠ n →
      LengthFault (frame code ps) ps.length n
  | completedEmpty : LengthFault (frame 0x13 []) 0 1
  | completed {n ps} : ps.length < 255 → ps.length ≠ 4 * n.toNat →
      LengthFault (frame 0x13 (n :: ps)) (1 + ps.length) (1 + 4 * n.toNat)
  | metaEmpty : LengthFault (frame 0x3E []) 0 1
  | leMeta {sub n ps} : (sub, n) ∈ fixedMeta → ps.length < 255 → 1 + ps.length ≠ n →
      LengthFault (frame 0x3E (sub :: ps)) (1 + ps.length) n
  | commandComplete {ps} : ps.length < 3 → LengthFault (frame 0x0E ps) ps.length 3
  | returns {k o n ps} : (o, n) ∈ fixedReturns → ps.length ≤ 252 → ps.length ≠ n →
      LengthFault (frame 0x0E (k :: le16 o ++ ps)) ps.length n

/-- The status byte of an event, and its place in the parameters. -/
inductive StatusAt : UInt8 → List UInt8 → Nat → UInt8 → Prop where
  | first {code ps b} : code ∈ [0x03, 0x05, 0x08, 0x0C, 0x0F, 0x30] → ps[0]? = some b →
      StatusAt code ps 0 b
  | second {sub ps b} : sub ∈ [0x01, 0x03, 0x04, 0x0C] → (sub :: ps)[1]? = some b →
      StatusAt 0x3E (sub :: ps) 1 b
  | reply {k o ps b} : KnownReply o → ps[0]? = some b → StatusAt 0x0E (k :: le16 o ++ ps) 3 b

/-- `ReportFault bs e`: what is left of the advertising reports begins with a faulty one. -/
inductive ReportFault {VE : Type} : List UInt8 → EvError VE → Prop where
  | incomplete {bs n} : bs[8]? = some n → bs.length < 10 + n.toNat →
      ReportFault bs .leAdvertisementReportIncomplete
  | eventType {bs n t} : bs[8]? = some n → 10 + n.toNat ≤ bs.length → bs[0]? = some t → 4 < t →
      ReportFault bs (.badLeAdvertisementType t)
  | addressType {bs n t k} : bs[8]? = some n → 10 + n.toNat ≤ bs.length → bs[0]? = some t → t ≤ 4 →
      bs[1]? = some k → 1 < k → ReportFault bs (.badLeAddressType k)

/-- `FaultAt c V code ps i e`: the field that begins at byte `i` of the parameters has a value that is
not accepted, and `e` carries that value. -/
inductive FaultAt (c : Cfg) (V : Vendor) : UInt8 → List UInt8 → Nat → EvError V.VErr → Prop where
  | status {code ps i b w} : StatusAt code ps i b → statusCount c ≤ b.toNat → V.statusTryFrom b = .err w →
      FaultAt c V code ps i (.badStatus w)
  | reason {ps b w} : ps[3]? = some b → statusCount c ≤ b.toNat → V.statusTryFrom b = .err w →
      FaultAt c V 0x05 ps 3 (.badReason w)
  | linkType {ps b} : ps[9]? = some b → 1 < b → FaultAt c V 0x03 ps 9 (.badLinkType b)
  | encryptionEnabled {ps b} : ps[10]? = some b → 1 < b →
      FaultAt c V 0x03 ps 10 (.badEncryptionEnabledValue b)
  | encryption {ps b} : ps[3]? = some b → 2 < b → FaultAt c V 0x08 ps 3 (.badEncryptionType b)
  | overflowLinkType {ps b} : ps[0]? = some b → 1 < b → FaultAt c V 0x1A ps 0 (.badLinkType b)
  | event {code ps} : code ∉ eventCodes → FaultAt c V code ps 0 (.unknownEvent code)
  | subevent {sub ps} : sub ∉ subeventCodes → FaultAt c V 0x3E (sub :: ps) 0 (.unknownEvent sub)
  | opcode {k o ps} : o ≠ 0 → ¬ KnownReply o → ¬ VendorOpcode o →
      FaultAt c V 0x0E (k :: le16 o ++ ps) 1 (.unknownOpcode ⟨o⟩)
  | commandFlag {k st ps i j} : HasBit ps i j → ¬ CommandBit c i j →
      FaultAt c V 0x0E (k :: le16 (op 0x04 0x02) ++ st :: ps) 4 .badCommandFlag
  | channelMap {k st h} {m : Arr 5} {i j} : HasBit m.val i j → ¬ ChannelBit i j →
      FaultAt c V 0x0E (k :: le16 (op 0x08 0x15) ++ st :: le16 h ++ m.val) 6 (.invalidChannelMap m)
  | leStates {k st x j} : x.toNat.testBit j = true → ¬ LeStateBit j →
      FaultAt c V 0x0E (k :: le16 (op 0x08 0x1C) ++ st :: le64 x) 4 (.invalidLeStates x)
  | role {ps b} : (0x01 :: ps)[4]? = some b → 1 < b →
      FaultAt c V 0x3E (0x01 :: ps) 4 (.badLeConnectionRole b)
  | address {ps b} : (0x01 :: ps)[5]? = some b → 1 < b →
      FaultAt c V 0x3E (0x01 :: ps) 5 (.badLeAddressType b)
  | interval {pre a l t ps e} {lo tmo : Duration} : pre.length = 11 →
      lo.ns = 1250 * us * a.toNat → tmo.ns = 10 * ms * t.toNat → FirstViolation lo lo l tmo e →
      FaultAt c V 0x3E (0x01 :: pre ++ le16 a ++ le16 l ++ le16 t ++ ps) 12
        (.badConnectionInterval e)
  | clock {ps b} : (0x01 :: ps)[18]? = some b → 7 < b →
      FaultAt c V 0x3E (0x01 :: ps) 18 (.badLeCentralClockAccuracy b)
  | report {n as bs e} : (∀ a ∈ as, Reportable a) → ReportFault bs e →
      FaultAt c V 0x3E (0x02 :: n :: advsBytes as ++ bs) (2 + (advsBytes as).length) e
  | updateInterval {pre a l t ps e} {lo tmo : Duration} : pre.length = 3 →
      lo.ns = 1250 * us * a.toNat → tmo.ns = 10 * ms * t.toNat → FirstViolation lo lo l tmo e →
      FaultAt c V 0x3E (0x03 :: pre ++ le16 a ++ le16 l ++ le16 t ++ ps) 4
        (.badConnectionInterval e)
  | features {st h x j} : x.toNat.testBit j = true → ¬ LeFeatureBit c j →
      FaultAt c V 0x3E (0x04 :: st :: le16 h ++ le64 x) 4 (.badRemoteUsedFeatureFlag x)
  | txPhy {ps b} : (0x0C :: ps)[4]? = some b → 2 < b → FaultAt c V 0x3E (0x0C :: ps) 4 (.badPhy b)
  | rxPhy {ps b} : (0x0C :: ps)[5]? = some b → 2 < b → FaultAt c V 0x3E (0x0C :: ps) 5 (.badPhy b)
  | vendorEvent {ps e} : V.eventNew ps = .err e → FaultAt c V 0xFF ps 0 e
  | vendorReturn {k o ps e} : VendorOpcode o → V.retNew (k :: le16 o ++ ps) = .err e →
      FaultAt c V 0x0E (k :: le16 o ++ ps) 3 e

/-- Some field of the parameters has a value that is not accepted. -/
def FieldFault (c : Cfg) (V : Vendor) (code : UInt8) (ps : List UInt8) (e : EvError V.VErr) : Prop :=
  ∃ i, FaultAt c V code ps i e

/-- The first fault of a packet, reading the packet from its start: lengths come before fields, and of
the fields the one that begins first. -/
def FirstFault (c : Cfg) (V : Vendor) (packet : List UInt8) (e : EvError V.VErr) : Prop :=
  (∃ a b, e = .badLength a b ∧ LengthFault packet a b) ∨
    (¬ ∃ a b, LengthFault packet a b) ∧
      ∃ code ps i, packet = frame code ps ∧ ps.length ≤ 255 ∧ FaultAt c V code ps i e ∧
        ∀ j e', FaultAt c V code ps j e' → i ≤ j

/-- An error is truthful: some length or some field of the packet is as it says. -/
def Truthful (c : Cfg) (V : Vendor) (packet : List UInt8) (e : EvError V.VErr) : Prop :=
  (∃ a b, e = .badLength a b ∧ LengthFault packet a b) ∨
    ∃ code ps, packet = frame code ps ∧ ps.length ≤ 255 ∧ FieldFault c V code ps e

/-- The vendor's own functions return. -/
structure VendorReturns (V : Vendor) : Prop where
  status : ∀ b, V.statusTryFrom b ≠ .panic
  event : ∀ ps, V.eventNew ps ≠ .panic
  ret : ∀ ps, V.retNew ps ≠ .panic

/-- The packets on which decoding panics: a Command Complete without the status that its opcode calls for,
or without the white list size, and LE advertising reports cut off before the ninth byte of a report or
before the number of reports. -/
inductive Panics (c : Cfg) (V : Vendor) : List UInt8 → Prop where
  | noStatus {k o} : o ∈ openReturns → Panics c V (frame 0x0E (k :: le16 o))
  | noSize {k st s} : StatusByte c V st s → Panics c V (frame 0x0E (k :: le16 (op 0x08 0x0F) ++ [st]))
  | noCount : Panics c V (frame 0x3E [0x02])
  | cutReport {n as bs} : (∀ a ∈ as, Reportable a) → 0 < bs.length → bs.length < 9 →
      (advsBytes as ++ bs).length ≤ 253 → Panics c V (frame 0x3E (0x02 :: n :: advsBytes as ++ bs))

end Spec
