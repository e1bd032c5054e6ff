import Verif.Spec.Standard
import Verif.Spec.StandardReports

/-! # The events that a conforming controller may send (Vol 2 Part E 7.7)

The fields of the supported events as they are on the wire, and the values the standard allows for them.
Vendor events and vendor replies are not included, and neither are events that the crate does not support. -/

namespace Spec

open Bt

/-- Return parameters of the supported commands (Vol 2 Part E 7.3, 7.4, 7.5, 7.8). The first argument is the
status, except that a reply with a status only begins with the opcode. -/
inductive StdReply where
  | statusOnly (o : UInt16) (st : UInt8)
  | txPowerLevel (st : UInt8) (h : UInt16) (x : UInt8)
  | localVersion (st hv : UInt8) (hr : UInt16) (lv : UInt8) (m ls : UInt16)
  | supportedCommands (st : UInt8) (f : Arr 64)
  | supportedFeatures (st : UInt8) (x : UInt64)
  | bdAddr (st : UInt8) (a : Arr 6)
  | rssi (st : UInt8) (h : UInt16) (x : UInt8)
  | leBufferSize (st : UInt8) (l : UInt16) (n : UInt8)
  | leFeatures (st : UInt8) (x : UInt64)
  | leChannelTxPower (st x : UInt8)
  | leWhiteListSize (st n : UInt8)
  | leChannelMap (st : UInt8) (h : UInt16) (m : Arr 5)
  | leEncrypt (st : UInt8) (d : Arr 16)
  | leRand (st : UInt8) (x : UInt64)
  | leLongTermKeyReply (st : UInt8) (h : UInt16)
  | leLongTermKeyNegativeReply (st : UInt8) (h : UInt16)
  | leStates (st : UInt8) (x : UInt64)
  | leTestEnd (st : UInt8) (n : UInt16)

/-- The opcode of the command that is answered. -/
def StdReply.opcode : StdReply → UInt16
  | statusOnly o _ => o
  | txPowerLevel .. => op 0x03 0x2D
  | localVersion .. => op 0x04 0x01
  | supportedCommands .. => op 0x04 0x02
  | supportedFeatures .. => op 0x04 0x03
  | bdAddr .. => op 0x04 0x09
  | rssi .. => op 0x05 0x05
  | leBufferSize .. => op 0x08 0x02
  | leFeatures .. => op 0x08 0x03
  | leChannelTxPower .. => op 0x08 0x07
  | leWhiteListSize .. => op 0x08 0x0F
  | leChannelMap .. => op 0x08 0x15
  | leEncrypt .. => op 0x08 0x17
  | leRand .. => op 0x08 0x18
  | leLongTermKeyReply .. => op 0x08 0x1A
  | leLongTermKeyNegativeReply .. => op 0x08 0x1B
  | leStates .. => op 0x08 0x1C
  | leTestEnd .. => op 0x08 0x1F

/-- The status. -/
def StdReply.status : StdReply → UInt8
  | statusOnly _ st | txPowerLevel st .. | localVersion st .. | supportedCommands st _
  | supportedFeatures st _ | bdAddr st _ | rssi st .. | leBufferSize st .. | leFeatures st _
  | leChannelTxPower st _ | leWhiteListSize st _ | leChannelMap st .. | leEncrypt st _ | leRand st _
  | leLongTermKeyReply st _ | leLongTermKeyNegativeReply st _ | leStates st _ | leTestEnd st _ => st

/-- What follows the status. -/
def StdReply.rest : StdReply → List UInt8
  | statusOnly .. => []
  | txPowerLevel _ h x => le16 h ++ [x]
  | localVersion _ hv hr lv m ls => hv :: le16 hr ++ lv :: le16 m ++ le16 ls
  | supportedCommands _ f => f.val
  | supportedFeatures _ x => le64 x
  | bdAddr _ a => a.val
  | rssi _ h x => le16 h ++ [x]
  | leBufferSize _ l n => le16 l ++ [n]
  | leFeatures _ x => le64 x
  | leChannelTxPower _ x => [x]
  | leWhiteListSize _ n => [n]
  | leChannelMap _ h m => le16 h ++ m.val
  | leEncrypt _ d => d.val
  | leRand _ x => le64 x
  | leLongTermKeyReply _ h => le16 h
  | leLongTermKeyNegativeReply _ h => le16 h
  | leStates _ x => le64 x
  | leTestEnd _ n => le16 n

/-- The opcodes of the commands that return a status only. -/
def statusOnlyOpcodes : List UInt16 :=
  [op 0x03 0x01, op 0x03 0x03, op 0x08 0x01, op 0x08 0x05, op 0x08 0x06, op 0x08 0x08, op 0x08 0x09,
   op 0x08 0x0A, op 0x08 0x0B, op 0x08 0x0C, op 0x08 0x0E, op 0x08 0x10, op 0x08 0x11, op 0x08 0x12,
   op 0x08 0x14, op 0x08 0x1D, op 0x08 0x1E]

/-- The events. -/
inductive StdEvent where
  /-- 7.7.3 -/
  | connection (st : UInt8) (h : UInt16) (a : Arr 6) (linkType encryption : UInt8)
  /-- 7.7.5 -/
  | disconnection (st : UInt8) (h : UInt16) (reason : UInt8)
  /-- 7.7.8 -/
  | encryptionChange (st : UInt8) (h : UInt16) (encryption : UInt8)
  /-- 7.7.12 -/
  | remoteVersion (st : UInt8) (h : UInt16) (v : UInt8) (m x : UInt16)
  /-- 7.7.14 -/
  | commandComplete (n : UInt8) (r : StdReply)
  /-- 7.7.14, without a command, to change the number of allowed commands -/
  | noCommandComplete (n : UInt8)
  /-- 7.7.15 -/
  | commandStatus (st n : UInt8) (o : UInt16)
  /-- 7.7.16 -/
  | hardwareError (x : UInt8)
  /-- 7.7.19 -/
  | completedPackets (xs : List (UInt16 × UInt16))
  /-- 7.7.26 -/
  | bufferOverflow (linkType : UInt8)
  /-- 7.7.39 -/
  | keyRefresh (st : UInt8) (h : UInt16)
  /-- 7.7.65.1 -/
  | leConnection (st : UInt8) (h : UInt16) (role peerType : UInt8) (peer : Arr 6) (a l t : UInt16)
      (clock : UInt8)
  /-- 7.7.65.2 -/
  | leReports (rs : List RawReport)
  /-- 7.7.65.3 -/
  | leConnectionUpdate (st : UInt8) (h : UInt16) (a l t : UInt16)
  /-- 7.7.65.4 -/
  | leRemoteFeatures (st : UInt8) (h : UInt16) (x : UInt64)
  /-- 7.7.65.5 -/
  | leLongTermKeyRequest (h : UInt16) (rand : UInt64) (ediv : UInt16)
  /-- 7.7.65.7 -/
  | leDataLength (h a b d e : UInt16)
  /-- 7.7.65.12 -/
  | lePhyUpdate (st : UInt8) (h : UInt16) (tx rx : UInt8)

/-- The event code. -/
def StdEvent.code : StdEvent → UInt8
  | connection .. => 0x03
  | disconnection .. => 0x05
  | encryptionChange .. => 0x08
  | remoteVersion .. => 0x0C
  | commandComplete .. => 0x0E
  | noCommandComplete .. => 0x0E
  | commandStatus .. => 0x0F
  | hardwareError .. => 0x10
  | completedPackets .. => 0x13
  | bufferOverflow .. => 0x1A
  | keyRefresh .. => 0x30
  | leConnection .. | leReports .. | leConnectionUpdate .. | leRemoteFeatures .. | leLongTermKeyRequest ..
  | leDataLength .. | lePhyUpdate .. => 0x3E

/-- The parameters. -/
def StdEvent.params : StdEvent → List UInt8
  | connection st h a lt enc => st :: le16 h ++ a.val ++ [lt, enc]
  | disconnection st h r => st :: le16 h ++ [r]
  | encryptionChange st h e => st :: le16 h ++ [e]
  | remoteVersion st h v m x => st :: le16 h ++ v :: le16 m ++ le16 x
  | commandComplete n r => n :: le16 r.opcode ++ r.status :: r.rest
  | noCommandComplete n => n :: le16 0
  | commandStatus st n o => st :: n :: le16 o
  | hardwareError x => [x]
  | completedPackets xs => UInt8.ofNat xs.length :: pairsBytes xs
  | bufferOverflow lt => [lt]
  | keyRefresh st h => st :: le16 h
  | leConnection st h role pt p a l t clock =>
    0x01 :: st :: le16 h ++ role :: pt :: p.val ++ le16 a ++ le16 l ++ le16 t ++ [clock]
  | leReports rs => 0x02 :: UInt8.ofNat rs.length :: rawBytes rs
  | leConnectionUpdate st h a l t => 0x03 :: st :: le16 h ++ le16 a ++ le16 l ++ le16 t
  | leRemoteFeatures st h x => 0x04 :: st :: le16 h ++ le64 x
  | leLongTermKeyRequest h x d => 0x05 :: le16 h ++ le64 x ++ le16 d
  | leDataLength h a b d e => 0x07 :: le16 h ++ le16 a ++ le16 b ++ le16 d ++ le16 e
  | lePhyUpdate st h tx rx => 0x0C :: st :: le16 h ++ [tx, rx]

/-- The packet. -/
def StdEvent.packet (x : StdEvent) : List UInt8 := frame x.code x.params

/-- The error codes in the event: its status, and the reason of a disconnection. -/
def StdEvent.errorCodes : StdEvent → List UInt8
  | connection st .. | encryptionChange st .. | remoteVersion st .. | commandStatus st .. | keyRefresh st _
  | leConnection st .. | leConnectionUpdate st .. | leRemoteFeatures st .. | lePhyUpdate st .. => [st]
  | disconnection st _ r => [st, r]
  | commandComplete _ r => [r.status]
  | noCommandComplete _ | hardwareError _ | completedPackets _ | bufferOverflow _ | leReports _
  | leLongTermKeyRequest .. | leDataLength .. => []

/-- The event reports a failure. -/
def StdEvent.Failed (x : StdEvent) : Prop := ∃ st rest, x.errorCodes = st :: rest ∧ st ≠ 0

/-- The fields are within their range, where that matters to the crate. (The range is sometimes a little wider
than that of the standard: 0 is not a PHY, and a handle is below 0x0F00.) -/
def StdEvent.InRange (c : Cfg) : StdEvent → Prop
  | connection _ _ _ lt enc => lt ≤ 1 ∧ enc ≤ 1
  | encryptionChange _ _ e => e ≤ 2
  | commandComplete _ r => match r with
    | .supportedCommands _ f => ∀ i j, HasBit f.val i j → CommandBit c i j
    | .leChannelMap _ _ m => ∀ i j, HasBit m.val i j → ChannelBit i j
    | .leStates _ x => ∀ j, x.toNat.testBit j = true → LeStateBit j
    | _ => True
  | bufferOverflow lt => lt ≤ 1
  | leConnection _ _ role pt _ a l t clock =>
    role ≤ 1 ∧ pt ≤ 1 ∧ StandardConnection a.toNat l.toNat t.toNat ∧ clock ≤ 7
  | leReports rs => ∀ r ∈ rs, r.Conforms c
  | leConnectionUpdate _ _ a l t => StandardConnection a.toNat l.toNat t.toNat
  | lePhyUpdate _ _ tx rx => tx ≤ 3 ∧ rx ≤ 3
  | _ => True

/-- A conforming controller of the version the crate is compiled for may send the event: the error codes are
those of the standard, the fields are in range unless the event reports a failure (the standard does not say
what they are then; in practice they are zero), a reply with a status only is to a command that has one, and
the parameters fit into the packet. The features of the other device (`leRemoteFeatures`) may be of any
version. -/
structure StdEvent.Conforms (c : Cfg) (x : StdEvent) : Prop where
  errorCodes : ∀ b ∈ x.errorCodes, b.toNat < statusCount c
  inRange : x.Failed ∨ x.InRange c
  opcode : ∀ n o st, x = .commandComplete n (.statusOnly o st) → o ∈ statusOnlyOpcodes
  length : x.params.length ≤ 255

/-- The events that the crate rejects although the standard allows them: a supervision timeout of 100 ms, an
identity address in an advertising report, a feature of a later version, the Coded PHY. -/
inductive StdEvent.Rejected (c : Cfg) : StdEvent → Prop where
  | timeout {st h role pt p a l clock} : Rejected c (.leConnection st h role pt p a l 10 clock)
  | updateTimeout {st h a l} : Rejected c (.leConnectionUpdate st h a l 10)
  | identityAddress {rs r} : r ∈ rs → 1 < r.addressType → Rejected c (.leReports rs)
  | feature {st h x j} : x.toNat.testBit j = true → ¬ LeFeatureBit c j →
      Rejected c (.leRemoteFeatures st h x)
  | codedTx {st h rx} : Rejected c (.lePhyUpdate st h 3 rx)
  | codedRx {st h tx} : Rejected c (.lePhyUpdate st h tx 3)

/-- The events that the crate takes for something else: the PHYs are numbered from 0 by the crate, from 1 by the
standard. -/
inductive StdEvent.Misread : StdEvent → Prop where
  | phys {st h tx rx} : Misread (.lePhyUpdate st h tx rx)

/-- The PHYs named in an event are those with the numbers `tx` and `rx` of the standard. -/
def HasPhys {V : Vendor} (tx rx : UInt8) : V.Ev → Prop
  | .lePhyUpdateComplete e => phyCodeOfStandard e.txPhy = tx ∧ phyCodeOfStandard e.rxPhy = rx
  | _ => False

/-- The event `e` handed to the application says what the event `x` of the controller says. `Says` has the
crate's numbers of the PHYs, so the standard's are asked for in addition. -/
structure StdEvent.Means (c : Cfg) (V : Vendor) (x : StdEvent) (e : V.Ev) : Prop where
  fields : Says c V x.code x.params e
  phys : ∀ st h tx rx, x = .lePhyUpdate st h tx rx → HasPhys tx rx e

end Spec
