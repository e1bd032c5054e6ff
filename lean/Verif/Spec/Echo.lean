import Verif.Spec.Events
import Verif.Spec.Commands

/-! # Where events and commands have the values that a host hands back

Offsets are counted in bytes from the first parameter. They are those of Vol 2 Part E 7.1-7.8 (commands and
return parameters) and 7.7 (events). -/

namespace Spec

open Bt

/-- `n` bytes from the offset `i` on. -/
def bytesAt (ps : List UInt8) (i n : Nat) : List UInt8 := (ps.drop i).take n

/-! ## Connections -/

/-- The connection that a reply is about. -/
def replyHandle {VS VR : Type} : ReturnParameters VS VR → Option ConnectionHandle
  | .readTxPowerLevel p => some p.connHandle
  | .readRssi p => some p.connHandle
  | .leReadChannelMap p => some p.connHandle
  | .leLongTermKeyRequestReply p => some p.connHandle
  | .leLongTermKeyRequestNegativeReply p => some p.connHandle
  | _ => none

/-- The connection that an event is about. -/
def eventHandle {V : Vendor} : V.Ev → Option ConnectionHandle
  | .connectionComplete e => some e.connHandle
  | .disconnectionComplete e => some e.connHandle
  | .encryptionChange e => some e.connHandle
  | .readRemoteVersionInformationComplete e => some e.connHandle
  | .encryptionKeyRefreshComplete e => some e.connHandle
  | .leConnectionComplete e => some e.connHandle
  | .leConnectionUpdateComplete e => some e.connHandle
  | .leReadRemoteUsedFeaturesComplete e => some e.connHandle
  | .leLongTermKeyRequest e => some e.connHandle
  | .leDataLengthChangeEvent e => some e.connHandle
  | .lePhyUpdateComplete e => some e.connHandle
  | .commandComplete e => replyHandle e.returnParams
  | _ => none

/-- The opcodes of the commands whose reply has a connection handle, which is behind the status. -/
def handleReplies : List UInt16 := [op 0x03 0x2D, op 0x05 0x05, op 0x08 0x15, op 0x08 0x1A, op 0x08 0x1B]

/-- The offset of the connection handle in an event. -/
def handleOffset (code : UInt8) (ps : List UInt8) : Option Nat :=
  if code = 0x0E then if ∃ o ∈ handleReplies, bytesAt ps 1 2 = le16 o then some 4 else none
  else if code = 0x3E then
    if ps.head? ∈ [some 0x01, some 0x03, some 0x04, some 0x0C] then some 2
    else if ps.head? ∈ [some 0x05, some 0x07] then some 1 else none
  else if code ∈ [0x03, 0x05, 0x08, 0x0C, 0x30] then some 1 else none

/-- The connection that a command is about. In all these commands its handle is the first parameter. -/
def commandHandle {VS : Type} : Command VS → Option ConnectionHandle
  | .disconnect h _ => some h
  | .readRemoteVersionInformation h => some h
  | .readTxPowerLevel h _ => some h
  | .readRssi h => some h
  | .leConnectionUpdate p => some p.connHandle
  | .leReadChannelMap h => some h
  | .leReadRemoteUsedFeatures h => some h
  | .leStartEncryption p => some p.connHandle
  | .leLongTermKeyRequestReply h _ => some h
  | .leLongTermKeyRequestNegativeReply h => some h
  | _ => none

/-! ## Devices -/

/-- The command is about the device with this address. -/
def Names {VS : Type} (a : BdAddrType) : Command VS → Prop
  | .leAddDeviceToWhiteList b => b = a
  | .leRemoveDeviceFromWhiteList b => b = a
  | .leSetAdvertisingParameters p => p.peerAddress = a
  | .leCreateConnection p => p.initiatorFilterPolicy = .useAddress ∧
      p.peerAddress = match a with
        | .pub x => .publicDeviceAddress x
        | .random x => .randomDeviceAddress x
  | _ => False

/-- The offset of the address type of the device, which its address follows, in a command. -/
def deviceOffset (opcode : UInt16) : Nat :=
  if opcode = op 0x08 0x06 then 6 else if opcode = op 0x08 0x0D then 5 else 0

/-! ## Keys -/

/-- The blocks of 16 bytes in a command, with their offsets: keys, and the data to encrypt. -/
def commandBlocks {VS : Type} : Command VS → List (Nat × Arr 16)
  | .leEncrypt p => [(0, p.key), (16, p.plaintextData)]
  | .leStartEncryption p => [(12, p.longTermKey)]
  | .leLongTermKeyRequestReply _ key => [(2, key)]
  | _ => []

end Spec
