import Verif.Spec.Events
import Verif.Spec.Commands

/-! # Specification: which reply belongs to which command

Numbers are opcodes (OGF * 1024 + OCF) of the Bluetooth specification. -/

namespace Spec

open Bt

/-- The opcode of the command that a reply answers; none for `Spontaneous` and vendor replies. -/
def replyOpcode {VS VR : Type} : ReturnParameters VS VR → Option UInt16
  | .spontaneous => none
  | .setEventMask _ => some 0x0C01
  | .reset _ => some 0x0C03
  | .readTxPowerLevel _ => some 0x0C2D
  | .readLocalVersionInformation _ => some 0x1001
  | .readLocalSupportedCommands _ => some 0x1002
  | .readLocalSupportedFeatures _ => some 0x1003
  | .readBdAddr _ => some 0x1009
  | .readRssi _ => some 0x1405
  | .leSetEventMask _ => some 0x2001
  | .leReadBufferSize _ => some 0x2002
  | .leReadLocalSupportedFeatures _ => some 0x2003
  | .leSetRandomAddress _ => some 0x2005
  | .leSetAdvertisingParameters _ => some 0x2006
  | .leReadAdvertisingChannelTxPower _ => some 0x2007
  | .leSetAdvertisingData _ => some 0x2008
  | .leSetScanResponseData _ => some 0x2009
  | .leSetAdvertiseEnable _ => some 0x200A
  | .leSetAdvertisingEnable _ => some 0x200A
  | .leSetScanParameters _ => some 0x200B
  | .leSetScanEnable _ => some 0x200C
  | .leCreateConnectionCancel _ => some 0x200E
  | .leReadWhiteListSize _ _ => some 0x200F
  | .leClearWhiteList _ => some 0x2010
  | .leAddDeviceToWhiteList _ => some 0x2011
  | .leRemoveDeviceFromWhiteList _ => some 0x2012
  | .leSetHostChannelClassification _ => some 0x2014
  | .leReadChannelMap _ => some 0x2015
  | .leEncrypt _ => some 0x2017
  | .leRand _ => some 0x2018
  | .leLongTermKeyRequestReply _ => some 0x201A
  | .leLongTermKeyRequestNegativeReply _ => some 0x201B
  | .leReadSupportedStates _ => some 0x201C
  | .leReceiverTest _ => some 0x201D
  | .leTransmitterTest _ => some 0x201E
  | .leTestEnd _ => some 0x201F
  | .vendor _ => none

/-- The commands that the controller answers with Command Complete; the others start a procedure and are
answered with Command Status. -/
def answeredByComplete {VS : Type} : Command VS → Bool
  | .disconnect .. => false
  | .readRemoteVersionInformation .. => false
  | .leCreateConnection .. => false
  | .leConnectionUpdate .. => false
  | .leReadRemoteUsedFeatures .. => false
  | .leStartEncryption .. => false
  | _ => true

/-- The HCI commands of the Bluetooth specification that the crate knows. -/
inductive HciCommand where
  | disconnect
  | readRemoteVersionInformation
  | setEventMask
  | reset
  | readTxPowerLevel
  | readLocalVersionInformation
  | readLocalSupportedCommands
  | readLocalSupportedFeatures
  | readBdAddr
  | readRssi
  | leSetEventMask
  | leReadBufferSize
  | leReadLocalSupportedFeatures
  | leSetRandomAddress
  | leSetAdvertisingParameters
  | leReadAdvertisingChannelTxPower
  | leSetAdvertisingData
  | leSetScanResponseData
  | leSetAdvertisingEnable
  | leSetScanParameters
  | leSetScanEnable
  | leCreateConnection
  | leCreateConnectionCancel
  | leReadWhiteListSize
  | leClearWhiteList
  | leAddDeviceToWhiteList
  | leRemoveDeviceFromWhiteList
  | leConnectionUpdate
  | leSetHostChannelClassification
  | leReadChannelMap
  | leReadRemoteUsedFeatures
  | leEncrypt
  | leRand
  | leStartEncryption
  | leLongTermKeyRequestReply
  | leLongTermKeyRequestNegativeReply
  | leReadSupportedStates
  | leReceiverTest
  | leTransmitterTest
  | leTestEnd
  deriving DecidableEq, Repr

/-- The HCI command that an API method sends. -/
def commandSent {VS : Type} : Command VS → HciCommand
  | .disconnect .. => .disconnect
  | .readRemoteVersionInformation .. => .readRemoteVersionInformation
  | .setEventMask .. => .setEventMask
  | .reset => .reset
  | .readTxPowerLevel .. => .readTxPowerLevel
  | .readLocalVersionInformation => .readLocalVersionInformation
  | .readLocalSupportedCommands => .readLocalSupportedCommands
  | .readLocalSupportedFeatures => .readLocalSupportedFeatures
  | .readBdAddr => .readBdAddr
  | .readRssi .. => .readRssi
  | .leSetEventMask .. => .leSetEventMask
  | .leReadBufferSize => .leReadBufferSize
  | .leReadLocalSupportedFeatures => .leReadLocalSupportedFeatures
  | .leSetRandomAddress .. => .leSetRandomAddress
  | .leSetAdvertisingParameters .. => .leSetAdvertisingParameters
  | .leReadAdvertisingChannelTxPower => .leReadAdvertisingChannelTxPower
  | .leSetAdvertisingData .. => .leSetAdvertisingData
  | .leSetScanResponseData .. => .leSetScanResponseData
  | .leSetAdvertiseEnable .. => .leSetAdvertisingEnable
  | .leSetAdvertisingEnable .. => .leSetAdvertisingEnable
  | .leSetScanParameters .. => .leSetScanParameters
  | .leSetScanEnable .. => .leSetScanEnable
  | .leCreateConnection .. => .leCreateConnection
  | .leCreateConnectionCancel => .leCreateConnectionCancel
  | .leReadWhiteListSize => .leReadWhiteListSize
  | .leClearWhiteList => .leClearWhiteList
  | .leAddDeviceToWhiteList .. => .leAddDeviceToWhiteList
  | .leAddAnonAdvertisingDevicesToWhiteList => .leAddDeviceToWhiteList
  | .leRemoveDeviceFromWhiteList .. => .leRemoveDeviceFromWhiteList
  | .leRemoveAnonAdvertisingDevicesFromWhiteList => .leRemoveDeviceFromWhiteList
  | .leConnectionUpdate .. => .leConnectionUpdate
  | .leSetHostChannelClassification .. => .leSetHostChannelClassification
  | .leReadChannelMap .. => .leReadChannelMap
  | .leReadRemoteUsedFeatures .. => .leReadRemoteUsedFeatures
  | .leEncrypt .. => .leEncrypt
  | .leRand => .leRand
  | .leStartEncryption .. => .leStartEncryption
  | .leLongTermKeyRequestReply .. => .leLongTermKeyRequestReply
  | .leLongTermKeyRequestNegativeReply .. => .leLongTermKeyRequestNegativeReply
  | .leReadSupportedStates => .leReadSupportedStates
  | .leReceiverTest .. => .leReceiverTest
  | .leTransmitterTest .. => .leTransmitterTest
  | .leTestEnd => .leTestEnd

/-- The HCI command that a reply answers. -/
def commandAnswered {VS VR : Type} : ReturnParameters VS VR → Option HciCommand
  | .spontaneous => none
  | .setEventMask _ => some .setEventMask
  | .reset _ => some .reset
  | .readTxPowerLevel _ => some .readTxPowerLevel
  | .readLocalVersionInformation _ => some .readLocalVersionInformation
  | .readLocalSupportedCommands _ => some .readLocalSupportedCommands
  | .readLocalSupportedFeatures _ => some .readLocalSupportedFeatures
  | .readBdAddr _ => some .readBdAddr
  | .readRssi _ => some .readRssi
  | .leSetEventMask _ => some .leSetEventMask
  | .leReadBufferSize _ => some .leReadBufferSize
  | .leReadLocalSupportedFeatures _ => some .leReadLocalSupportedFeatures
  | .leSetRandomAddress _ => some .leSetRandomAddress
  | .leSetAdvertisingParameters _ => some .leSetAdvertisingParameters
  | .leReadAdvertisingChannelTxPower _ => some .leReadAdvertisingChannelTxPower
  | .leSetAdvertisingData _ => some .leSetAdvertisingData
  | .leSetScanResponseData _ => some .leSetScanResponseData
  | .leSetAdvertiseEnable _ => some .leSetAdvertisingEnable
  | .leSetAdvertisingEnable _ => some .leSetAdvertisingEnable
  | .leSetScanParameters _ => some .leSetScanParameters
  | .leSetScanEnable _ => some .leSetScanEnable
  | .leCreateConnectionCancel _ => some .leCreateConnectionCancel
  | .leReadWhiteListSize _ _ => some .leReadWhiteListSize
  | .leClearWhiteList _ => some .leClearWhiteList
  | .leAddDeviceToWhiteList _ => some .leAddDeviceToWhiteList
  | .leRemoveDeviceFromWhiteList _ => some .leRemoveDeviceFromWhiteList
  | .leSetHostChannelClassification _ => some .leSetHostChannelClassification
  | .leReadChannelMap _ => some .leReadChannelMap
  | .leEncrypt _ => some .leEncrypt
  | .leRand _ => some .leRand
  | .leLongTermKeyRequestReply _ => some .leLongTermKeyRequestReply
  | .leLongTermKeyRequestNegativeReply _ => some .leLongTermKeyRequestNegativeReply
  | .leReadSupportedStates _ => some .leReadSupportedStates
  | .leReceiverTest _ => some .leReceiverTest
  | .leTransmitterTest _ => some .leTransmitterTest
  | .leTestEnd _ => some .leTestEnd
  | .vendor _ => none

/-- Where the opcode is in the bytes written for a command: after the packet indicator, if there is one. -/
def writtenOpcode (l : Link) (header : List UInt8) : List UInt8 :=
  match l with
  | .uart => (header.drop 1).take 2
  | .cmdLink => header.take 2

end Spec
