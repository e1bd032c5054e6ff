import Verif.Spec.Keys
import Verif.Spec.Controllers

/-! # Specification: a device that is asked for values

A controller that can be asked everything that the API has a method for and that is answered at once with a value. What
it answers is arbitrary, and what can change may change from one command to the next: such functions take the number of
commands served before. It sees and makes nothing but bytes (Vol 2 Part E 7.3.35, 7.4.1, 7.4.2, 7.4.3, 7.4.6, 7.5.4,
7.8.2, 7.8.3, 7.8.6, 7.8.14, 7.8.20, 7.8.22, 7.8.23, 7.8.27, 7.8.30, 7.7.14). -/

namespace Spec

open Bt

/-- The values that a device has. -/
structure Device where
  /-- AES-128 with a key of a block. -/
  cipher : (key block : Arr 16) → Arr 16
  random : Nat → UInt64
  rssi : Nat → (handle : UInt16) → Int8
  power : Nat → (handle : UInt16) → TxPowerLevel → Int8
  /-- The channels that a connection uses, of the 37. -/
  channels : Nat → (handle : UInt16) → Arr 5
  hciVersion : UInt8
  hciRevision : UInt16
  lmpVersion : UInt8
  manufacturer : UInt16
  lmpSubversion : UInt16
  address : BdAddr
  /-- The supported commands. -/
  commands : Arr 64
  features : UInt64
  leFeatures : UInt64
  states : UInt64
  dataLength : UInt16
  dataPackets : UInt8
  advertisingPower : Nat → Int8
  whiteListSize : UInt8
  /-- The packets that the test that is ended has received. -/
  received : Nat → UInt16

/-- Bits that the standard leaves undefined are 0. -/
structure Device.Sound (c : Cfg) (D : Device) : Prop where
  channels : ∀ n h i j, HasBit (D.channels n h).val i j → ChannelBit i j
  commands : ∀ i j, HasBit D.commands.val i j → CommandBit c i j
  features : ∀ j, D.features.toNat.testBit j = true → LmpFeatureBit j
  leFeatures : ∀ j, D.leFeatures.toNat.testBit j = true → LeFeatureBit c j
  states : ∀ j, D.states.toNat.testBit j = true → LeStateBit j

/-- The connection handle in two bytes. -/
def handleOf (a b : UInt8) : UInt16 := UInt16.ofNat (a.toNat + 256 * b.toNat)

/-- The event packet with which the device answers the bytes of a command, without packet indicators; `none`: these bytes
are not one of these commands. -/
def Device.serve (D : Device) (n : Nat) : List UInt8 → Option (List UInt8)
  | 0x17 :: 0x20 :: 32 :: ps =>
    if h : ps.length = 32 then
      some ([0x0E, 20, 1, 0x17, 0x20, 0] ++
        (D.cipher ⟨ps.take 16, by rw [List.length_take]; omega⟩ ⟨ps.drop 16, by rw [List.length_drop]; omega⟩).val)
    else none
  | [0x18, 0x20, 0] => some ([0x0E, 12, 1, 0x18, 0x20, 0] ++ le64 (D.random n))
  | [0x05, 0x14, 2, a, b] => some [0x0E, 7, 1, 0x05, 0x14, 0, a, b, twos (D.rssi n (handleOf a b))]
  | [0x2D, 0x0C, 3, a, b, 0] => some [0x0E, 7, 1, 0x2D, 0x0C, 0, a, b, twos (D.power n (handleOf a b) .current)]
  | [0x2D, 0x0C, 3, a, b, 1] => some [0x0E, 7, 1, 0x2D, 0x0C, 0, a, b, twos (D.power n (handleOf a b) .maximum)]
  | [0x15, 0x20, 2, a, b] => some ([0x0E, 11, 1, 0x15, 0x20, 0, a, b] ++ (D.channels n (handleOf a b)).val)
  | [0x01, 0x10, 0] => some ([0x0E, 12, 1, 0x01, 0x10, 0, D.hciVersion] ++ le16 D.hciRevision ++
      [D.lmpVersion] ++ le16 D.manufacturer ++ le16 D.lmpSubversion)
  | [0x02, 0x10, 0] => some ([0x0E, 68, 1, 0x02, 0x10, 0] ++ D.commands.val)
  | [0x03, 0x10, 0] => some ([0x0E, 12, 1, 0x03, 0x10, 0] ++ le64 D.features)
  | [0x09, 0x10, 0] => some ([0x0E, 10, 1, 0x09, 0x10, 0] ++ D.address.val.val)
  | [0x02, 0x20, 0] => some ([0x0E, 7, 1, 0x02, 0x20, 0] ++ le16 D.dataLength ++ [D.dataPackets])
  | [0x03, 0x20, 0] => some ([0x0E, 12, 1, 0x03, 0x20, 0] ++ le64 D.leFeatures)
  | [0x07, 0x20, 0] => some [0x0E, 5, 1, 0x07, 0x20, 0, twos (D.advertisingPower n)]
  | [0x0F, 0x20, 0] => some [0x0E, 5, 1, 0x0F, 0x20, 0, D.whiteListSize]
  | [0x1C, 0x20, 0] => some ([0x0E, 12, 1, 0x1C, 0x20, 0] ++ le64 D.states)
  | [0x1F, 0x20, 0] => some ([0x0E, 6, 1, 0x1F, 0x20, 0] ++ le16 (D.received n))
  | _ => none

/-- What an application asks. -/
inductive Question where
  | encrypt (key block : Arr 16)
  | random
  | rssi (h : ConnectionHandle)
  | power (h : ConnectionHandle) (t : TxPowerLevel)
  | channels (h : ConnectionHandle)
  | version
  | commands
  | features
  | address
  | buffers
  | leFeatures
  | advertisingPower
  | whiteListSize
  | states
  | received

/-- The method that asks it. -/
def Question.command {VS : Type} : Question → Command VS
  | .encrypt key block => .leEncrypt ⟨key, block⟩
  | .random => .leRand
  | .rssi h => .readRssi h
  | .power h t => .readTxPowerLevel h t
  | .channels h => .leReadChannelMap h
  | .version => .readLocalVersionInformation
  | .commands => .readLocalSupportedCommands
  | .features => .readLocalSupportedFeatures
  | .address => .readBdAddr
  | .buffers => .leReadBufferSize
  | .leFeatures => .leReadLocalSupportedFeatures
  | .advertisingPower => .leReadAdvertisingChannelTxPower
  | .whiteListSize => .leReadWhiteListSize
  | .states => .leReadSupportedStates
  | .received => .leTestEnd

/-- The answer that the application must get: success, the connection it asked about, the value that the device has. -/
def Question.answer {VS VR : Type} (D : Device) (n : Nat) : Question → ReturnParameters VS VR
  | .encrypt key block => .leEncrypt ⟨.success, D.cipher key block⟩
  | .random => .leRand ⟨.success, D.random n⟩
  | .rssi h => .readRssi ⟨.success, h, D.rssi n h.val⟩
  | .power h t => .readTxPowerLevel ⟨.success, h, D.power n h.val t⟩
  | .channels h => .leReadChannelMap ⟨.success, h, ⟨D.channels n h.val⟩⟩
  | .version => .readLocalVersionInformation
      ⟨.success, D.hciVersion, D.hciRevision, D.lmpVersion, D.manufacturer, D.lmpSubversion⟩
  | .commands => .readLocalSupportedCommands ⟨.success, ⟨D.commands⟩⟩
  | .features => .readLocalSupportedFeatures ⟨.success, D.features⟩
  | .address => .readBdAddr ⟨.success, D.address⟩
  | .buffers => .leReadBufferSize ⟨.success, D.dataLength, D.dataPackets⟩
  | .leFeatures => .leReadLocalSupportedFeatures ⟨.success, D.leFeatures⟩
  | .advertisingPower => .leReadAdvertisingChannelTxPower ⟨.success, D.advertisingPower n⟩
  | .whiteListSize => .leReadWhiteListSize .success D.whiteListSize.toNat
  | .states => .leReadSupportedStates ⟨.success, D.states⟩
  | .received => .leTestEnd ⟨.success, (D.received n).toNat⟩

/-- What the device puts on the UART for what it gets there. -/
def Device.uart (D : Device) (n : Nat) : List UInt8 → List UInt8
  | 0x01 :: bytes => match D.serve n bytes with
    | some packet => 0x04 :: packet
    | none => []
  | _ => []

/-- The controller is connected to the device by a UART: what is written reaches the device at once, what the device
answers is received, and nothing else is. -/
structure Serves {σ E : Type} (D : Device) (k : Controller σ E) (stream : σ → List UInt8) (taken served : σ → Nat) :
    Prop where
  delivers : Delivers k stream taken
  prompt : Prompt k stream taken
  quiet : Quiet k stream taken
  write : ∀ h p s, (k.write h p s).1 = .ok () ∧ taken (k.write h p s).2 = taken s ∧
    stream (k.write h p s).2 = stream s ++ D.uart (served s) (h ++ p) ∧ served (k.write h p s).2 = served s + 1
  peek : ∀ n s, served (k.peek n s).2 = served s
  readInto : ∀ n s, served (k.readInto n s).2 = served s

/-- An application that asks one question after the other, and reads once after each. -/
def ask {σ E VS : Type} (c : Cfg) (V : Vendor) (k : Controller σ E) (vinto : VS → UInt8) :
    List Question → σ → List (Res (Nb (UartError E V.VErr)) (UartPacket V)) × σ
  | [], s => ([], s)
  | q :: qs, s =>
    let s₁ := ((q.command (VS := VS)).exec (linkHeader .uart) k vinto s).2
    let r := Uart.read c V k s₁
    (r.1 :: (ask c V k vinto qs r.2).1, (ask c V k vinto qs r.2).2)

/-- The answers to questions, of which the first is the `n`-th command. -/
def answers {VS VR : Type} (D : Device) : Nat → List Question → List (ReturnParameters VS VR)
  | _, [] => []
  | n, q :: qs => q.answer D n :: answers D (n + 1) qs

/-- Such a controller, for any device: a queue. -/
def deviceFifo (D : Device) : Controller (Fifo × Nat) Unit where
  write h p := fun s => (.ok (), ((s.1.1 ++ D.uart s.2 (h ++ p), s.1.2), s.2 + 1))
  peek n := fun s => ((fifo.peek n s.1).1, ((fifo.peek n s.1).2, s.2))
  readInto n := fun s => ((fifo.readInto n s.1).1, ((fifo.readInto n s.1).2, s.2))

theorem deviceFifo_serves (D : Device) : Serves D (deviceFifo D) (·.1.1) (·.1.2) (·.2) where
  delivers :=
    { peek := fun n s r s' h => by
        cases h
        exact fifo_delivers.peek n s.1 _ _ rfl
      readInto := fun n s r s' h => by
        cases h
        exact fifo_delivers.readInto n s.1 _ _ rfl }
  prompt := ⟨fun n s h => fifo_prompt.peek n s.1 h, fun n s h => fifo_prompt.readInto n s.1 h⟩
  quiet := ⟨fun n s => fifo_quiet.peek n s.1, fun n s => fifo_quiet.readInto n s.1⟩
  write _ _ _ := ⟨rfl, rfl, rfl, rfl⟩
  peek _ _ := rfl
  readInto _ _ := rfl

end Spec
