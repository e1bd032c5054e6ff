import Verif.Spec.Acceptable
import Verif.Spec.CommandStream
import Verif.Spec.Flags

/-! # Specification: what a controller has been set to, and what the application asked for

`Told` is the configuration of a controller as it results from the command packets it has carried out
(Bluetooth specification, Vol 2, Part E, 7.3 and 7.8), read from the bytes. `Asked` is the configuration as the
application sees it: the arguments of the calls. `Agree` compares the two. In both `none` stands for the
defaults of the controller. -/

namespace Spec

open Bt

/-! ## The controller -/

/-- LE Set Advertising Parameters: intervals in units of 0.625 ms, and the codes. -/
structure AdvertisingTold where
  intervalMin : Nat
  intervalMax : Nat
  kind : Nat
  ownAddress : Nat
  peerKind : Nat
  peer : List UInt8
  channels : Nat
  filter : Nat

/-- LE Set Scan Parameters: interval and window in units of 0.625 ms, and the codes. -/
structure ScanTold where
  kind : Nat
  interval : Nat
  window : Nat
  ownAddress : Nat
  filter : Nat

/-- What the packets have set. `scanning` is `none` while scanning is off and tells whether duplicates are
filtered while it is on. The white list is a set of address types and addresses. -/
structure Told where
  eventMask : Option Nat := none
  leEventMask : Option Nat := none
  randomAddress : Option (List UInt8) := none
  advertising : Option AdvertisingTold := none
  advertisingData : Option (List UInt8) := none
  scanResponse : Option (List UInt8) := none
  advertisingOn : Bool := false
  scan : Option ScanTold := none
  scanning : Option Bool := none
  whiteList : Nat × List UInt8 → Bool := fun _ => false
  channels : Option (List UInt8) := none

/-- The white list entry of a packet; the address is ignored for anonymous advertisers (type 0xFF). -/
def entryOf (ps : List UInt8) : Nat × List UInt8 :=
  (byteAt ps 0, if byteAt ps 0 = 0xFF then [] else ps.drop 1)

/-- Carry out one command packet. -/
def Told.hear (t : Told) (op : UInt16) (ps : List UInt8) : Told :=
  if op = 0x0C03 then {}
  else if op = 0x0C01 then { t with eventMask := some (leVal ps) }
  else if op = 0x2001 then { t with leEventMask := some (leVal ps) }
  else if op = 0x2005 then { t with randomAddress := some ps }
  else if op = 0x2006 then { t with advertising := some (⟨u16At ps 0, u16At ps 2, byteAt ps 4,
    byteAt ps 5, byteAt ps 6, (ps.drop 7).take 6, byteAt ps 13, byteAt ps 14⟩) }
  else if op = 0x2008 then { t with advertisingData := some ((ps.drop 1).take (byteAt ps 0)) }
  else if op = 0x2009 then { t with scanResponse := some ((ps.drop 1).take (byteAt ps 0)) }
  else if op = 0x200A then { t with advertisingOn := decide (byteAt ps 0 = 1) }
  else if op = 0x200B then { t with scan := some (⟨byteAt ps 0, u16At ps 1, u16At ps 3,
    byteAt ps 5, byteAt ps 6⟩) }
  else if op = 0x200C then { t with scanning := (if byteAt ps 0 = 1 then some (decide (byteAt ps 1 = 1))
    else none) }
  else if op = 0x2010 then { t with whiteList := fun _ => false }
  else if op = 0x2011 then { t with whiteList := fun e => decide (e = entryOf ps) || t.whiteList e }
  else if op = 0x2012 then { t with whiteList := fun e => !decide (e = entryOf ps) && t.whiteList e }
  else if op = 0x2014 then { t with channels := some ps }
  else t

/-! ## The application -/

/-- What can be put on the white list. -/
inductive Peer where
  | device (a : BdAddrType)
  | anonymous
  deriving DecidableEq

/-- What the calls have asked for. -/
structure Asked where
  eventMask : Option UInt64 := none
  leEventMask : Option UInt64 := none
  randomAddress : Option BdAddr := none
  advertising : Option AdvertisingParameters := none
  advertisingData : Option (List UInt8) := none
  scanResponse : Option (List UInt8) := none
  advertisingOn : Bool := false
  scan : Option ScanParameters := none
  scanning : Option Bool := none
  whiteList : Peer → Bool := fun _ => false
  channels : Option ChannelClassification := none

/-- One more call. -/
def Asked.say {VS : Type} (a : Asked) : Command VS → Asked
  | .reset => {}
  | .setEventMask m => { a with eventMask := some m }
  | .leSetEventMask m => { a with leEventMask := some m }
  | .leSetRandomAddress r => { a with randomAddress := some r }
  | .leSetAdvertisingParameters p => { a with advertising := some p }
  | .leSetAdvertisingData d => { a with advertisingData := some d }
  | .leSetScanResponseData d => { a with scanResponse := some d }
  | .leSetAdvertiseEnable b => { a with advertisingOn := b }
  | .leSetAdvertisingEnable b => { a with advertisingOn := b }
  | .leSetScanParameters p => { a with scan := some p }
  | .leSetScanEnable e f => { a with scanning := if e then some f else none }
  | .leClearWhiteList => { a with whiteList := fun _ => false }
  | .leAddDeviceToWhiteList d => { a with whiteList := fun p => decide (p = .device d) || a.whiteList p }
  | .leAddAnonAdvertisingDevicesToWhiteList =>
    { a with whiteList := fun p => decide (p = .anonymous) || a.whiteList p }
  | .leRemoveDeviceFromWhiteList d => { a with whiteList := fun p => !decide (p = .device d) && a.whiteList p }
  | .leRemoveAnonAdvertisingDevicesFromWhiteList =>
    { a with whiteList := fun p => !decide (p = .anonymous) && a.whiteList p }
  | .leSetHostChannelClassification ch => { a with channels := some ch }
  | _ => a

/-! ## Agreement -/

/-- Both unset, or both set to related values. -/
def Both {α β : Type} (R : α → β → Prop) : Option α → Option β → Prop
  | none, none => True
  | some a, some b => R a b
  | _, _ => False

/-- `n` units of 0.625 ms are the duration `d`, up to less than a unit. -/
def InUnits (d : Duration) (n : Nat) : Prop := n * (625 * us) ≤ d.ns ∧ d.ns < (n + 1) * (625 * us)

/-- The address type of the standard and the six bytes of the address. -/
def SameDevice : BdAddrType → Nat → List UInt8 → Prop
  | .pub x, n, bs => n = 0 ∧ bs = x.val.val
  | .random x, n, bs => n = 1 ∧ bs = x.val.val

/-- The advertising parameters asked for. The intervals are not used by high duty cycle directed
advertising. -/
structure SameAdvertising (p : AdvertisingParameters) (t : AdvertisingTold) : Prop where
  kind : t.kind = (advTypeCode p.advertisingInterval.advertisingType).toNat
  intervals : p.advertisingInterval.advertisingType ≠ .connectableDirectedHighDutyCycle →
    InUnits p.advertisingInterval.min t.intervalMin ∧ InUnits p.advertisingInterval.max t.intervalMax
  ownAddress : t.ownAddress = (ownAddressCode p.ownAddressType).toNat
  peer : SameDevice p.peerAddress t.peerKind t.peer
  channels : t.channels = p.advertisingChannelMap.toNat
  filter : t.filter = (advFilterCode p.advertisingFilterPolicy).toNat

/-- The scan parameters asked for. -/
structure SameScan (p : ScanParameters) (t : ScanTold) : Prop where
  kind : t.kind = (scanTypeCode p.scanType).toNat
  interval : InUnits p.scanWindow.intervalWidth t.interval
  window : InUnits p.scanWindow.windowWidth t.window
  ownAddress : t.ownAddress = (ownAddressCode p.ownAddressType).toNat
  filter : t.filter = (scanFilterCode p.filterPolicy).toNat

/-- The entry of a peer. -/
def Listed : Peer → Nat × List UInt8 → Prop
  | .device a, e => SameDevice a e.1 e.2
  | .anonymous, e => e = (0xFF, [])

/-- The controller is set as the application asked. -/
structure Agree (a : Asked) (t : Told) : Prop where
  eventMask : Both (fun m n => n = m.toNat) a.eventMask t.eventMask
  leEventMask : Both (fun m n => n = m.toNat) a.leEventMask t.leEventMask
  randomAddress : Both (fun r bs => bs = r.val.val) a.randomAddress t.randomAddress
  advertising : Both SameAdvertising a.advertising t.advertising
  advertisingData : a.advertisingData = t.advertisingData
  scanResponse : a.scanResponse = t.scanResponse
  advertisingOn : a.advertisingOn = t.advertisingOn
  scan : Both SameScan a.scan t.scan
  scanning : a.scanning = t.scanning
  whiteList : ∀ e, t.whiteList e = true ↔ ∃ p, a.whiteList p = true ∧ Listed p e
  channels : Both (fun ch bs => ∀ i, HasBit bs (i / 8) (i % 8) ↔ HasBit ch.arr.val (i / 8) (i % 8))
    a.channels t.channels

/-- The elements whose verdict is favourable: the commands that the controller carried out. -/
def favoured {α : Type} (verdicts : List Bool) (xs : List α) : List α :=
  ((xs.zip verdicts).filter (·.2)).map (·.1)

/-! ## Sessions -/

/-- The bytes before the parameters and the parameters of the packets a controller has taken: a write that
succeeds adds one, a write that fails adds none. -/
structure TakesPackets {σ E : Type} (k : Controller σ E) (got : σ → List (List UInt8 × List UInt8)) : Prop where
  ok : ∀ h p s, (k.write h p s).1 = .ok () → got (k.write h p s).2 = got s ++ [(h, p)]
  err : ∀ h p s e, (k.write h p s).1 = .err e → got (k.write h p s).2 = got s
  noPanic : ∀ h p s, (k.write h p s).1 ≠ .panic

/-- The opcode in the bytes before the parameters: after the packet indicator on a UART, else first. -/
def opcodeIn : Link → List UInt8 → UInt16
  | .uart, h => UInt16.ofNat (leVal ((h.drop 1).take 2))
  | .cmdLink, h => UInt16.ofNat (leVal (h.take 2))

/-- The commands that returned Ok. -/
def returnedOk {VS ε : Type} (cmds : List (Command VS)) (results : List (Res ε Unit)) : List (Command VS) :=
  ((cmds.zip results).filter (fun p => p.2 matches .ok ())).map (·.1)

end Spec
