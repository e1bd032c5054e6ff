import Verif.Model.Event.Event
import Verif.Model.Host.Params

/-! # Model of the hand-written `Debug` implementations

Text is a list of characters. `core::fmt` is trusted to render numbers, slices and derived `Debug`
structs as below, in the plain forms `{:?}` and `{:X?}` and in the alternate form `{:#?}`. -/

namespace Bt

/-- What `core::fmt` writes. -/
abbrev Text := List Char

/-- `{:?}` of an unsigned integer (`core::fmt`). -/
def fmtDec (n : Nat) : Text := Nat.toDigits 10 n

/-- `{:X?}` of a `u8` (`core::fmt`): upper case, no leading zero. -/
def fmtHex (b : UInt8) : Text := (Nat.toDigits 16 b.toNat).map Char.toUpper

/-- The items of a slice, separated by `", "` (`core::fmt`). -/
def fmtItems {α : Type} (f : α → Text) : List α → Text
  | [] => []
  | [x] => f x
  | x :: y :: xs => f x ++ ',' :: ' ' :: fmtItems f (y :: xs)

/-- A slice (`core::fmt`). -/
def fmtSlice {α : Type} (f : α → Text) (xs : List α) : Text := '[' :: (fmtItems f xs ++ [']'])

/-- How derived implementations print: as `{:?}` or, if `alternate` is set, as `{:#?}` (`core::fmt`). The hand-written
implementations below call `write!` with `{:?}` or `{:X?}`, so that what they write is the same either way. -/
class Style where
  alternate : Bool

namespace Plain

/-- `{:?}`. -/
scoped instance style : Style := ⟨false⟩

end Plain

namespace Pretty

/-- `{:#?}`. -/
scoped instance style : Style := ⟨true⟩

end Pretty

/-- `PadAdapter` (`core::fmt`): four spaces before every line. The flag says whether a line begins. -/
def fmtPad : Bool → Text → Text
  | _, [] => []
  | true, x :: t => ' ' :: ' ' :: ' ' :: ' ' :: x :: fmtPad (x == '\n') t
  | false, x :: t => x :: fmtPad (x == '\n') t

/-- The fields of a derived struct, separated by `", "` (`core::fmt`). -/
def fmtFields : List (String × Text) → Text
  | [] => []
  | [(k, v)] => k.toList ++ ':' :: ' ' :: v
  | (k, v) :: f :: fs => k.toList ++ ':' :: ' ' :: (v ++ ',' :: ' ' :: fmtFields (f :: fs))

/-- The fields of a derived struct, each on its own lines (`core::fmt`). -/
def fmtFieldLines : List (String × Text) → Text
  | [] => []
  | (k, v) :: fs => k.toList ++ ':' :: ' ' :: (v ++ ',' :: '\n' :: fmtFieldLines fs)

/-- Items, each on its own lines (`core::fmt`). -/
def fmtLines : List Text → Text
  | [] => []
  | v :: vs => v ++ ',' :: '\n' :: fmtLines vs

/-- `debug_struct` (`core::fmt`) with at least one field. -/
def fmtStruct [Style] (name : String) (fields : List (String × Text)) : Text :=
  if Style.alternate then name.toList ++ ' ' :: '{' :: '\n' :: (fmtPad true (fmtFieldLines fields) ++ ['}'])
  else name.toList ++ ' ' :: '{' :: ' ' :: (fmtFields fields ++ [' ', '}'])

/-- `debug_tuple` (`core::fmt`) with at least one field. -/
def fmtTuple [Style] (name : String) (fields : List Text) : Text :=
  if Style.alternate then name.toList ++ '(' :: '\n' :: (fmtPad true (fmtLines fields) ++ [')'])
  else name.toList ++ '(' :: (fmtItems id fields ++ [')'])

/-- A variant of an enum, with or without fields (`core::fmt`). -/
def fmtVariant [Style] (name : String) : List Text → Text
  | [] => name.toList
  | t :: ts => fmtTuple name (t :: ts)

/-- `debug_list` (`core::fmt`), by which slices and arrays are printed. -/
def fmtList [Style] {α : Type} (f : α → Text) (xs : List α) : Text :=
  if Style.alternate then
    if xs.isEmpty then ['[', ']'] else '[' :: '\n' :: (fmtPad true (fmtLines (xs.map f)) ++ [']'])
  else fmtSlice f xs

/-- `impl Debug for CommandFlags`: event/command.rs 1040-1046. -/
def CommandFlags.debug {ε : Type} (f : CommandFlags) : Res ε Text := do
  let a ← slice f.arr.val 0 16
  let b ← slice f.arr.val 16 32
  let d ← slice f.arr.val 32 39
  .ok (fmtSlice (fmtDec ·.toNat) a ++ ['\n'] ++ (fmtSlice (fmtDec ·.toNat) b ++ ['\n']) ++
    (fmtSlice (fmtDec ·.toNat) d ++ ['\n']))

/-- `impl Debug for EncryptedBlock`: event/command.rs 1490-1494. -/
def encryptedBlockDebug (b : Arr 16) : Text :=
  "AES-128 Encrypted Data (".toList ++ fmtSlice fmtHex b.val ++ ")\n".toList

/-- `impl Debug for EncryptionKey`: host/mod.rs 2132-2136. -/
def encryptionKeyDebug (k : Arr 16) : Text :=
  "AES-128 Key (".toList ++ fmtSlice fmtHex k.val ++ ")".toList

/-- `impl Debug for PlaintextBlock`: host/mod.rs 2144-2148. -/
def plaintextBlockDebug (_ : Arr 16) : Text := "AES-128 Plaintext (REDACTED)".toList

/-- `#[derive(Debug)]` of `AesParameters`: host/mod.rs 2111-2124. -/
def AesParameters.debug [Style] (p : AesParameters) : Text :=
  fmtStruct "AesParameters" [("key", encryptionKeyDebug p.key),
    ("plaintext_data", plaintextBlockDebug p.plaintextData)]

/-- `#[derive(Debug)]` of `NumberOfCompletedPacketsPair` (event/mod.rs 718-726) and of `ConnectionHandle`
(lib.rs 707-708); the plain form. -/
def NumberOfCompletedPacketsPair.debug (p : NumberOfCompletedPacketsPair) : Text :=
  "NumberOfCompletedPacketsPair { conn_handle: ConnectionHandle(".toList ++ fmtDec p.connHandle.val.toNat ++
    "), num_completed_packets: ".toList ++ fmtDec p.numCompletedPackets ++ " }".toList

/-- `impl Debug for NumberOfCompletedPackets`: event/mod.rs 669-677. -/
def NumberOfCompletedPackets.debug {ε : Type} (e : NumberOfCompletedPackets) : Res ε Text := do
  let ps ← e.iter
  .ok ('{' :: ((ps.map NumberOfCompletedPacketsPair.debug).flatten ++ ['}']))

/-- `{:?}` of an `i8` (`core::fmt`). -/
def fmtInt8 (x : Int8) : Text := if x.toInt < 0 then '-' :: fmtDec x.toInt.natAbs else fmtDec x.toInt.natAbs

/-- `#[derive(Debug)]` of `AdvertisementEvent`: event/mod.rs 1084-1096. -/
def AdvertisementEvent.debug : AdvertisementEvent → Text
  | .advertisement => "Advertisement".toList
  | .directAdvertisement => "DirectAdvertisement".toList
  | .scan => "Scan".toList
  | .nonConnectableAdvertisement => "NonConnectableAdvertisement".toList
  | .scanResponse => "ScanResponse".toList

/-- `#[derive(Debug)]` of `BdAddr`: lib.rs 711-712; the plain form, as within an advertisement that the hand-written
implementation below prints. -/
def BdAddr.debug (a : BdAddr) : Text := "BdAddr(".toList ++ fmtSlice (fmtDec ·.toNat) a.val.val ++ ")".toList

/-- `#[derive(Debug)]` of `BdAddrType`: lib.rs 715-722; the plain form. -/
def BdAddrType.debug : BdAddrType → Text
  | .pub a => "Public(".toList ++ a.debug ++ ")".toList
  | .random a => "Random(".toList ++ a.debug ++ ")".toList

/-- `Debug` of `Option<i8>` (`core`). -/
def fmtRssi : Option Int8 → Text
  | none => "None".toList
  | some x => "Some(".toList ++ fmtInt8 x ++ ")".toList

/-- `#[derive(Debug)]` of `LeAdvertisement`: event/mod.rs 1063-1079; the plain form. -/
def LeAdvertisement.debug (a : LeAdvertisement) : Text :=
  "LeAdvertisement { event_type: ".toList ++ a.eventType.debug ++ ", address: ".toList ++ a.address.debug ++
    ", data: ".toList ++ fmtSlice (fmtDec ·.toNat) a.data ++ ", rssi: ".toList ++ fmtRssi a.rssi ++ " }".toList

/-- `impl Debug for LeAdvertisingReport`: event/mod.rs 993-1001. How an advertisement is printed is a parameter:
in the crate it is `LeAdvertisement.debug`. -/
def LeAdvertisingReport.debug {ε : Type} (item : LeAdvertisement → Text) (r : LeAdvertisingReport) :
    Res ε Text := do
  let as ← r.iter
  .ok ('{' :: ((as.map item).flatten ++ ['}']))

end Bt
