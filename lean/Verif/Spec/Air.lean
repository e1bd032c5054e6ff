import Verif.Spec.Settings
import Verif.Spec.StandardReports
import Verif.Spec.Echo

/-! # Specification: from the controller of an advertiser to the host of a scanner

What a controller transmits, given what it has been told (Vol 6 Part B 2.3 and 4.4.2; Vol 2 Part E 7.8.5), as a report of
the controller of a scanner (Vol 2 Part E 7.7.65.2), and what the application at the advertiser has asked for. -/

namespace Spec

open Bt

/-! ## The controllers -/

/-- The address in the packets of an advertiser. Own address types 2 and 3 stand for private addresses, which are made
from the resolving list; while this is empty, as no command of the crate fills it, they mean 0 and 1. -/
def Sender (own : BdAddr) (t : Told) (ownAddress : Nat) (r : RawReport) : Prop :=
  (ownAddress = 0 ∨ ownAddress = 2) ∧ r.addressType = 0 ∧ r.address.val = own.val.val ∨
  (ownAddress = 1 ∨ ownAddress = 3) ∧ r.addressType = 1 ∧ t.randomAddress = some r.address.val

/-- A report of a packet from a controller that has the public address `own` and has been told `t`. Directed
advertising (1 and 4) has one type of packet and carries no data. Only types 0 and 2 are answered when scanned. -/
inductive OnAir (own : BdAddr) (t : Told) (r : RawReport) : Prop where
  | undirected (p : AdvertisingTold) : t.advertisingOn = true → t.advertising = some p → Sender own t p.ownAddress r →
      p.kind ∈ [0, 2, 3] → r.eventType.toNat = p.kind → r.data = t.advertisingData.getD [] → OnAir own t r
  | directed (p : AdvertisingTold) : t.advertisingOn = true → t.advertising = some p → Sender own t p.ownAddress r →
      p.kind ∈ [1, 4] → r.eventType = 1 → r.data = [] → OnAir own t r
  | response (p : AdvertisingTold) : t.advertisingOn = true → t.advertising = some p → Sender own t p.ownAddress r →
      p.kind ∈ [0, 2] → r.eventType = 4 → r.data = t.scanResponse.getD [] → OnAir own t r

/-! ## The applications -/

/-- The address that the application asked the controller to use. -/
def UsesAddress (own : BdAddr) (a : Asked) : OwnAddressType → BdAddrType → Prop
  | .pub, x => x = .pub own
  | .privateFallbackPublic, x => x = .pub own
  | .random, x => ∃ b, a.randomAddress = some b ∧ x = .random b
  | .privateFallbackRandom, x => ∃ b, a.randomAddress = some b ∧ x = .random b

/-- The advertisement or scan response that the application of the advertiser asked for. -/
def Offered (a : Asked) : AdvertisingType → AdvertisementEvent → List UInt8 → Prop
  | .connectableUndirected, k, d => k = .advertisement ∧ d = a.advertisingData.getD [] ∨
      k = .scanResponse ∧ d = a.scanResponse.getD []
  | .scannableUndirected, k, d => k = .scan ∧ d = a.advertisingData.getD [] ∨
      k = .scanResponse ∧ d = a.scanResponse.getD []
  | .nonConnectableUndirected, k, d => k = .nonConnectableAdvertisement ∧ d = a.advertisingData.getD []
  | .connectableDirectedHighDutyCycle, k, d => k = .directAdvertisement ∧ d = []
  | .connectableDirectedLowDutyCycle, k, d => k = .directAdvertisement ∧ d = []

/-- What the scanner hears is what the advertiser asked for. -/
def HeardAsAsked (own : BdAddr) (a : Asked) (x : LeAdvertisement) : Prop :=
  a.advertisingOn = true ∧ ∃ p, a.advertising = some p ∧ UsesAddress own a p.ownAddressType x.address ∧
    Offered a p.advertisingInterval.advertisingType x.eventType x.data

end Spec
