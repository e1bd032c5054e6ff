import Verif.Spec.Config
import Verif.Spec.Events

/-! # What the standard permits in advertising reports (Vol 2 Part E 7.7.65.2) -/

namespace Spec

open Bt

/-- The fields of one advertising report as they are on the wire. -/
structure RawReport where
  eventType : UInt8
  addressType : UInt8
  address : Arr 6
  data : List UInt8
  rssi : UInt8

/-- Event_Type, Address_Type, Address, Data_Length, Data, RSSI. -/
def RawReport.bytes (r : RawReport) : List UInt8 :=
  r.eventType :: r.addressType :: r.address.val ++ UInt8.ofNat r.data.length :: r.data ++ [r.rssi]

/-- Several reports. -/
def rawBytes (rs : List RawReport) : List UInt8 := (rs.map RawReport.bytes).flatten

/-- A report of a conforming controller: Event_Type 0-4, Address_Type 0 and 1, and 2 and 3 (identity
addresses) since 4.2, at most 31 bytes of data, RSSI from -127 to 20 dBm or 127 for not available. -/
structure RawReport.Conforms (c : Cfg) (r : RawReport) : Prop where
  eventType : r.eventType ≤ 4
  addressType : r.addressType ≤ 1 ∨ (From42 c ∧ r.addressType ≤ 3)
  data : r.data.length ≤ 31
  rssi : (-127 ≤ r.rssi.toInt8.toInt ∧ r.rssi.toInt8.toInt ≤ 20) ∨ r.rssi = 127

/-- The advertisement handed to the application says what the report says. -/
structure RawReport.Means (r : RawReport) (a : LeAdvertisement) : Prop where
  eventType : advEventCode a.eventType = r.eventType
  address : addrTypeBytes a.address = r.addressType :: r.address.val
  data : a.data = r.data
  rssi : a.rssi = if r.rssi = 127 then none else some r.rssi.toInt8

/-- The advertisements say what the reports say, one by one and in order. -/
def AllMean (rs : List RawReport) (as : List LeAdvertisement) : Prop :=
  rs.length = as.length ∧ ∀ p ∈ rs.zip as, p.1.Means p.2

end Spec
