import Verif.Props.Advertisement
import Verif.Props.CommandArgs
import Verif.Props.Reports

/-! # C77: advertised structures reach the scanner -/

namespace Bt

open Spec

variable {σ E VS ε : Type}

/-- The significant part of the parameters of LE Set Advertising Data and LE Set Scan Response Data (Vol 2,
Part E, 7.8.7 and 7.8.8): the first byte says how many of the following bytes are significant. -/
def significant : List UInt8 → List UInt8
  | [] => []
  | n :: rest => rest.take n.toNat

theorem adSize_le_sum {a : Advertisement} : ∀ {as : List Advertisement}, a ∈ as → adSize a ≤ (as.map adSize).sum
  | b :: bs, h => by
    rw [List.map_cons, List.sum_cons]
    rcases List.mem_cons.mp h with rfl | h
    · omega
    · have := adSize_le_sum h
      omega

/-- **C77.** Structures of at most 31 bytes in total, written one after another into any buffer that holds
them, can be sent with either method: one packet is written under the right opcode, and its significant part
reads back as exactly these structures. -/
theorem C77_sent (l : Link) (k : Controller σ E) (s : σ) (as : List Advertisement) (buf : List UInt8)
    (h31 : (as.map adSize).sum ≤ 31) (hb : (as.map adSize).sum ≤ buf.length) :
    ∃ out n params, writeAds (ε := ε) as buf = .ok (out, n) ∧ readAds (significant params) = some as ∧
      (Hci.leSetAdvertisingData (VS := VS) (linkHeader l) (recording k) (out.take n) (s, [])).2.2 =
        [.write (headerBytes l 0x2008 32) params] ∧
      (Hci.leSetScanResponseData (VS := VS) (linkHeader l) (recording k) (out.take n) (s, [])).2.2 =
        [.write (headerBytes l 0x2009 32) params] := by
  have hs : ∀ a ∈ as, adSize a ≤ 256 := by
    intro a ha
    have := adSize_le_sum ha
    omega
  obtain ⟨out, h1, h2, h3⟩ := C38_sequence (ε := ε) as buf hs hb
  have ht : (out ++ buf.drop (as.map adSize).sum).take (as.map adSize).sum = out := by
    rw [List.take_append_of_le_length (by omega), List.take_of_length_le (by omega)]
  obtain ⟨e1, e2⟩ := C45_outbound_data (VS := VS) l (recording k) out (s, [])
  have ho : out.length ≤ 31 := by omega
  refine ⟨_, _, UInt8.ofNat out.length :: out ++ zeroes (31 - out.length), h1, ?_, ?_, ?_⟩
  · show readAds ((out ++ zeroes (31 - out.length)).take (UInt8.ofNat out.length).toNat) = some as
    rw [UInt8.toNat_ofNat', Nat.mod_eq_of_lt (by omega), List.take_left]
    exact h3
  · simp only [ht, e1, if_pos ho]; rfl
  · simp only [ht, e2, if_pos ho]; rfl

/-- A name and a manufacturer's data. -/
example : ∃ out params, writeAds (ε := Empty) [.completeLocalName [65, 66], .manufacturerSpecificData 1 [9]]
      (zeroes 31) = .ok (out, 9) ∧
    (Hci.leSetAdvertisingData (VS := Empty) (linkHeader .uart) (recording logController) (out.take 9)
      ([], [])).2.2 = [.write (headerBytes .uart 0x2008 32) params] ∧
    readAds (significant params) = some [.completeLocalName [65, 66], .manufacturerSpecificData 1 [9]] :=
  ⟨_, 9 :: 3 :: 9 :: 65 :: 66 :: 4 :: 0xff :: 1 :: 0 :: 9 :: zeroes 22, rfl, rfl, by decide +kernel⟩

/-- **C77.** A scanner that receives these structures in an advertising report, at any place among other
reports, reads back exactly them. -/
theorem C77_heard (c : Cfg) (V : Vendor) (as : List Advertisement) (params : List UInt8)
    (hp : readAds (significant params) = some as) (n : UInt8) (earlier later : List LeAdvertisement)
    (kind : AdvertisementEvent) (address : BdAddrType) (rssi : Option Int8)
    (hl : (advsBytes (earlier ++ ⟨kind, address, significant params, rssi⟩ :: later)).length ≤ 253) :
    ∃ r heard report, Event.new c V (frame 0x3E (0x02 :: n ::
        advsBytes (earlier ++ ⟨kind, address, significant params, rssi⟩ :: later))) =
          .ok (.leAdvertisingReport r) ∧
      r.iter (ε := ε) = .ok heard ∧ heard[earlier.length]? = some report ∧
      report.eventType = kind ∧ report.address = address ∧ readAds report.data = some as := by
  obtain ⟨r, h1, h2⟩ := C16_round_trip_received c V (ε := ε) n _ hl
  refine ⟨r, _, asReceived ⟨kind, address, significant params, rssi⟩, h1, h2, ?_, ?_⟩
  · simp
  · unfold asReceived
    split
    · exact ⟨rfl, rfl, hp⟩
    · exact ⟨rfl, rfl, hp⟩

example : readAds (significant (9 :: 3 :: 9 :: 65 :: 66 :: 4 :: 0xff :: 1 :: 0 :: 9 :: zeroes 22)) =
      some [.completeLocalName [65, 66], .manufacturerSpecificData 1 [9]] ∧
    (advsBytes ([] ++ ⟨.advertisement, .pub ⟨⟨[6, 5, 4, 3, 2, 1], rfl⟩⟩,
      significant (9 :: 3 :: 9 :: 65 :: 66 :: 4 :: 0xff :: 1 :: 0 :: 9 :: zeroes 22), none⟩ :: demoAdvs)).length ≤
      253 := by
  constructor <;> decide +kernel

end Bt
