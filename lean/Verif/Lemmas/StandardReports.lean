import Verif.Spec.StandardReports
import Verif.Props.Reports

/-! # Lemmas: advertising reports of a conforming controller -/

namespace Bt

open Spec

variable (c : Cfg) (V : Vendor)

theorem report_event (n : UInt8) (ps : List UInt8) (h : ps.length ≤ 253) :
    Event.new c V (frame 0x3E (0x02 :: n :: ps)) =
      (checkLoop (VE := V.VErr) ps 0 >>= fun _ =>
        .ok (Event.leAdvertisingReport ⟨ps.length, zeroPadded MAX_ADVERTISING_REPORT_LEN ps h⟩)) := by
  rw [event_framed c V _ _ (by simp; omega)]
  show toLeMetaEvent c V (0x02 :: n :: ps) = _
  rw [leMeta_eq]
  show (toLeAdvertisingReport (0x02 :: n :: ps) >>=
    fun a => (.ok (Event.leAdvertisingReport a) : Res V.EvErr V.Ev)) = _
  rw [report_eq _ _ _ h]
  cases checkLoop (VE := V.VErr) ps 0 <;> rfl

theorem rawBytes_cons (r : RawReport) (rs : List RawReport) : rawBytes (r :: rs) = r.bytes ++ rawBytes rs := rfl

/-- A report with a plain address is the encoding of an advertisement. -/
theorem raw_means {r : RawReport} (hc : r.Conforms c) (ha : r.addressType ≤ 1) :
    ∃ a, r.Means a ∧ advBytes a = r.bytes ∧ Reportable a := by
  obtain ⟨ty, at', addr, data, rssi⟩ := r
  obtain ⟨h1, -, h3, -⟩ := hc
  simp only at h1 ha h3
  have ht : ∃ t, advEventCode t = ty := by
    have h1' : ty.toNat ≤ 4 := UInt8.le_iff_toNat_le.mp h1
    have : ty = 0 ∨ ty = 1 ∨ ty = 2 ∨ ty = 3 ∨ ty = 4 := by
      simp only [← UInt8.toNat_inj, UInt8.reduceToNat]; omega
    rcases this with rfl | rfl | rfl | rfl | rfl
    · exact ⟨.advertisement, rfl⟩
    · exact ⟨.directAdvertisement, rfl⟩
    · exact ⟨.scan, rfl⟩
    · exact ⟨.nonConnectableAdvertisement, rfl⟩
    · exact ⟨.scanResponse, rfl⟩
  have hx : ∃ x, addrTypeBytes x = at' :: addr.val := by
    have ha' : at'.toNat ≤ 1 := UInt8.le_iff_toNat_le.mp ha
    have : at' = 0 ∨ at' = 1 := by
      simp only [← UInt8.toNat_inj, UInt8.reduceToNat]; omega
    rcases this with rfl | rfl
    · exact ⟨.pub ⟨addr⟩, rfl⟩
    · exact ⟨.random ⟨addr⟩, rfl⟩
  obtain ⟨t, rfl⟩ := ht
  obtain ⟨x, hx⟩ := hx
  have he : (rssi = 127) ↔ rssi.toInt8 = 127 := by
    constructor
    · rintro rfl; rfl
    · intro h
      rw [← twos_toInt8 rssi, h]; rfl
  refine ⟨⟨t, x, data, if rssi = 127 then none else some rssi.toInt8⟩, ⟨rfl, hx, rfl, rfl⟩, ?_, ?_, ?_⟩
  · unfold advBytes RawReport.bytes
    simp only [hx, he, rssiByte_dec]
  · show data.length ≤ 255
    omega
  · by_cases h : rssi = 127
    · simp [h]
    · simp only [h, if_false, ne_eq, Option.some.injEq]
      exact fun h' => h (he.mpr h')

theorem raws_mean {rs : List RawReport} (hc : ∀ r ∈ rs, r.Conforms c) (ha : ∀ r ∈ rs, r.addressType ≤ 1) :
    ∃ as, AllMean rs as ∧ advsBytes as = rawBytes rs ∧ ∀ a ∈ as, Reportable a := by
  induction rs with
  | nil => exact ⟨[], ⟨rfl, by simp⟩, rfl, by simp⟩
  | cons r rs ih =>
    obtain ⟨as, ⟨h1, h2⟩, h3, h4⟩ := ih (fun x hx => hc x (by simp [hx])) (fun x hx => ha x (by simp [hx]))
    obtain ⟨a, g1, g2, g3⟩ := raw_means c (hc r (by simp)) (ha r (by simp))
    refine ⟨a :: as, ⟨by simp [h1], ?_⟩, by rw [advsBytes_cons, g2, h3, rawBytes_cons], ?_⟩
    · intro p hp
      rw [List.zip_cons_cons] at hp
      rcases List.mem_cons.mp hp with rfl | hp
      · exact g1
      · exact h2 p hp
    · intro x hx
      rcases List.mem_cons.mp hx with rfl | hx
      · exact g3
      · exact h4 x hx

/-- The reports before the first one with another address type. -/
theorem raw_split {rs : List RawReport} (h : ¬ ∀ r ∈ rs, r.addressType ≤ 1) :
    ∃ pre r post, rs = pre ++ r :: post ∧ (∀ x ∈ pre, x.addressType ≤ 1) ∧ ¬ r.addressType ≤ 1 := by
  induction rs with
  | nil => exact absurd (by simp) h
  | cons r rs ih =>
    by_cases hr : r.addressType ≤ 1
    · obtain ⟨pre, x, post, rfl, h1, h2⟩ := ih (fun h' => h fun y hy => by
        rcases List.mem_cons.mp hy with rfl | hy
        · exact hr
        · exact h' y hy)
      refine ⟨r :: pre, x, post, rfl, ?_, h2⟩
      intro y hy
      rcases List.mem_cons.mp hy with rfl | hy
      · exact hr
      · exact h1 y hy
    · exact ⟨[], r, rs, rfl, by simp, hr⟩

theorem raw_fault {r : RawReport} (hc : r.Conforms c) (ha : ¬ r.addressType ≤ 1) (post : List UInt8) :
    ReportFault (VE := V.VErr) (r.bytes ++ post) (.badLeAddressType r.addressType) := by
  have hn : (UInt8.ofNat r.data.length).toNat = r.data.length := by
    have := hc.data
    rw [UInt8.toNat_ofNat']; omega
  have hl := r.address.len
  refine .addressType (n := UInt8.ofNat r.data.length) (t := r.eventType) ?_ ?_ rfl hc.eventType rfl ?_
  · simp [RawReport.bytes, hl]
  · rw [hn]
    simp [RawReport.bytes, hl]; omega
  · exact UInt8.not_le.mp ha

end Bt
