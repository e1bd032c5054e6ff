import Verif.Lemmas.StandardReports

/-! # C81: advertising reports of a conforming controller -/

namespace Bt

open Spec

variable (c : Cfg) (V : Vendor) {ε : Type}

/-- Two reports of a conforming controller for the examples: a scannable advertisement from a random address
and a scan response from an identity address. -/
def demoRaws : List RawReport :=
  [⟨2, 1, ⟨[1, 2, 3, 4, 5, 6], rfl⟩, [0xAA, 0xBB], 251⟩, ⟨4, 2, ⟨[6, 5, 4, 3, 2, 1], rfl⟩, [], 127⟩]

/-- **C81 (partial).** The claim is that every advertising report of a conforming controller reaches the
application. All the reports of an event do, in order and with their contents, exactly when none of them has
an identity address. Missing: identity addresses, which exist since 4.2 (`C81_fails`, `C81_identity`). -/
theorem C81_delivered_partial (n : UInt8) (rs : List RawReport) (hc : ∀ r ∈ rs, r.Conforms c)
    (hl : (rawBytes rs).length ≤ 253) :
    (∃ e as, Event.new c V (frame 0x3E (0x02 :: n :: rawBytes rs)) = .ok (.leAdvertisingReport e) ∧
        e.iter (ε := ε) = .ok as ∧ AllMean rs as) ↔
      ∀ r ∈ rs, r.addressType ≤ 1 := by
  constructor
  · rintro ⟨e, as, h1, -, -⟩
    refine Classical.byContradiction fun h => ?_
    obtain ⟨pre, r, post, rfl, h2, h3⟩ := raw_split h
    obtain ⟨bs, -, g2, g3⟩ := raws_mean c (fun x hx => hc x (by simp [hx])) h2
    have hb : rawBytes (pre ++ r :: post) = advsBytes bs ++ (r.bytes ++ rawBytes post) := by
      rw [g2, ← rawBytes_cons]
      simp [rawBytes]
    rw [hb] at h1 hl
    rw [report_event c V n _ hl, checkLoop_fault bs g3 _ (raw_fault c V (hc r (by simp)) h3 _)] at h1
    cases h1
  · intro h
    obtain ⟨as, h1, h2, h3⟩ := raws_mean c hc h
    rw [← h2] at hl ⊢
    obtain ⟨e, g1, g2⟩ := C16_round_trip c V (ε := ε) n as hl (fun a ha => (h3 a ha).2)
    exact ⟨e, as, g1, g2, h1⟩

example : (∀ r ∈ demoRaws, r.Conforms ⟨true, false⟩) ∧ (rawBytes demoRaws).length ≤ 253 ∧
    rawBytes demoRaws = [2, 1, 1, 2, 3, 4, 5, 6, 2, 0xAA, 0xBB, 251, 4, 2, 6, 5, 4, 3, 2, 1, 0, 127] := by
  refine ⟨?_, by decide, rfl⟩
  intro r hr
  simp only [demoRaws, List.mem_cons, List.not_mem_nil, or_false] at hr
  rcases hr with rfl | rfl
  · exact ⟨by decide, .inl (by decide), by decide, .inl (by decide)⟩
  · exact ⟨by decide, .inr ⟨.inl rfl, by decide⟩, by decide, .inr rfl⟩

/-- The first of the two reports alone is delivered. -/
example : ∃ e as, Event.new ⟨true, false⟩ demoVendor (frame 0x3E (0x02 :: 1 :: rawBytes [demoRaws[0]])) =
    .ok (.leAdvertisingReport e) ∧ e.iter (ε := Unit) = .ok as ∧ AllMean [demoRaws[0]] as := by
  refine (C81_delivered_partial _ _ 1 _ ?_ (by decide)).mpr ?_
  · intro r hr
    rw [List.mem_singleton.mp hr]
    exact ⟨by decide, .inl (by decide), by decide, .inl (by decide)⟩
  · intro r hr
    rw [List.mem_singleton.mp hr]
    decide

/-- **C81.** Before 4.2 nothing is missing: all the reports of a conforming controller are delivered. -/
theorem C81_before_42 (hv : ¬ From42 c) (n : UInt8) (rs : List RawReport) (hc : ∀ r ∈ rs, r.Conforms c)
    (hl : (rawBytes rs).length ≤ 253) :
    ∃ e as, Event.new c V (frame 0x3E (0x02 :: n :: rawBytes rs)) = .ok (.leAdvertisingReport e) ∧
      e.iter (ε := ε) = .ok as ∧ AllMean rs as := by
  rw [C81_delivered_partial c V n rs hc hl]
  intro r hr
  rcases (hc r hr).addressType with h | ⟨h, -⟩
  · exact h
  · exact absurd h hv

example : ¬ From42 ⟨false, false⟩ ∧ demoRaws[0].Conforms ⟨false, false⟩ :=
  ⟨(by rintro (h | h) <;> cases h), ⟨by decide, .inl (by decide), by decide, .inl (by decide)⟩⟩

/-- **C81**, what happens to the others: one report with an identity address, and the whole event is lost;
the error names the first such address type. -/
theorem C81_identity (n : UInt8) (pre : List RawReport) (r : RawReport) (post : List RawReport)
    (hc : ∀ x ∈ pre ++ [r], x.Conforms c) (hp : ∀ x ∈ pre, x.addressType ≤ 1) (hr : 1 < r.addressType)
    (hl : (rawBytes (pre ++ r :: post)).length ≤ 253) :
    Event.new c V (frame 0x3E (0x02 :: n :: rawBytes (pre ++ r :: post))) =
      .err (.badLeAddressType r.addressType) := by
  obtain ⟨bs, -, g2, g3⟩ := raws_mean c (fun x hx => hc x (by simp [hx])) hp
  have hb : rawBytes (pre ++ r :: post) = advsBytes bs ++ (r.bytes ++ rawBytes post) := by
    rw [g2, ← rawBytes_cons]
    simp [rawBytes]
  rw [hb] at hl ⊢
  rw [report_event c V n _ hl,
    checkLoop_fault bs g3 _ (raw_fault c V (hc r (by simp)) (UInt8.not_le.mpr hr) _)]
  rfl

/-- The second report makes the event be rejected, and the first is lost with it. -/
example : Event.new ⟨true, false⟩ demoVendor (frame 0x3E (0x02 :: 2 :: rawBytes demoRaws)) =
    .err (.badLeAddressType 2) := by
  refine C81_identity _ _ 2 [demoRaws[0]] demoRaws[1] [] ?_ ?_ (by decide) (by decide)
  · intro r hr
    simp only [List.cons_append, List.nil_append, List.mem_cons, List.not_mem_nil, or_false] at hr
    rcases hr with rfl | rfl
    · exact ⟨by decide, .inl (by decide), by decide, .inl (by decide)⟩
    · exact ⟨by decide, .inr ⟨.inl rfl, by decide⟩, by decide, .inr rfl⟩
  · intro r hr
    rw [List.mem_singleton.mp hr]
    decide

/-- **C81** as stated is false in every configuration from 4.2 on, whatever the vendor. -/
theorem C81_fails (hv : From42 c) : ¬ ∀ (n : UInt8) (rs : List RawReport), (∀ r ∈ rs, r.Conforms c) →
    (rawBytes rs).length ≤ 253 →
    ∃ e, Event.new c V (frame 0x3E (0x02 :: n :: rawBytes rs)) = .ok e := by
  intro h
  have hr : ∀ r ∈ [demoRaws[1]], r.Conforms c := by
    intro r hr
    rw [List.mem_singleton.mp hr]
    exact ⟨by decide, .inr ⟨hv, by decide⟩, by decide, .inr rfl⟩
  obtain ⟨e, he⟩ := h 1 [demoRaws[1]] hr (by decide)
  have := C81_identity c V 1 [] demoRaws[1] [] hr (by simp) (by decide) (by decide)
  rw [List.nil_append] at this
  rw [this] at he
  cases he

example : From42 ⟨true, false⟩ ∧ From42 ⟨false, true⟩ := ⟨.inl rfl, .inr rfl⟩

end Bt
