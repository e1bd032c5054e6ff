import Verif.Lemmas.FirstFault
import Verif.Spec.Demo

/-! # C63: the first fault of a packet decides the error -/

namespace Bt

open Spec

variable (c : Cfg) (V : Vendor)

theorem least_fault {code : UInt8} {ps : List UInt8} {i : Nat} {e : EvError V.VErr}
    (h : FaultAt c V code ps i e) :
    ∃ i e, FaultAt c V code ps i e ∧ ∀ j e', FaultAt c V code ps j e' → i ≤ j := by
  induction i using Nat.strongRecOn generalizing e with
  | ind i ih =>
    by_cases hm : ∀ j e', FaultAt c V code ps j e' → i ≤ j
    · exact ⟨i, e, h, hm⟩
    · simp only [Classical.not_forall] at hm
      obtain ⟨j, e', hj, hlt⟩ := hm
      exact ih j (by omega) hj

/-- **C63.** A packet is rejected with error `e` exactly when `e` describes its first fault: a wrong length
if there is one, and otherwise the faulty field that comes first in the packet. -/
theorem C63_first_fault (hV : VendorReturns V) (packet : List UInt8) (e : EvError V.VErr) :
    Event.new c V packet = .err e ↔ FirstFault c V packet e := by
  constructor
  · intro h
    by_cases hlen : ∃ a b, LengthFault packet a b
    · obtain ⟨a, b, hab⟩ := hlen
      rw [C26_length_faults_rejected c V packet a b hab] at h
      cases h
      exact .inl ⟨a, b, rfl, hab⟩
    · rcases C26_truthful c V packet e h with hl | ⟨code, ps, rfl, hp, i, hf⟩
      · exact .inl hl
      · obtain ⟨i', e', hf', hmin⟩ := least_fault c V hf
        have := dispatch_first c V hV hp hlen hf' hmin
        rw [event_framed c V code ps hp, this] at h
        cases h
        exact .inr ⟨hlen, code, ps, i', rfl, hp, hf', hmin⟩
  · rintro (⟨a, b, rfl, h⟩ | ⟨hlen, code, ps, i, rfl, hp, hf, hmin⟩)
    · exact C26_length_faults_rejected c V packet a b h
    · rw [event_framed c V code ps hp]
      exact dispatch_first c V hV hp hlen hf hmin

/-- Three faults in one packet (status, link type, encryption flag): the status is reported. -/
example : Event.new ⟨false, false⟩ demoVendor
    [0x03, 11, 0x70, 0x01, 0x00, 1, 2, 3, 4, 5, 6, 0x09, 0x07] = .err (.badStatus 0x70) := rfl

/-- The same packet with a good status: the link type is reported, and the fault of the flag after it is not. -/
example : Event.new ⟨false, false⟩ demoVendor
    [0x03, 11, 0x00, 0x01, 0x00, 1, 2, 3, 4, 5, 6, 0x09, 0x07] = .err (.badLinkType 0x09) := rfl

example : ¬ FirstFault ⟨false, false⟩ demoVendor
    [0x03, 11, 0x00, 0x01, 0x00, 1, 2, 3, 4, 5, 6, 0x09, 0x07] (.badEncryptionEnabledValue 0x07) := by
  rw [← C63_first_fault _ _ ⟨by intro b; simp only [demoVendor]; split <;> simp,
    by intro b; simp only [demoVendor]; split <;> simp, by intro b; simp [demoVendor]⟩]
  intro h
  cases h

/-- **C63.** Every packet has exactly one fate, and the specification alone says which: it encodes one
event, has one first fault, or is one of the packets on which decoding panics. -/
theorem C63_one_fate (hV : VendorReturns V) (packet : List UInt8) :
    (∃ e, Encodes c V packet e ∧ Event.new c V packet = .ok e ∧
      (∀ e', Encodes c V packet e' → e' = e) ∧ (∀ e', ¬ FirstFault c V packet e') ∧ ¬ Panics c V packet) ∨
    (∃ e, FirstFault c V packet e ∧ Event.new c V packet = .err e ∧
      (∀ e', FirstFault c V packet e' → e' = e) ∧ (∀ e', ¬ Encodes c V packet e') ∧ ¬ Panics c V packet) ∨
    (Panics c V packet ∧ Event.new c V packet = .panic ∧ (∀ e, ¬ Encodes c V packet e) ∧
      ∀ e, ¬ FirstFault c V packet e) := by
  simp only [← C63_first_fault c V hV, ← C13_panics_iff c V hV, ← C09_sound_and_complete]
  cases Event.new c V packet with
  | ok e => exact .inl ⟨e, rfl, rfl, fun e' h => (Res.ok.inj h).symm, by simp, by simp⟩
  | err e => exact .inr (.inl ⟨e, rfl, rfl, fun e' h => (Res.err.inj h).symm, by simp, by simp⟩)
  | panic => exact .inr (.inr ⟨rfl, rfl, by simp, by simp⟩)

example : Panics ⟨false, false⟩ demoVendor [0x0E, 3, 1, 0x03, 0x0C] :=
  .noStatus (k := 1) (o := op 0x03 0x03) (by decide)

end Bt
