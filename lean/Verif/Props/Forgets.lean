import Verif.Lemmas.Forgets

/-! # C74: what decoding forgets -/

namespace Bt

open Spec

variable {c : Cfg} {V : Vendor}

/-- **C74.** Given a packet that decodes to an event of the standard, the packets that decode to the same event
are exactly those that mean the same. -/
theorem C74_exactly (hV : StatusInjective V) (p q : List UInt8) (e : V.Ev) (hn : OfStandard e)
    (hp : Event.new c V p = .ok e) (hq : q.length ≤ 257) :
    Event.new c V q = .ok e ↔ SameMeaning c p q :=
  ⟨same_meaning hV p q e hn hp, same_event p q e hp hq⟩

/-- A reply to Reset, and the same reply with two bytes after the status. -/
example : SameMeaning ⟨false, false⟩ [0x0E, 4, 1, 0x03, 0x0C, 0] [0x0E, 6, 1, 0x03, 0x0C, 0, 7, 7] ∧
    Event.new ⟨false, false⟩ demoVendor [0x0E, 4, 1, 0x03, 0x0C, 0] =
      .ok (.commandComplete ⟨1, .reset .success⟩) ∧
    Event.new ⟨false, false⟩ demoVendor [0x0E, 6, 1, 0x03, 0x0C, 0, 7, 7] =
      .ok (.commandComplete ⟨1, .reset .success⟩) :=
  ⟨.statusOnly (n := 1) (o := op 0x03 0x03) (st := 0) (ps := []) (qs := [7, 7]) (by decide) (by decide), rfl, rfl⟩

/-- A reserved bit of the LE features: 17 from version 5.0 on. -/
example : SameMeaning ⟨false, true⟩ (frame 0x0E (1 :: le16 (op 0x08 0x03) ++ 0 :: le64 0x10001))
      (frame 0x0E (1 :: le16 (op 0x08 0x03) ++ 0 :: le64 0x30001)) ∧
    ¬ SameMeaning ⟨false, true⟩ (frame 0x0E (1 :: le16 (op 0x08 0x03) ++ 0 :: le64 0x10001))
      (frame 0x0E (1 :: le16 (op 0x08 0x03) ++ 0 :: le64 0x00001)) := by
  constructor
  · refine .leFeatures fun j hj => ?_
    have : j < 17 := by
      rcases hj with h | h | h
      · omega
      · omega
      · exact h.2
    clear hj
    revert j
    decide
  · have h := (C74_exactly (c := ⟨false, true⟩) (V := demoVendor) (by
      intro a b v ha hb
      have ha : (if 0x80 ≤ a then Res.ok a else Res.err a : Res UInt8 UInt8) = .ok v := ha
      have hb : (if 0x80 ≤ b then Res.ok b else Res.err b : Res UInt8 UInt8) = .ok v := hb
      split at ha <;> split at hb <;> cases ha <;> cases hb
      rfl) (frame 0x0E (1 :: le16 (op 0x08 0x03) ++ 0 :: le64 0x10001))
      (frame 0x0E (1 :: le16 (op 0x08 0x03) ++ 0 :: le64 0x00001))
      (.commandComplete ⟨1, .leReadLocalSupportedFeatures ⟨.success, 0x10001⟩⟩) trivial rfl (by decide)).not.mp
    exact h (by intro h; cases h)

end Bt
