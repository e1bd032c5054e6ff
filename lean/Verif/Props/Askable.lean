import Verif.Lemmas.Askable

/-! # C92: everything the standard allows can be asked for -/

namespace Bt

open Spec

variable {σ E VS : Type}

theorem headerBytes_op_inj {l : Link} {op op' : UInt16} {n n' : Nat} (h : headerBytes l op n = headerBytes l op' n') :
    op = op' := by
  have hl : (le16 op ++ [UInt8.ofNat n]) = (le16 op' ++ [UInt8.ofNat n']) := by
    cases l
    · simpa [headerBytes] using h
    · simpa [headerBytes] using h
  exact le16_inj (List.append_inj hl (by simp)).1

theorem sent_iff (c : Cfg) (l : Link) (k : Controller σ E) (vinto : VS → UInt8) (s : σ) (op : UInt16)
    (qs : List UInt8) :
    (∃ cmd : Command VS, cmd.Constructible c ∧ Expressible c cmd ∧
      (cmd.exec (linkHeader l) (recording k) vinto (s, [])).2.2 = [.write (headerBytes l op qs.length) qs]) ↔
    Reached E VS c op qs := by
  constructor
  · rintro ⟨cmd, hc, he, hw⟩
    cases ha : cmdReject (E := E) cmd with
    | some e =>
      rw [exec_eq c l (recording k) vinto cmd hc, ha] at hw
      cases hw
    | none =>
      rw [C39_trace c l k vinto cmd hc ha s [], List.nil_append, List.cons.injEq, CtlOp.write.injEq] at hw
      exact ⟨cmd, hc, he, ha, headerBytes_op_inj hw.1.1, hw.1.2⟩
  · rintro ⟨cmd, hc, he, ha, rfl, rfl⟩
    exact ⟨cmd, hc, he, C39_trace c l k vinto cmd hc ha s []⟩

/-- **C92, the part that holds, exactly.** A packet that the standard allows, in the version the crate is compiled
for, can be sent if and only if its supervision timeout, if any, leaves enough room, and it is not a test with
more than 37 bytes. -/
theorem C92_exactly_partial (c : Cfg) (l : Link) (k : Controller σ E) (vinto : VS → UInt8) (s : σ) (op : UInt16)
    (ps : List UInt8) (h : Acceptable c op ps) :
    (∃ (cmd : Command VS) (qs : List UInt8), cmd.Constructible c ∧ Expressible c cmd ∧
      (cmd.exec (linkHeader l) (recording k) vinto (s, [])).2.2 = [.write (headerBytes l op qs.length) qs] ∧
      SameRequest op ps qs) ↔ Askable op ps := by
  constructor
  · rintro ⟨cmd, qs, hc, he, hw, hs⟩
    exact askable_of_reached ((sent_iff c l k vinto s op qs).mp ⟨cmd, hc, he, hw⟩) hs
  · intro ha
    obtain ⟨cmd, hc, he, hw⟩ := (sent_iff c l k vinto s op _).mpr (reached_of_askable h ha)
    exact ⟨cmd, _, hc, he, hw, sameRequest_significant h⟩

/-- Scan parameters of 4.2, advertising data with garbage after the significant part, connection parameters with
the largest timeout, and the longest test. -/
example : Acceptable ⟨true, false⟩ 0x200B [1, 0x20, 0, 0x10, 0, 2, 3] ∧
    Askable 0x200B [1, 0x20, 0, 0x10, 0, 2, 3] ∧
    Acceptable ⟨false, false⟩ 0x2013 [1, 0, 80, 0, 80, 0, 9, 0, 0x80, 0x0C, 0, 0, 0xFF, 0xFF] ∧
    Askable 0x2013 [1, 0, 80, 0, 80, 0, 9, 0, 0x80, 0x0C, 0, 0, 0xFF, 0xFF] ∧
    Acceptable ⟨true, false⟩ 0x201E [0x27, 0xFF, 7] ∧ ¬ Askable 0x201E [0x27, 0xFF, 7] := by
  refine ⟨⟨rfl, ?_⟩, ⟨fun h => absurd h (by decide), fun h => absurd h (by decide), by decide⟩, ⟨rfl, ?_⟩,
    ⟨fun h => absurd h (by decide), fun _ => ?_, by decide⟩, ⟨rfl, ?_⟩,
    fun h => absurd (h.2.2 rfl) (by decide)⟩
  · simp [RangesOk, OwnAddressAt, ScanAt, From42]
    decide
  · simp [RangesOk, HandleAt, ConnectionAt]
    decide
  · unfold RoomAt
    decide
  · simp [RangesOk, From42]
    decide

/-- Bytes that are ignored. -/
example : SameRequest 0x2012 [0xFF, 1, 2, 3, 4, 5, 6] [0xFF, 6, 5, 4, 3, 2, 1] ∧
    ¬ SameRequest 0x2012 [0x01, 1, 2, 3, 4, 5, 6] [0x01, 6, 5, 4, 3, 2, 1] := by
  unfold SameRequest
  decide

/-- **C92, false as stated.** A connection interval of 7.5 ms with a latency of 499 and a supervision timeout of
7.6 s is legal, as 7.6 s is more than 500 * 7.5 ms * 2 = 7.5 s. The crate writes 6 units only for 8 ms and more,
for which the timeout shall be longer than 8 s, so no call sends this packet. -/
theorem C92_fails :
    ¬ ∀ (c : Cfg) (op : UInt16) (ps : List UInt8), Acceptable c op ps →
      ∃ (cmd : Command Empty) (qs : List UInt8), cmd.Constructible c ∧ Expressible c cmd ∧
        (cmd.exec (linkHeader .uart) (recording logController) Empty.elim ([], [])).2.2 =
          [.write (headerBytes .uart op qs.length) qs] ∧ SameRequest op ps qs := by
  intro h
  have ha : Acceptable ⟨false, false⟩ 0x2013 [1, 0, 6, 0, 6, 0, 0xF3, 0x01, 0xF8, 0x02, 0, 0, 0, 0] := by
    refine ⟨rfl, ?_⟩
    simp [RangesOk, HandleAt, ConnectionAt]
    decide
  have := (C92_exactly_partial _ _ _ _ _ _ _ ha).mp (h _ _ _ ha)
  exact absurd (this.2.1 rfl) (by unfold RoomAt; decide)

/-- **C92, false as stated, the other exception.** From 4.2 on, a transmitter test with 38 bytes is legal. -/
theorem C92_fails_test (c : Cfg) (hv : From42 c) :
    Acceptable c 0x201E [0, 38, 0] ∧
    ¬ ∃ (cmd : Command Empty) (qs : List UInt8), cmd.Constructible c ∧ Expressible c cmd ∧
        (cmd.exec (linkHeader .uart) (recording logController) Empty.elim ([], [])).2.2 =
          [.write (headerBytes .uart 0x201E qs.length) qs] ∧ SameRequest 0x201E [0, 38, 0] qs := by
  have ha : Acceptable c 0x201E [0, 38, 0] := by
    refine ⟨rfl, ?_⟩
    simp [RangesOk, hv]
    decide
  exact ⟨ha, fun h => absurd (((C92_exactly_partial _ _ _ _ _ _ _ ha).mp h).2.2 rfl) (by decide)⟩

example : From42 ⟨true, false⟩ := .inl rfl

/-- **C92.** All other commands: every packet that the standard allows is written by some call, byte for byte
apart from the ignored bytes, which are zero. -/
theorem C92_other_commands (c : Cfg) (l : Link) (k : Controller σ E) (vinto : VS → UInt8) (s : σ) (op : UInt16)
    (ps : List UInt8) (h : Acceptable c op ps) (h1 : op ≠ 0x200D) (h2 : op ≠ 0x2013) (h3 : op ≠ 0x201E) :
    ∃ cmd : Command VS, cmd.Constructible c ∧ Expressible c cmd ∧
      (cmd.exec (linkHeader l) (recording k) vinto (s, [])).2.2 =
        [.write (headerBytes l op ps.length) (significant op ps)] := by
  obtain ⟨cmd, hc, he, hw⟩ := (sent_iff c l k vinto s op _).mpr (reached_of_askable (E := E) (VS := VS) h
    ⟨fun h => absurd h h1, fun h => absurd h h2, fun h => absurd h h3⟩)
  rw [← (sameRequest_significant h).1] at hw
  exact ⟨cmd, hc, he, hw⟩

/-- High duty cycle directed advertising with intervals that are ignored, and all event flags of 4.1. -/
example : Acceptable ⟨false, false⟩ 0x2006 [1, 2, 3, 4, 1, 0, 0, 1, 2, 3, 4, 5, 6, 7, 0] ∧
    significant 0x2006 [1, 2, 3, 4, 1, 0, 0, 1, 2, 3, 4, 5, 6, 7, 0] =
      [0, 0, 0, 0, 1, 0, 0, 1, 2, 3, 4, 5, 6, 7, 0] ∧
    Acceptable ⟨false, false⟩ 0x2001 [0x1F, 0, 0, 0, 0, 0, 0, 0] := by
  refine ⟨⟨rfl, ?_⟩, by decide, rfl, ?_⟩
  · simp [RangesOk, OwnAddressAt]
    decide
  · simp [RangesOk]
    intro j hj hb
    by_cases h8 : j < 8
    · rw [Nat.div_eq_of_lt h8, Nat.mod_eq_of_lt h8] at hb
      obtain ⟨b, hb, ht⟩ := hb
      cases hb
      refine .inl (Nat.lt_of_not_le fun h6 => ?_)
      rcases (by omega : j = 6 ∨ j = 7) with rfl | rfl <;> exact absurd ht (by decide)
    · obtain ⟨b, hb, ht⟩ := hb
      have all : ∀ i ∈ List.range 8, 0 < i → ([0x1F, 0, 0, 0, 0, 0, 0, 0] : List UInt8)[i]? = some 0 := by decide
      rw [all (j / 8) (List.mem_range.mpr (by omega)) (by omega)] at hb
      cases hb
      exact absurd ht (by simp)

/-- **C92.** Tests: before 4.2 every test that the standard allows can be asked for, and from 4.2 on those of up
to 37 bytes. -/
theorem C92_tests (c : Cfg) (l : Link) (k : Controller σ E) (vinto : VS → UInt8) (s : σ) (ps : List UInt8)
    (h : Acceptable c 0x201E ps) (hn : ¬ From42 c ∨ byteAt ps 1 ≤ 37) :
    ∃ cmd : Command VS, cmd.Constructible c ∧ Expressible c cmd ∧
      (cmd.exec (linkHeader l) (recording k) vinto (s, [])).2.2 = [.write (headerBytes l 0x201E ps.length) ps] := by
  have hb : byteAt ps 1 ≤ 0x25 := by
    obtain ⟨-, -, -, -, -, -, -, -, -, -, -, -, -, -, -, h14, -⟩ := h
    rcases (h14 rfl).2.1 with h | h
    · exact h
    · rcases hn with hn | hn
      · exact absurd h hn
      · exact hn
  exact (sent_iff c l k vinto s _ _).mpr (reached_of_askable (E := E) (VS := VS) h
    ⟨fun h => absurd h (by decide), fun h => absurd h (by decide), fun _ => hb⟩)

example : ¬ From42 ⟨false, false⟩ ∧ Acceptable ⟨false, false⟩ 0x201E [39, 37, 7] := by
  refine ⟨by decide, rfl, ?_⟩
  simp [RangesOk]
  decide

/-- **C92.** Connection parameters: those whose longest interval is a multiple of 5 ms can all be asked for. -/
theorem C92_multiples_of_5ms (c : Cfg) (l : Link) (k : Controller σ E) (vinto : VS → UInt8) (s : σ) (op : UInt16)
    (ps : List UInt8) (h : Acceptable c op ps) (i : Nat) (hi : (op = 0x200D ∧ i = 13) ∨ (op = 0x2013 ∧ i = 2))
    (h5 : 4 ∣ u16At ps (i + 2)) :
    ∃ cmd : Command VS, cmd.Constructible c ∧ Expressible c cmd ∧
      (cmd.exec (linkHeader l) (recording k) vinto (s, [])).2.2 =
        [.write (headerBytes l op ps.length) (significant op ps)] := by
  have hc : ConnectionAt ps i := by
    obtain ⟨-, -, -, -, -, -, -, -, -, -, h9, -, h11, -⟩ := h
    rcases hi with ⟨rfl, rfl⟩ | ⟨rfl, rfl⟩
    · exact (h9 rfl).2.2.2.2
    · exact (h11 rfl).2
  have hr : RoomAt ps i := by
    obtain ⟨-, -, -, -, -, h6, h7, -⟩ := hc
    obtain ⟨u, hu⟩ := h5
    unfold RoomAt
    rw [hu] at h7 ⊢
    rw [show (5 * (4 * u) + 3) / 4 = 5 * u by omega]
    have e1 : (1 + u16At ps (i + 4)) * (125 * (4 * u)) * 2 = 1000 * ((1 + u16At ps (i + 4)) * u) := by
      rw [show 125 * (4 * u) = u * 500 by omega, ← Nat.mul_assoc]
      omega
    have e2 : 2 * (1 + u16At ps (i + 4)) * (5 * u) = 10 * ((1 + u16At ps (i + 4)) * u) := by
      rw [Nat.mul_comm 5 u, ← Nat.mul_assoc, Nat.mul_assoc 2]
      omega
    rw [e1] at h7
    rw [e2]
    omega
  have ha : Askable op ps := by
    rcases hi with ⟨rfl, rfl⟩ | ⟨rfl, rfl⟩
    · exact ⟨fun _ => hr, fun h => absurd h (by decide), fun h => absurd h (by decide)⟩
    · exact ⟨fun h => absurd h (by decide), fun _ => hr, fun h => absurd h (by decide)⟩
  obtain ⟨cmd, hc, he, hw⟩ := (sent_iff c l k vinto s op _).mpr (reached_of_askable (E := E) (VS := VS) h ha)
  rw [← (sameRequest_significant h).1] at hw
  exact ⟨cmd, hc, he, hw⟩

/-- The tightest timeout for an interval of 10 ms and a latency of 499. -/
example : Acceptable ⟨false, false⟩ 0x2013 [1, 0, 8, 0, 8, 0, 0xF3, 0x01, 0xE9, 0x03, 0, 0, 0, 0] ∧
    4 ∣ u16At [1, 0, 8, 0, 8, 0, 0xF3, 0x01, 0xE9, 0x03, 0, 0, 0, 0] (2 + 2) := by
  refine ⟨⟨rfl, ?_⟩, by decide⟩
  simp [RangesOk, HandleAt, ConnectionAt]
  decide

end Bt
