import Verif.Spec.Renegotiation
import Verif.Lemmas.Negotiated
import Verif.Props.Commands
import Verif.Props.Events
import Verif.Props.Returns

/-! # Lemmas: asking again for the connection parameters that were reported -/

namespace Bt

open Spec

variable {σ E : Type} {c : Cfg} {V : Vendor}

/-- What was reported has legal fields. -/
theorem reported_fields {i : FixedConnectionInterval} (h : Reported c V i) : ∃ a l t, IntervalFields a l t i := by
  cases h with
  | complete hn =>
    obtain ⟨code, q, -, -, hs⟩ := (C09_sound_and_complete c V _ _).mp hn
    generalize hr : Event.leConnectionComplete _ = r at hs
    cases hs <;> cases hr
    exact ⟨_, _, _, ‹IntervalFields _ _ _ _›⟩
  | update hn =>
    obtain ⟨code, q, -, -, hs⟩ := (C09_sound_and_complete c V _ _).mp hn
    generalize hr : Event.leConnectionUpdateComplete _ = r at hs
    cases hs <;> cases hr
    exact ⟨_, _, _, ‹IntervalFields _ _ _ _›⟩

/-- The number of units that is written for `u` units. -/
theorem written_units (u : Nat) : writtenInterval (1250 * us * u) = max (u - 1) (4 * (u / 4)) := by
  simp only [writtenInterval, us, ms]; omega

theorem timeout_units (t : Nat) : units10ms (10 * ms * t) = t := by
  simp only [units10ms, ms]; omega

theorem legalRaw_shorter {a b l t : Nat} (h : LegalRaw a a l t) (h6 : 6 ≤ b) (hb : b ≤ a) : LegalRaw b b l t := by
  have hm : (1 + l) * b ≤ (1 + l) * a := Nat.mul_le_mul_left _ hb
  have := h.maxBound
  have := h.timeoutAbove
  have := h.feasible
  exact ⟨h6, Nat.le_refl _, by omega, h.latencyBound, by omega, by omega, h.timeoutLow, h.timeoutHigh⟩

/-- One round, in units. -/
theorem round_iff {a l t : UInt16} {i : FixedConnectionInterval} (hi : IntervalFields a l t i) (ln : Link)
    (k : Controller σ E) (s₀ : σ) (j : FixedConnectionInterval) :
    Round c V ln k i j ↔ ∃ b : UInt16, b.toNat = max (a.toNat - 1) (4 * (a.toNat / 4)) ∧ IntervalFields b l t j := by
  obtain ⟨hl, h1, h2, h3⟩ := hi
  have hb : Built ⟨i.interval, i.interval, i.connLatency, i.supervisionTimeout⟩ := by
    rw [built_iff]
    show LegalConnection i.interval.ns i.interval.ns i.connLatency.toNat i.supervisionTimeout.ns
    rw [h1, h2, h3, legalRaw_iff]
    exact hl
  have hbuild : (((ConnectionIntervalBuilder.new.withRange i.interval i.interval).withLatency
      i.connLatency).withSupervisionTimeout i.supervisionTimeout).build =
      .ok ⟨i.interval, i.interval, i.connLatency, i.supervisionTimeout⟩ :=
    (build_ok_iff _ _ _ _ _).mpr ⟨rfl, (built_iff _).mp hb⟩
  have hp : ∀ p : ConnectionUpdateParameters, cmdParams (VS := Empty) (.leConnectionUpdate p) =
      le16 p.connHandle.val ++ (connIntervalBytes p.connInterval ++ connLengthBytes p.expectedConnectionLength) := by
    intro p; simp only [cmdParams, List.append_assoc]
  constructor
  · rintro ⟨s, p, ps, a', la, t', h, st, e, hx, hy, hw, hc, hn, rfl⟩
    rw [hbuild] at hx
    cases p with
    | mk ch ci ecl =>
    cases hx
    have ht := C39_trace (VS := Empty) c ln k Empty.elim
      (.leConnectionUpdate ⟨ch, ⟨i.interval, i.interval, i.connLatency, i.supervisionTimeout⟩, ecl⟩) ⟨hb, hy⟩ rfl s []
    have ht' := hw.symm.trans ht
    simp only [List.nil_append, List.cons.injEq, CtlOp.write.injEq, and_true] at ht'
    rw [ht'.2, hp] at hc
    obtain ⟨g1, g2, g3, g4⟩ := chosen_bytes hb rfl hc
    simp only [h1, written_units] at g1 g2
    simp only [h3, timeout_units] at g4
    obtain ⟨code, q, hf, -, hsays⟩ := (C09_sound_and_complete c V _ _).mp hn
    obtain ⟨rfl, hq⟩ := frame_inj hf
    generalize hr : (0x03 :: st :: le16 h ++ le16 a' ++ le16 la ++ le16 t') = r at hq
    subst hq
    cases hsays with
    | leConnectionUpdateComplete _ hif =>
      obtain ⟨ea, el, et⟩ := update_fields hr
      subst ea el et
      have e1 : la = l := g3.trans h2
      have e2 : t' = t := UInt16.toNat_inj.mp g4
      subst e1 e2
      exact ⟨a', Nat.le_antisymm g2 g1, hif⟩
  · rintro ⟨b, hbu, hif⟩
    have hy : BuiltLength ⟨Duration.millis 10, Duration.millis 20⟩ :=
      ⟨Duration.millis 10, Duration.millis 20, by decide +kernel⟩
    have ht := C39_trace (VS := Empty) c ln k Empty.elim (.leConnectionUpdate
      ⟨⟨1⟩, ⟨i.interval, i.interval, i.connLatency, i.supervisionTimeout⟩, ⟨Duration.millis 10, Duration.millis 20⟩⟩)
      ⟨hb, hy⟩ rfl s₀ []
    obtain ⟨a', t', hc, ha'⟩ := smallest_chosen hb (pre := le16 1)
      (post := connLengthBytes ⟨Duration.millis 10, Duration.millis 20⟩) rfl
    obtain ⟨-, -, g3, g4⟩ := chosen_bytes hb rfl hc
    simp only [h1, written_units] at ha'
    simp only [h3, timeout_units] at g4
    obtain rfl : a' = b := UInt16.toNat_inj.mp (ha'.trans hbu.symm)
    obtain rfl : t' = t := UInt16.toNat_inj.mp g4
    refine ⟨s₀, _, _, a', i.connLatency, t', 1, 0, ⟨.success, ⟨1⟩, j⟩, hbuild, hy, ht, ?_, ?_, rfl⟩
    · rw [hp]; exact hc
    · rw [h2]
      exact (C09_sound_and_complete c V _ _).mpr
        ⟨_, _, rfl, by simp, .leConnectionUpdateComplete (status_zero c V) hif⟩

end Bt
