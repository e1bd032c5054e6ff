import Verif.Lemmas.Negotiated
import Verif.Props.Standard

/-! # C79: a connection has the parameters asked for -/

namespace Bt

open Spec

variable {σ E : Type}

/-- **C79, false as stated.** An interval of 12.5 ms to 20 ms is asked for; the controller chooses 11.25 ms, which
is in the range it was given, and this is reported. -/
theorem C79_fails :
    ¬ ∀ (p : ConnectionUpdateParameters), Built p.connInterval → BuiltLength p.expectedConnectionLength →
      ∀ ps a l t, (Hci.leConnectionUpdate (linkHeader .uart) logController p []).2 =
        [([0x01, 0x13, 0x20, 14], ps)] → Chosen ps 2 a l t →
      ∀ e, Event.new ⟨false, false⟩ demoVendor
        (frame 0x3E (0x03 :: 0x00 :: le16 p.connHandle.val ++ le16 a ++ le16 l ++ le16 t)) =
          .ok (.leConnectionUpdateComplete e) → AsAsked p.connInterval e.connInterval := by
  intro h
  have hx : Built ⟨Duration.micros 12500, Duration.millis 20, 0, Duration.secs 1⟩ :=
    (built_iff _).mpr (by constructor <;> decide)
  have hy : BuiltLength ⟨Duration.millis 10, Duration.millis 20⟩ :=
    ⟨Duration.millis 10, Duration.millis 20, by decide +kernel⟩
  have := h ⟨⟨1⟩, ⟨Duration.micros 12500, Duration.millis 20, 0, Duration.secs 1⟩,
    ⟨Duration.millis 10, Duration.millis 20⟩⟩ hx hy [1, 0, 9, 0, 16, 0, 0, 0, 100, 0, 16, 0, 32, 0] 9 0 100
    (by decide +kernel) ⟨by decide, by decide, by decide, by decide⟩
    ⟨.success, ⟨1⟩, ⟨⟨11250 * us, by decide⟩, 0, ⟨1000 * ms, by decide⟩⟩⟩
    ((C09_sound_and_complete _ _ _ _).mpr ⟨_, _, rfl, by decide, .leConnectionUpdateComplete rfl
      ⟨by constructor <;> decide, rfl, rfl, rfl⟩⟩)
  exact absurd this.1 (by decide)

/-- The command of the counterexample is accepted. -/
example : (Hci.leConnectionUpdate (linkHeader .uart) logController ⟨⟨1⟩, ⟨Duration.micros 12500,
    Duration.millis 20, 0, Duration.secs 1⟩, ⟨Duration.millis 10, Duration.millis 20⟩⟩ []).1 = .ok () := by
  decide +kernel

variable (c : Cfg) (V : Vendor)

/-- **C79, the part that holds.** After an LE Connection Update, whatever interval the controller chooses in the
range it was given, the parameters reported are those asked for, except that the interval may be less than 2 ms
too short; and they are reported if legal in the units of the wire and the timeout is at least 110 ms. Missing:
when the lower bound is not a multiple of 5 ms, the controller may choose an interval below it. -/
theorem C79_update_partial (l : Link) (k : Controller σ E) (s : σ) (p : ConnectionUpdateParameters)
    (hx : Built p.connInterval) (hy : BuiltLength p.expectedConnectionLength) :
    ∃ ps, (Hci.leConnectionUpdate (linkHeader l) (recording k) p (s, [])).2.2 =
        [.write (headerBytes l 0x2013 14) ps] ∧
      (∀ a la t st h e, Chosen ps 2 a la t → Event.new c V
          (frame 0x3E (0x03 :: st :: le16 h ++ le16 a ++ le16 la ++ le16 t)) =
            .ok (.leConnectionUpdateComplete e) →
        NearlyAsAsked p.connInterval e.connInterval ∧
        (5 * ms ∣ p.connInterval.intervalMin.ns → AsAsked p.connInterval e.connInterval)) ∧
      (LegalWhenWritten p.connInterval → 110 * ms ≤ p.connInterval.supervisionTimeout.ns →
        (∀ a la t st s h, Chosen ps 2 a la t → StatusByte c V st s → ∃ i, Event.new c V
          (frame 0x3E (0x03 :: st :: le16 h ++ le16 a ++ le16 la ++ le16 t)) =
            .ok (.leConnectionUpdateComplete ⟨s, ⟨h⟩, i⟩)) ∧
        (¬ 5 * ms ∣ p.connInterval.intervalMin.ns → ∃ a la t, Chosen ps 2 a la t ∧
          1250 * us * a.toNat < p.connInterval.intervalMin.ns)) := by
  have ht := C39_trace (VS := Empty) c l k Empty.elim (.leConnectionUpdate p) ⟨hx, hy⟩ rfl s []
  have hp : cmdParams (VS := Empty) (.leConnectionUpdate p) = le16 p.connHandle.val ++
      (connIntervalBytes p.connInterval ++ connLengthBytes p.expectedConnectionLength) := by
    simp only [cmdParams, List.append_assoc]
  refine ⟨cmdParams (VS := Empty) (.leConnectionUpdate p), ht, ?_, ?_⟩
  · intro a la t st h e hc hn
    rw [hp] at hc
    obtain ⟨h1, h2, h3, h4⟩ := chosen_bytes hx rfl hc
    obtain ⟨code, q, hf, -, hsays⟩ := (C09_sound_and_complete c V _ _).mp hn
    obtain ⟨rfl, hq⟩ := frame_inj hf
    generalize hr : (0x03 :: st :: le16 h ++ le16 a ++ le16 la ++ le16 t) = r at hq
    subst hq
    cases hsays with
    | leConnectionUpdateComplete _ hif =>
      obtain ⟨ea, el, et⟩ := update_fields hr
      subst ea el et
      exact chosen_reported h1 h2 h3 h4 hif.2
  · intro hw h110
    refine ⟨?_, ?_⟩
    · intro a la t st s h hc hs
      rw [hp] at hc
      obtain ⟨h1, h2, h3, h4⟩ := chosen_bytes hx rfl hc
      obtain ⟨i, hif⟩ := intervalFields_exists (chosen_legal hx hw h110 h1 h2 h3 h4)
      exact ⟨i, (C09_sound_and_complete c V _ _).mpr ⟨_, _, rfl, by simp, .leConnectionUpdateComplete hs hif⟩⟩
    · intro hd
      obtain ⟨a, t, hc, ha⟩ := smallest_chosen hx (pre := le16 p.connHandle.val)
        (post := connLengthBytes p.expectedConnectionLength) rfl
      exact ⟨a, _, t, by rw [hp]; exact hc, by rw [ha]; exact smallest_too_short hd⟩

/-- Parameters that meet all the conditions but that of the lower bound. -/
example : Built ⟨Duration.micros 12500, Duration.millis 20, 0, Duration.secs 1⟩ ∧
    BuiltLength ⟨Duration.millis 10, Duration.millis 20⟩ ∧
    LegalWhenWritten ⟨Duration.micros 12500, Duration.millis 20, 0, Duration.secs 1⟩ ∧
    ¬ 5 * ms ∣ (Duration.micros 12500).ns :=
  ⟨(built_iff _).mpr (by constructor <;> decide), ⟨Duration.millis 10, Duration.millis 20, by decide +kernel⟩,
    ⟨by decide, by decide⟩, by decide⟩

/-- **C79, the part that holds,** the same for LE Create Connection and LE Connection Complete. -/
theorem C79_create_partial (l : Link) (k : Controller σ E) (s : σ) (p : ConnectionParameters)
    (hw : BuiltScanWindow p.scanWindow) (hx : Built p.connInterval) (hy : BuiltLength p.expectedConnectionLength) :
    ∃ ps, (Hci.leCreateConnection (linkHeader l) (recording k) p (s, [])).2.2 =
        [.write (headerBytes l 0x200D 25) ps] ∧
      (∀ a la t st h role peer clock e, Chosen ps 13 a la t → Event.new c V
          (frame 0x3E (0x01 :: st :: le16 h ++ roleCode role :: addrTypeBytes peer ++ le16 a ++ le16 la ++ le16 t ++
            [clockCode clock])) = .ok (.leConnectionComplete e) →
        NearlyAsAsked p.connInterval e.connInterval ∧
        (5 * ms ∣ p.connInterval.intervalMin.ns → AsAsked p.connInterval e.connInterval)) ∧
      (LegalWhenWritten p.connInterval → 110 * ms ≤ p.connInterval.supervisionTimeout.ns →
        (∀ a la t st s h role peer clock, Chosen ps 13 a la t → StatusByte c V st s → ∃ i, Event.new c V
          (frame 0x3E (0x01 :: st :: le16 h ++ roleCode role :: addrTypeBytes peer ++ le16 a ++ le16 la ++ le16 t ++
            [clockCode clock])) = .ok (.leConnectionComplete ⟨s, ⟨h⟩, role, peer, i, clock⟩)) ∧
        (¬ 5 * ms ∣ p.connInterval.intervalMin.ns → ∃ a la t, Chosen ps 13 a la t ∧
          1250 * us * a.toNat < p.connInterval.intervalMin.ns)) := by
  have ht := C39_trace (VS := Empty) c l k Empty.elim (.leCreateConnection p) ⟨hw, hx, hy⟩ rfl s []
  obtain ⟨pre, hpre, hp⟩ := create_bytes p
  have hlen : (cmdParams (VS := Empty) (.leCreateConnection p)).length = 25 := by
    rw [hp]; simp [connIntervalBytes, connLengthBytes, hpre]
  rw [hlen] at ht
  refine ⟨cmdParams (VS := Empty) (.leCreateConnection p), ht, ?_, ?_⟩
  · intro a la t st h role peer clock e hc hn
    rw [hp] at hc
    obtain ⟨h1, h2, h3, h4⟩ := chosen_bytes hx hpre hc
    obtain ⟨code, q, hf, -, hsays⟩ := (C09_sound_and_complete c V _ _).mp hn
    obtain ⟨rfl, hq⟩ := frame_inj hf
    generalize hr : (0x01 :: st :: le16 h ++ roleCode role :: addrTypeBytes peer ++ le16 a ++ le16 la ++ le16 t ++
      [clockCode clock]) = r at hq
    subst hq
    cases hsays with
    | leConnectionComplete _ hif =>
      obtain ⟨ea, el, et⟩ := create_fields hr
      subst ea el et
      exact chosen_reported h1 h2 h3 h4 hif.2
  · intro hw h110
    refine ⟨?_, ?_⟩
    · intro a la t st s h role peer clock hc hs
      rw [hp] at hc
      obtain ⟨h1, h2, h3, h4⟩ := chosen_bytes hx hpre hc
      obtain ⟨i, hif⟩ := intervalFields_exists (chosen_legal hx hw h110 h1 h2 h3 h4)
      refine ⟨i, (C09_sound_and_complete c V _ _).mpr ⟨_, _, rfl, ?_, .leConnectionComplete hs hif⟩⟩
      cases peer <;> simp [addrTypeBytes, Arr.len]
    · intro hd
      obtain ⟨a, t, hc, ha⟩ := smallest_chosen hx hpre
      exact ⟨a, _, t, by rw [hp]; exact hc, by rw [ha]; exact smallest_too_short hd⟩

/-- A window for the command. -/
example : BuiltScanWindow ⟨Duration.millis 20, Duration.millis 10⟩ :=
  ⟨Duration.millis 20, Duration.millis 10, by decide +kernel⟩

end Bt
