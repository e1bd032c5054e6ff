import Verif.Spec.Standard
import Verif.Props.Returns

/-! # C61, C62: connection events of a conforming controller -/

namespace Bt

open Spec

variable (c : Cfg) (V : Vendor)

/-! ## C61 -/

theorem standard_legal {a l t : Nat} (h : StandardConnection a l t) : LegalRaw a a l t ↔ t ≠ 10 := by
  obtain ⟨⟨h1, h2⟩, h3, ⟨h4, h5⟩, h6⟩ := h
  have e : (1 + l) * (1250 * us * a) * 2 = (1 + l) * a * 2500000 := by
    unfold us
    rw [show 1250 * 1000 * a = a * 1250000 from by omega, ← Nat.mul_assoc, Nat.mul_assoc _ 1250000]
  rw [e] at h6
  unfold ms at h6
  constructor
  · intro h
    have := h.timeoutLow
    omega
  · intro h
    exact ⟨h1, Nat.le_refl _, h2, by omega, by omega, by omega, by omega, by omega⟩

theorem intervalFields_exists {a l t : UInt16} (h : LegalRaw a.toNat a.toNat l.toNat t.toNat) :
    ∃ i, IntervalFields a l t i := by
  have hd : 1250 * us * a.toNat < 10 ^ 9 * 2 ^ 64 ∧ 10 * ms * t.toNat < 10 ^ 9 * 2 ^ 64 := by
    have := a.toNat_lt; have := t.toNat_lt
    simp only [us, ms]
    omega
  exact ⟨⟨⟨_, hd.1⟩, l, ⟨_, hd.2⟩⟩, h, rfl, rfl, rfl⟩

/-- **C61 (partial).** The claim is that every connection a conforming controller reports reaches the
application. It does, with its parameters, exactly when the supervision timeout is not 100 ms. Missing:
timeouts of exactly 100 ms, which are rejected (`C61_timeout_100ms`). -/
theorem C61_connection_partial (st : UInt8) {s : Status V.VStatus} (hs : StatusByte c V st s) (h : UInt16)
    (role : ConnectionRole) (peer : BdAddrType) (a l t : UInt16) (clock : CentralClockAccuracy)
    (hi : StandardConnection a.toNat l.toNat t.toNat) :
    (∃ i, Event.new c V (frame 0x3E (0x01 :: st :: le16 h ++ roleCode role :: addrTypeBytes peer ++
        le16 a ++ le16 l ++ le16 t ++ [clockCode clock])) =
          .ok (.leConnectionComplete ⟨s, ⟨h⟩, role, peer, i, clock⟩) ∧
        i.interval.ns = 1250 * us * a.toNat ∧ i.connLatency = l ∧ i.supervisionTimeout.ns = 10 * ms * t.toNat) ↔
      t ≠ 10 := by
  have ht : t ≠ 10 ↔ t.toNat ≠ 10 := by
    rw [Ne, Ne, ← UInt16.toNat_inj]; rfl
  rw [ht, ← standard_legal hi]
  constructor
  · rintro ⟨i, hn, hi1, hi2, hi3⟩
    obtain ⟨code, p, hf, -, hsays⟩ := (C09_sound_and_complete c V _ _).mp hn
    obtain ⟨rfl, hp⟩ := frame_inj hf
    generalize hq : (0x01 :: st :: le16 h ++ roleCode role :: addrTypeBytes peer ++ le16 a ++ le16 l ++ le16 t ++
      [clockCode clock]) = q at hp
    subst hp
    cases hsays with
    | leConnectionComplete _ hif =>
      obtain ⟨hl, e1, e2, e3⟩ := hif
      rw [hi1] at e1
      rw [hi3] at e3
      rw [hi2] at e2
      unfold us at e1
      unfold ms at e3
      rw [Nat.eq_of_mul_eq_mul_left (by decide) e1, Nat.eq_of_mul_eq_mul_left (by decide) e3, e2]
      exact hl
  · intro hl
    obtain ⟨i, hif⟩ := intervalFields_exists hl
    refine ⟨i, (C09_sound_and_complete c V _ _).mpr ⟨_, _, rfl, ?_, .leConnectionComplete hs hif⟩, hif.2⟩
    cases peer <;> simp [addrTypeBytes, Arr.len]

/-- A connection with the shortest supervision timeout, which is rejected. -/
example : StandardConnection 8 3 10 ∧ Event.new ⟨false, false⟩ demoVendor (frame 0x3E
    (0x01 :: 0 :: le16 1 ++ 0 :: 0 :: 1 :: 2 :: 3 :: 4 :: 5 :: 6 :: le16 8 ++ le16 3 ++ le16 10 ++ [0])) ≠
      .panic := by
  refine ⟨⟨by decide, by decide, by decide, by decide⟩, ?_⟩
  intro h
  cases h

/-- **C61 (partial),** the same for LE Connection Update Complete. -/
theorem C61_update_partial (st : UInt8) {s : Status V.VStatus} (hs : StatusByte c V st s) (h : UInt16)
    (a l t : UInt16) (hi : StandardConnection a.toNat l.toNat t.toNat) :
    (∃ i, Event.new c V (frame 0x3E (0x03 :: st :: le16 h ++ le16 a ++ le16 l ++ le16 t)) =
          .ok (.leConnectionUpdateComplete ⟨s, ⟨h⟩, i⟩) ∧
        i.interval.ns = 1250 * us * a.toNat ∧ i.connLatency = l ∧ i.supervisionTimeout.ns = 10 * ms * t.toNat) ↔
      t ≠ 10 := by
  have ht : t ≠ 10 ↔ t.toNat ≠ 10 := by
    rw [Ne, Ne, ← UInt16.toNat_inj]; rfl
  rw [ht, ← standard_legal hi]
  constructor
  · rintro ⟨i, hn, hi1, hi2, hi3⟩
    obtain ⟨code, p, hf, -, hsays⟩ := (C09_sound_and_complete c V _ _).mp hn
    obtain ⟨rfl, hp⟩ := frame_inj hf
    generalize hq : (0x03 :: st :: le16 h ++ le16 a ++ le16 l ++ le16 t) = q at hp
    subst hp
    cases hsays with
    | leConnectionUpdateComplete _ hif =>
      obtain ⟨hl, e1, e2, e3⟩ := hif
      rw [hi1] at e1
      rw [hi3] at e3
      rw [hi2] at e2
      unfold us at e1
      unfold ms at e3
      rw [Nat.eq_of_mul_eq_mul_left (by decide) e1, Nat.eq_of_mul_eq_mul_left (by decide) e3, e2]
      exact hl
  · intro hl
    obtain ⟨i, hif⟩ := intervalFields_exists hl
    exact ⟨i, (C09_sound_and_complete c V _ _).mpr ⟨_, _, rfl, by simp, .leConnectionUpdateComplete hs hif⟩, hif.2⟩

example : StandardConnection 8 3 11 := ⟨by decide, by decide, by decide, by decide⟩

/-- **C61, negation.** A conforming connection: interval 7.5 ms, latency 0, supervision timeout 100 ms. It is
rejected as too short. -/
theorem C61_timeout_100ms :
    StandardConnection 6 0 10 ∧
    ∃ d m : Duration, d.ns = 100 * ms ∧ m.ns = 100 * ms ∧
      Event.new c V (frame 0x3E (0x03 :: 0x00 :: le16 1 ++ le16 6 ++ le16 0 ++ le16 10)) =
        .err (.badConnectionInterval (.supervisionTimeoutTooShort d m)) :=
  ⟨⟨by decide, by decide, by decide, by decide⟩, ⟨100 * ms, by decide⟩, ⟨100 * ms, by decide⟩, rfl, rfl, by
    rw [event_framed c V _ _ (by simp)]
    show toLeMetaEvent c V (0x03 :: (0x00 :: le16 1 ++ le16 6 ++ le16 0 ++ le16 10)) = _
    rw [leMeta_eq]
    show (toLeConnectionUpdateComplete c V (0x03 :: 0x00 :: le16 1 ++ le16 6 ++ le16 0 ++ le16 10) >>= fun a =>
        (.ok (Event.leConnectionUpdateComplete a) : Res V.EvErr V.Ev)) = _
    rw [leConnectionUpdateComplete_eq]
    rfl⟩

example : StandardConnection 40 9 200 := ⟨by decide, by decide, by decide, by decide⟩

/-! ## C62 -/

/-- **C62, negation.** A conforming LE PHY Update Complete is never reported with the PHYs it carries. -/
theorem C62_never_right (st : UInt8) (h : UInt16) (tx rx : Phy) (e : LePhyUpdateComplete V.VStatus)
    (hn : Event.new c V (frame 0x3E (0x0C :: st :: le16 h ++ [phyCodeOfStandard tx, phyCodeOfStandard rx])) =
      .ok (.lePhyUpdateComplete e)) : e.txPhy ≠ tx ∧ e.rxPhy ≠ rx := by
  obtain ⟨code, p, hf, -, hsays⟩ := (C09_sound_and_complete c V _ _).mp hn
  obtain ⟨rfl, hp⟩ := frame_inj hf
  generalize hq : (0x0C :: st :: le16 h ++ [phyCodeOfStandard tx, phyCodeOfStandard rx]) = q at hp
  subst hp
  cases hsays with
  | lePhyUpdateComplete _ =>
    rename_i st' s' h' tx' rx' hs'
    have h1 := (List.append_inj (s₁ := 0x0C :: st :: le16 h) (s₂ := 0x0C :: st' :: le16 h') hq (by simp)).2
    simp only [List.cons.injEq, and_true] at h1
    obtain ⟨h1, h2⟩ := h1
    constructor
    · rintro rfl; cases tx' <;> cases h1
    · rintro rfl; cases rx' <;> cases h2

/-- LE 1M for both directions is reported as LE 2M. -/
example : Event.new ⟨false, true⟩ demoVendor (frame 0x3E (0x0C :: 0 :: le16 1 ++
      [phyCodeOfStandard .le1M, phyCodeOfStandard .le1M])) =
    .ok (.lePhyUpdateComplete ⟨⟨1⟩, .success, .le2M, .le2M⟩) := rfl

/-- **C62 (partial).** The claim is that LE PHY Update Complete reports the PHYs in use. What holds: the event
of a conforming controller is delivered, with its status and handle, exactly when neither PHY is Coded, and the
PHY reported is then the one whose code is one more: 1M is reported as 2M and 2M as Coded. Missing: the right
PHYs (`C62_never_right`), and events with the Coded PHY, which are rejected. -/
theorem C62_phy_partial (st : UInt8) {s : Status V.VStatus} (hs : StatusByte c V st s) (h : UInt16)
    (tx rx tx' rx' : Phy) :
    Event.new c V (frame 0x3E (0x0C :: st :: le16 h ++ [phyCodeOfStandard tx, phyCodeOfStandard rx])) =
        .ok (.lePhyUpdateComplete ⟨⟨h⟩, s, tx', rx'⟩) ↔
      phyCodeOfStandard tx' = phyCodeOfStandard tx + 1 ∧ phyCodeOfStandard rx' = phyCodeOfStandard rx + 1 := by
  rw [C09_sound_and_complete]
  constructor
  · rintro ⟨code, p, hf, -, hsays⟩
    obtain ⟨rfl, hp⟩ := frame_inj hf
    generalize hq : (0x0C :: st :: le16 h ++ [phyCodeOfStandard tx, phyCodeOfStandard rx]) = q at hp
    subst hp
    cases hsays with
    | lePhyUpdateComplete _ =>
      rename_i st' hs'
      have h1 := (List.append_inj (s₁ := 0x0C :: st :: le16 h) (s₂ := 0x0C :: st' :: le16 h) hq (by simp)).2
      simp only [List.cons.injEq, and_true] at h1
      obtain ⟨h1, h2⟩ := h1
      rw [h1, h2]
      constructor
      · cases tx' <;> rfl
      · cases rx' <;> rfl
  · rintro ⟨h1, h2⟩
    refine ⟨0x3E, _, rfl, by simp, ?_⟩
    have e1 : phyCodeOfStandard tx = phyCode tx' := by
      cases tx <;> cases tx' <;> first | rfl | (revert h1; decide)
    have e2 : phyCodeOfStandard rx = phyCode rx' := by
      cases rx <;> cases rx' <;> first | rfl | (revert h2; decide)
    rw [e1, e2]
    exact .lePhyUpdateComplete hs

example : StatusByte ⟨false, true⟩ demoVendor 0x00 .success ∧ phyCodeOfStandard .le2M = phyCodeOfStandard .le1M + 1 :=
  ⟨rfl, rfl⟩

end Bt
