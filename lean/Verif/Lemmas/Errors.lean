import Verif.Props.Returns
import Verif.Spec.Errors

/-! # Which errors occur -/

namespace Bt

open Spec

variable (c : Cfg) (V : Vendor)

/-! ## Connection parameters -/

theorem interval_error_of {a l t : UInt16} {lo tmo : Duration} {e : ConnectionIntervalError}
    (h1 : lo.ns = 1250 * us * a.toNat) (h2 : tmo.ns = 10 * ms * t.toNat) (h : FirstViolation lo lo l tmo e) :
    IntervalError e := by
  have ha := a.toNat_lt
  have ht := t.toNat_lt
  have hprod : minTimeout lo.ns l.toNat = 2500 * us * ((1 + l.toNat) * a.toNat) := by
    unfold minTimeout
    rw [h1, show (1 + l.toNat) * (1250 * us * a.toNat) * 2 = 1250 * us * 2 * ((1 + l.toNat) * a.toNat) by
      simp only [Nat.mul_assoc, Nat.mul_left_comm, Nat.mul_comm]]
    rfl
  generalize hw : (1 + l.toNat) * a.toNat = w at hprod
  cases e <;> simp only [FirstViolation, IntervalError, us, ms, sec] at *
  case intervalTooShort d => exact ⟨a.toNat, by omega, by rw [h.2]; omega⟩
  case intervalTooLong d => exact ⟨a.toNat, by omega, by omega, by rw [h.2.2]; omega⟩
  case intervalInverted => omega
  case badConnectionLatency => rw [h.2.2.2.2]; omega
  case impossibleSupervisionTimeout d =>
    exact ⟨a.toNat, l.toNat, by omega, by omega, by omega, by omega, by rw [hw]; omega⟩
  case supervisionTimeoutTooShort t m =>
    obtain ⟨h3, h4, h5, h6, h7, h8, h9, rfl⟩ := h
    refine ⟨⟨a.toNat, l.toNat, by omega, by omega, by omega, by omega, by rw [hw, h8, hprod]⟩, ?_, h9⟩
    rw [h2]
    exact Nat.dvd_mul_right _ _
  case supervisionTimeoutTooLong d =>
    exact ⟨t.toNat, by omega, by omega, by rw [h.2.2.2.2.2.2]; omega⟩

theorem u16_ofNat {n : Nat} (h : n < 65536) : (UInt16.ofNat n).toNat = n := by
  rw [UInt16.toNat_ofNat']; omega

theorem interval_error_occurs {e : ConnectionIntervalError} (h : IntervalError e) :
    ∃ (a l t : UInt16) (lo tmo : Duration), lo.ns = 1250 * us * a.toNat ∧ tmo.ns = 10 * ms * t.toNat ∧
      FirstViolation lo lo l tmo e := by
  have lim : durationLimit = 18446744073709551616 * 1000000000 := rfl
  have dur (n : Nat) (h : n < 1000000000000000) : ∃ d : Duration, d.ns = n :=
    ⟨⟨n, by rw [lim]; omega⟩, rfl⟩
  have hprod (x l : Nat) : minTimeout (1250 * us * x) l = 2500 * us * ((1 + l) * x) := by
    unfold minTimeout
    rw [show (1 + l) * (1250 * us * x) * 2 = 1250 * us * 2 * ((1 + l) * x) by
      simp only [Nat.mul_assoc, Nat.mul_left_comm, Nat.mul_comm]]
    rfl
  cases e with
  | incomplete => exact h.elim
  | intervalInverted => exact h.elim
  | intervalTooShort d =>
    obtain ⟨x, hx, hd⟩ := h
    obtain ⟨z, hz⟩ := dur 0 (by omega)
    refine ⟨UInt16.ofNat x, 0, 0, d, z, by rw [u16_ofNat (by omega), hd], by rw [hz]; rfl, ?_⟩
    simp only [FirstViolation, us] at *
    exact ⟨by omega, trivial⟩
  | intervalTooLong d =>
    obtain ⟨x, hx, hx', hd⟩ := h
    obtain ⟨z, hz⟩ := dur 0 (by omega)
    refine ⟨UInt16.ofNat x, 0, 0, d, z, by rw [u16_ofNat (by omega), hd], by rw [hz]; rfl, ?_⟩
    simp only [FirstViolation, us, sec] at *
    exact ⟨by omega, by omega, trivial⟩
  | badConnectionLatency l =>
    have h : 499 < l.toNat := h
    obtain ⟨z, hz⟩ := dur 0 (by omega)
    obtain ⟨d, hd⟩ := dur (1250 * us * 6) (by unfold us; omega)
    refine ⟨6, l, 0, d, z, hd, by rw [hz]; rfl, ?_⟩
    simp only [FirstViolation, us, sec] at *
    exact ⟨by omega, by omega, by omega, h, trivial⟩
  | impossibleSupervisionTimeout d =>
    obtain ⟨x, l, h1, h2, h3, h4, hd⟩ := h
    obtain ⟨z, hz⟩ := dur 0 (by omega)
    obtain ⟨lo, hlo⟩ := dur (1250 * us * x) (by unfold us; omega)
    refine ⟨UInt16.ofNat x, UInt16.ofNat l, 0, lo, z, by rw [u16_ofNat (by omega), hlo], by rw [hz]; rfl, ?_⟩
    simp only [FirstViolation]
    rw [u16_ofNat (by omega), hlo, hprod]
    generalize (1 + l) * x = w at *
    simp only [us, sec] at *
    refine ⟨by omega, by omega, by omega, by omega, by omega, hd⟩
  | supervisionTimeoutTooShort t m =>
    obtain ⟨⟨x, l, h1, h2, h3, h4, hm⟩, ⟨n, hn⟩, hle⟩ := h
    obtain ⟨lo, hlo⟩ := dur (1250 * us * x) (by unfold us; omega)
    have hn' : n < 65536 := by
      generalize (1 + l) * x = w at *
      simp only [us, ms] at *
      omega
    refine ⟨UInt16.ofNat x, UInt16.ofNat l, UInt16.ofNat n, lo, t, by rw [u16_ofNat (by omega), hlo],
      by rw [u16_ofNat hn', hn], ?_⟩
    simp only [FirstViolation]
    rw [u16_ofNat (n := l) (by omega), hlo, hprod]
    generalize (1 + l) * x = w at *
    simp only [us, ms, sec] at *
    refine ⟨by omega, by omega, by omega, by omega, by omega, hm, hle, trivial⟩
  | supervisionTimeoutTooLong d =>
    obtain ⟨n, h1, h2, hd⟩ := h
    obtain ⟨lo, hlo⟩ := dur (1250 * us * 6) (by unfold us; omega)
    refine ⟨6, 0, UInt16.ofNat n, lo, d, hlo, by rw [u16_ofNat (by omega), hd], ?_⟩
    simp only [FirstViolation, minTimeout, us, ms, sec] at *
    have : (0 : UInt16).toNat = 0 := rfl
    rw [this, hlo]
    refine ⟨by omega, by omega, by omega, by omega, by omega, by omega, trivial⟩

/-! ## Truthful errors are possible -/

theorem length_fault_framed {code : UInt8} {ps : List UInt8} (hp : ps.length ≤ 255) {a b : Nat}
    (h : LengthFault (frame code ps) a b) : WrongLength a b := by
  have hofNat : (UInt8.ofNat ps.length).toNat = ps.length := by rw [UInt8.toNat_ofNat']; omega
  generalize hf : frame code ps = p at h
  cases h with
  | header h => rw [← hf] at h; simp [frame] at h; omega
  | framing h =>
    unfold frame at hf
    obtain ⟨-, hf⟩ := List.cons.inj hf
    obtain ⟨rfl, rfl⟩ := List.cons.inj hf
    exact absurd hofNat.symm h
  | params hm hl hn =>
    refine ⟨hn, .inl ⟨hl, ?_⟩⟩
    simp [fixedParams] at hm
    rcases hm with ⟨-, rfl⟩ | ⟨-, rfl⟩ | ⟨-, rfl⟩ | ⟨-, rfl⟩ | ⟨-, rfl⟩ | ⟨-, rfl⟩ | ⟨-, rfl⟩ | ⟨-, rfl⟩ <;> decide
  | completedEmpty => exact ⟨by decide, .inl (by decide)⟩
  | @completed n qs hl hn =>
    have := n.toNat_lt
    exact ⟨by omega, .inr (.inr (.inl ⟨by omega, by omega, n.toNat, by omega, rfl⟩))⟩
  | metaEmpty => exact ⟨by decide, .inl (by decide)⟩
  | leMeta hm hl hn =>
    refine ⟨hn, .inr (.inl ⟨by omega, by omega, ?_⟩)⟩
    simp [fixedMeta] at hm
    rcases hm with ⟨-, rfl⟩ | ⟨-, rfl⟩ | ⟨-, rfl⟩ | ⟨-, rfl⟩ | ⟨-, rfl⟩ | ⟨-, rfl⟩ <;> decide
  | commandComplete h => exact ⟨by omega, .inl ⟨by omega, by decide⟩⟩
  | returns hm hl hn =>
    refine ⟨hn, .inr (.inr (.inr ⟨hl, ?_⟩))⟩
    have : ∀ x ∈ fixedReturns, x.2 ∈ [2, 3, 4, 7, 8, 9, 17, 65] := by decide
    exact this _ hm

theorem fault_possible {code : UInt8} {ps : List UInt8} (hp : ps.length ≤ 255) {i : Nat} {e : EvError V.VErr}
    (h : FaultAt c V code ps i e) : FramedError c V e ∨ VendorError V e := by
  cases h with
  | status _ h1 h2 => exact .inl ⟨_, h1, h2⟩
  | reason _ h1 h2 => exact .inl ⟨_, h1, h2⟩
  | linkType _ h => exact .inl h
  | encryptionEnabled _ h => exact .inl h
  | encryption _ h => exact .inl h
  | overflowLinkType _ h => exact .inl h
  | event h => exact .inl (.inl h)
  | subevent h => exact .inl (.inr h)
  | opcode h1 h2 h3 => exact .inl ⟨h1, h2, h3⟩
  | commandFlag => exact .inl trivial
  | channelMap h1 h2 => exact .inl ⟨_, _, h1, h2⟩
  | leStates h1 h2 => exact .inl ⟨_, h1, h2⟩
  | role _ h => exact .inl h
  | address _ h => exact .inl h
  | interval _ h1 h2 h3 => exact .inl (interval_error_of h1 h2 h3)
  | clock _ h => exact .inl h
  | report _ h =>
    cases h with
    | incomplete => exact .inl trivial
    | eventType _ _ _ h => exact .inl h
    | addressType _ _ _ _ _ h => exact .inl h
  | updateInterval _ h1 h2 h3 => exact .inl (interval_error_of h1 h2 h3)
  | features h1 h2 => exact .inl ⟨_, h1, h2⟩
  | txPhy _ h => exact .inl h
  | rxPhy _ h => exact .inl h
  | vendorEvent h => exact .inr (.inl ⟨_, hp, h⟩)
  | vendorReturn h1 h2 => exact .inr (.inr ⟨_, _, _, h1, by simp at hp; omega, h2⟩)

/-! ## Possible errors occur -/

section Occur
variable {c V}

/-- Some framed packet is rejected with this error. -/
def Occurs (c : Cfg) (V : Vendor) (e : EvError V.VErr) : Prop :=
  ∃ code ps, ps.length ≤ 255 ∧ dispatch c V code ps = .err e

theorem status_ok0 : tryStatus c V 0 = .ok .success := (tryStatus_ok_iff c V 0 _).mpr (status_zero c V)

theorem occurs_len {code : UInt8} {ps : List UInt8} (hp : ps.length ≤ 255) {a b : Nat}
    (h : LengthFault (frame code ps) a b) : Occurs c V (.badLength a b) :=
  ⟨code, ps, hp, by rw [← event_framed c V code ps hp, C26_length_faults_rejected c V _ a b h]⟩

theorem wrong_length_occurs {a r : Nat} (h : WrongLength a r) : Occurs c V (.badLength a r) := by
  obtain ⟨hne, ⟨ha, hr⟩ | ⟨ha, ha', hr⟩ | ⟨ha, ha', n, hn, rfl⟩ | ⟨ha, hr⟩⟩ := h
  · have hm : ∃ code, (code, r) ∈ fixedParams := by
      simp at hr
      rcases hr with rfl | rfl | rfl | rfl | rfl
      · exact ⟨0x10, by decide⟩
      · exact ⟨0x30, by decide⟩
      · exact ⟨0x05, by decide⟩
      · exact ⟨0x0C, by decide⟩
      · exact ⟨0x03, by decide⟩
    obtain ⟨code, hm⟩ := hm
    have := LengthFault.params (ps := List.replicate a 0) hm (by simpa using ha) (by simpa using hne)
    rw [List.length_replicate] at this
    exact occurs_len (by simpa using ha) this
  · have hm : ∃ sub, (sub, r) ∈ fixedMeta := by
      simp at hr
      rcases hr with rfl | rfl | rfl | rfl | rfl | rfl
      · exact ⟨0x0C, by decide⟩
      · exact ⟨0x03, by decide⟩
      · exact ⟨0x07, by decide⟩
      · exact ⟨0x04, by decide⟩
      · exact ⟨0x05, by decide⟩
      · exact ⟨0x01, by decide⟩
    obtain ⟨sub, hm⟩ := hm
    have := LengthFault.leMeta (ps := List.replicate (a - 1) 0) hm (by simp; omega) (by simp; omega)
    rw [List.length_replicate, show 1 + (a - 1) = a by omega] at this
    exact occurs_len (by simp; omega) this
  · have hn' : (UInt8.ofNat n).toNat = n := by rw [UInt8.toNat_ofNat']; omega
    have := LengthFault.completed (n := UInt8.ofNat n) (ps := List.replicate (a - 1) 0) (by simp; omega)
      (by rw [hn']; simp; omega)
    rw [List.length_replicate, show 1 + (a - 1) = a by omega, hn'] at this
    exact occurs_len (by simp; omega) this
  · have hm : ∃ o, (o, r) ∈ fixedReturns := by
      simp at hr
      rcases hr with rfl | rfl | rfl | rfl | rfl | rfl | rfl | rfl
      · exact ⟨op 0x08 0x07, by decide⟩
      · exact ⟨op 0x08 0x1A, by decide⟩
      · exact ⟨op 0x03 0x2D, by decide⟩
      · exact ⟨op 0x04 0x09, by decide⟩
      · exact ⟨op 0x08 0x15, by decide⟩
      · exact ⟨op 0x04 0x01, by decide⟩
      · exact ⟨op 0x08 0x17, by decide⟩
      · exact ⟨op 0x04 0x02, by decide⟩
    obtain ⟨o, hm⟩ := hm
    have := LengthFault.returns (k := 1) (ps := List.replicate a 0) hm (by simpa using ha) (by simpa using hne)
    rw [List.length_replicate] at this
    exact occurs_len (by simp [le16, le]; omega) this

theorem occurs_le {sub : UInt8} {ps : List UInt8} (hp : ps.length ≤ 254) {e : EvError V.VErr}
    (h : toLeMetaEvent c V (sub :: ps) = .err e) : Occurs c V e :=
  ⟨0x3E, sub :: ps, by simp; omega, h⟩

theorem occurs_fixed {o : UInt16} {n : Nat} (hm : (o, n) ∈ fixedReturns) {ps : List UInt8} (hp : ps.length ≤ 252)
    {e : EvError V.VErr} (h : fixedParser c V o ps = .err e) : Occurs c V e := by
  refine ⟨0x0E, 1 :: le16 o ++ ps, by simp [le16, le]; omega, ?_⟩
  show (CommandComplete.new c V _ >>= fun a => (.ok (Event.commandComplete a) : Res V.EvErr V.Ev)) = _
  rw [commandComplete_eq, fixed_reply c V hm, h]
  rfl

theorem framed_error_occurs {e : EvError V.VErr} (h : FramedError c V e) : Occurs c V e := by
  cases e with
  | vendor => exact h.elim
  | badLength a r => exact wrong_length_occurs h
  | unknownEvent b =>
    rcases h with h | h
    · refine ⟨b, [], by simp, ?_⟩
      simp only [eventCodes, List.mem_cons, List.not_mem_nil, or_false, not_or] at h
      unfold dispatch
      split <;> simp_all
    · refine occurs_le (sub := b) (ps := []) (by simp) ?_
      rw [leMeta_eq]
      simp only [subeventCodes, List.mem_cons, List.not_mem_nil, or_false, not_or] at h
      split <;> simp_all
  | badStatus w =>
    obtain ⟨b, h1, h2⟩ := h
    refine ⟨0x0F, b :: 1 :: le16 0, by simp [le16, le], ?_⟩
    show (toCommandStatus c V _ >>= fun a => (.ok (Event.commandStatus a) : Res V.EvErr V.Ev)) = _
    rw [commandStatus_eq, (tryStatus_err c V b _).mpr ⟨w, h1, h2, rfl⟩]; rfl
  | badReason w =>
    obtain ⟨b, h1, h2⟩ := h
    refine ⟨0x05, 0 :: le16 0 ++ [b], by simp [le16, le], ?_⟩
    show (toDisconnectionComplete c V _ >>= fun a => (.ok (Event.disconnectionComplete a) : Res V.EvErr V.Ev)) = _
    rw [disconnectionComplete_eq, status_ok0, (tryReason_err c V b _).mpr ⟨w, h1, h2, rfl⟩]; rfl
  | badLinkType b =>
    refine ⟨0x1A, [b], by simp, ?_⟩
    show (toDataBufferOverflow V _ >>= fun a => (.ok (Event.dataBufferOverflow a) : Res V.EvErr V.Ev)) = _
    rw [dataBufferOverflow_eq, (linkType_err b _).mpr ⟨h, rfl⟩]; rfl
  | badEncryptionEnabledValue b =>
    refine ⟨0x03, 0 :: le16 0 ++ (⟨Arr.zero 6⟩ : BdAddr).val.val ++ [0, b], by simp [le16, le, Arr.zero], ?_⟩
    show (toConnectionComplete c V _ >>= fun a => (.ok (Event.connectionComplete a) : Res V.EvErr V.Ev)) = _
    rw [connectionComplete_eq, status_ok0, (encryptionEnabled_err b _).mpr ⟨h, rfl⟩]; rfl
  | badEncryptionType b =>
    refine ⟨0x08, 0 :: le16 0 ++ [b], by simp [le16, le], ?_⟩
    show (toEncryptionChange c V _ >>= fun a => (.ok (Event.encryptionChange a) : Res V.EvErr V.Ev)) = _
    rw [encryptionChange_eq, status_ok0, (encryption_err b _).mpr ⟨h, rfl⟩]; rfl
  | unknownOpcode o =>
    obtain ⟨h1, h2, h3⟩ := h
    refine ⟨0x0E, 1 :: le16 o.val ++ [], by simp [le16, le], ?_⟩
    show (CommandComplete.new c V _ >>= fun a => (.ok (Event.commandComplete a) : Res V.EvErr V.Ev)) = _
    rw [commandComplete_eq, returnParams_other c V h1 h2, if_pos (fun h => h3 ((vendorOpcode_iff _).mpr h))]
    rfl
  | badCommandFlag =>
    have key : ∀ m : Arr 64, HasBit m.val 63 0 →
        fixedParser c V (op 0x04 0x02) (0 :: m.val) = .err .badCommandFlag := by
      intro m hm
      show (toSupportedCommands c V _).mapOk _ = _
      obtain ⟨r, hr, heq⟩ := supportedCommands_eq c V 0 m
      rw [heq, status_ok0]
      cases r with
      | none => rfl
      | some f =>
        have := ((hr f).mp rfl).2 63 0 hm
        exact absurd this (by
          unfold CommandBit
          rintro (h | ⟨-, h⟩ | ⟨-, h⟩)
          all_goals exact absurd h (by decide))
    exact occurs_fixed (o := op 0x04 0x02) (n := 65) (by decide) (by simp)
      (key ⟨List.replicate 64 0xFF, by simp⟩ ⟨0xFF, by simp, by decide⟩)
  | invalidChannelMap m =>
    obtain ⟨i, j, h1, h2⟩ := h
    refine occurs_fixed (o := op 0x08 0x15) (n := 8) (by decide) (ps := 0 :: le16 0 ++ m.val)
      (by simp [le16, le, m.len]) ?_
    show (toLeChannelMapParameters c V _).mapOk _ = _
    obtain ⟨r, hr, heq⟩ := channelMap_eq c V 0 0 m
    rw [heq, status_ok0]
    cases r with
    | none => rfl
    | some f => exact absurd (((hr f).mp rfl).2 i j h1) h2
  | invalidLeStates x =>
    obtain ⟨j, h1, h2⟩ := h
    refine occurs_fixed (o := op 0x08 0x1C) (n := 9) (by decide) (ps := 0 :: le64 x) (by simp [le64, le]) ?_
    show (toLeReadStates c V _).mapOk _ = _
    rw [leReadStates_eq, status_ok0]
    cases hf : fromBits c leStates x with
    | none => rfl
    | some f =>
      obtain ⟨rfl, hd⟩ := (leStates_some c x f).mp hf
      exact absurd (hd j h1) h2
  | badLeConnectionRole b =>
    refine occurs_le (sub := 1) (ps := 0 :: le16 0 ++ b :: 0 :: (⟨Arr.zero 6⟩ : BdAddr).val.val ++ le16 6 ++ le16 0 ++
      le16 11 ++ [0]) (by simp [le16, le, Arr.zero]) ?_
    rw [leMeta_eq]
    show (toLeConnectionComplete c V (1 :: 0 :: le16 0 ++ b :: 0 :: (⟨Arr.zero 6⟩ : BdAddr).val.val ++ le16 6 ++ le16 0 ++
      le16 11 ++ [0]) >>= fun a =>
      (.ok (Event.leConnectionComplete a) : Res V.EvErr V.Ev)) = _
    rw [leConnectionComplete_eq, status_ok0, (role_err b _).mpr ⟨h, rfl⟩]; rfl
  | badLeAddressType b =>
    refine occurs_le (sub := 1) (ps := 0 :: le16 0 ++ 0 :: b :: (⟨Arr.zero 6⟩ : BdAddr).val.val ++ le16 6 ++ le16 0 ++
      le16 11 ++ [0]) (by simp [le16, le, Arr.zero]) ?_
    rw [leMeta_eq]
    show (toLeConnectionComplete c V (1 :: 0 :: le16 0 ++ 0 :: b :: (⟨Arr.zero 6⟩ : BdAddr).val.val ++ le16 6 ++ le16 0 ++
      le16 11 ++ [0]) >>= fun a =>
      (.ok (Event.leConnectionComplete a) : Res V.EvErr V.Ev)) = _
    rw [leConnectionComplete_eq, status_ok0, (addrType_err b _ _).mpr ⟨h, rfl⟩]; rfl
  | badConnectionInterval e =>
    obtain ⟨a, l, t, lo, tmo, h1, h2, h3⟩ := interval_error_occurs h
    refine occurs_le (sub := 3) (ps := 0 :: le16 0 ++ le16 a ++ le16 l ++ le16 t) (by simp [le16, le]) ?_
    rw [leMeta_eq]
    show (toLeConnectionUpdateComplete c V (3 :: 0 :: le16 0 ++ le16 a ++ le16 l ++ le16 t) >>= fun a =>
      (.ok (Event.leConnectionUpdateComplete a) : Res V.EvErr V.Ev)) = _
    rw [leConnectionUpdateComplete_eq, status_ok0, (interval_err_iff a l t e).mpr ⟨lo, tmo, h1, h2, h3⟩]; rfl
  | badLeCentralClockAccuracy b =>
    refine occurs_le (sub := 1) (ps := 0 :: le16 0 ++ 0 :: 0 :: (⟨Arr.zero 6⟩ : BdAddr).val.val ++ le16 6 ++ le16 0 ++
      le16 11 ++ [b]) (by simp [le16, le, Arr.zero]) ?_
    rw [leMeta_eq]
    show (toLeConnectionComplete c V (1 :: 0 :: le16 0 ++ 0 :: 0 :: (⟨Arr.zero 6⟩ : BdAddr).val.val ++ le16 6 ++ le16 0 ++
      le16 11 ++ [b]) >>= fun a =>
      (.ok (Event.leConnectionComplete a) : Res V.EvErr V.Ev)) = _
    rw [leConnectionComplete_eq, status_ok0, (clock_err b _).mpr ⟨h, rfl⟩]
    obtain ⟨i, hi⟩ : ∃ i, FixedConnectionInterval.fromBytes (le16 6 ++ le16 0 ++ le16 11) = .ok i := ⟨_, rfl⟩
    rw [hi]
    rfl
  | leAdvertisementReportIncomplete =>
    refine occurs_le (sub := 2) (ps := 1 :: [0, 0, 0, 0, 0, 0, 0, 0, 0]) (by simp) ?_
    rw [leMeta_eq]
    show (toLeAdvertisingReport _ >>= fun a => (.ok (Event.leAdvertisingReport a) : Res V.EvErr V.Ev)) = _
    have := checkLoop_fault (VE := V.VErr) [] (by simp) [0, 0, 0, 0, 0, 0, 0, 0, 0] (.incomplete rfl (by decide))
    rw [report_eq _ _ _ (by decide)]
    simp only [advsBytes, List.map_nil, List.flatten_nil, List.nil_append] at this
    rw [this]
    rfl
  | badLeAdvertisementType b =>
    refine occurs_le (sub := 2) (ps := 1 :: [b, 0, 0, 0, 0, 0, 0, 0, 0, 0]) (by simp) ?_
    rw [leMeta_eq]
    show (toLeAdvertisingReport _ >>= fun a => (.ok (Event.leAdvertisingReport a) : Res V.EvErr V.Ev)) = _
    have := checkLoop_fault (VE := V.VErr) [] (by simp) [b, 0, 0, 0, 0, 0, 0, 0, 0, 0]
      (.eventType rfl (by simp) rfl h)
    rw [report_eq _ _ _ (by simp)]
    simp only [advsBytes, List.map_nil, List.flatten_nil, List.nil_append] at this
    rw [this]
    rfl
  | badRemoteUsedFeatureFlag x =>
    obtain ⟨j, h1, h2⟩ := h
    refine occurs_le (sub := 4) (ps := 0 :: le16 0 ++ le64 x) (by simp [le16, le64, le]) ?_
    rw [leMeta_eq]
    show (toLeReadRemoteUsedFeaturesComplete c V (4 :: 0 :: le16 0 ++ le64 x) >>= fun a =>
      (.ok (Event.leReadRemoteUsedFeaturesComplete a) : Res V.EvErr V.Ev)) = _
    rw [leReadRemoteUsedFeaturesComplete_eq, status_ok0]
    cases hf : fromBits c linkLayerFeature x with
    | none => rfl
    | some f =>
      obtain ⟨rfl, hd⟩ := (linkLayerFeature_some c x f).mp hf
      exact absurd (hd j h1) h2
  | badPhy b =>
    refine occurs_le (sub := 0x0C) (ps := 0 :: le16 0 ++ [b, 0]) (by simp [le16, le]) ?_
    rw [leMeta_eq]
    show (toLePhyUpdateComplete c V (0x0C :: 0 :: le16 0 ++ [b, 0]) >>= fun a => (.ok (Event.lePhyUpdateComplete a) : Res V.EvErr V.Ev)) = _
    rw [lePhyUpdateComplete_eq, status_ok0, (phy_err b _).mpr ⟨h, rfl⟩]; rfl

theorem vendor_error_occurs {e : EvError V.VErr} (h : VendorError V e) : Occurs c V e := by
  rcases h with ⟨ps, hp, h⟩ | ⟨n, o, ps, hv, hp, h⟩
  · refine ⟨0xFF, ps, hp, ?_⟩
    show (V.eventNew ps >>= fun a => (.ok (Event.vendor a) : Res V.EvErr V.Ev)) = _
    rw [h]; rfl
  · refine ⟨0x0E, n :: le16 o ++ ps, by simp [le16, le]; omega, ?_⟩
    show (CommandComplete.new c V _ >>= fun a => (.ok (Event.commandComplete a) : Res V.EvErr V.Ev)) = _
    rw [commandComplete_eq, returnParams_other c V (by rintro rfl; exact absurd hv (by unfold VendorOpcode; decide))
      (fun hk => not_vendor_of_known hk hv),
      if_neg (by rw [ne_eq, Classical.not_not]; exact (vendorOpcode_iff o).mp hv), h]
    rfl

end Occur

end Bt
