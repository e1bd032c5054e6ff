import Verif.Spec.Ledger
import Verif.Lemmas.StandardEvents
import Verif.Props.Lossless

/-! # Lemmas: the account of a host -/

namespace Bt

open Spec

variable {c : Cfg} {V : Vendor}

theorem succeeded_iff {st : UInt8} {s : Status V.VStatus} (h : StatusByte c V st s) :
    succeeded s = true ↔ st = 0 := by
  unfold StatusByte at h
  by_cases hc : st.toNat < statusCount c
  · rw [if_pos hc] at h
    constructor
    · intro hs
      have : s = .success := by cases s <;> first | rfl | cases hs
      subst this
      have h0 : (standardStatuses (VS := V.VStatus))[0]? = some .success := rfl
      exact UInt8.toNat_inj.mp (standardStatuses_inj h h0)
    · rintro rfl
      cases h
      rfl
  · rw [if_neg hc] at h
    obtain ⟨v, -, rfl⟩ := h
    constructor
    · intro hs; cases hs
    · rintro rfl
      exfalso
      apply hc
      unfold statusCount
      split <;> decide

theorem pairsBytes_inj {xs ys : List (UInt16 × UInt16)} (h : pairsBytes xs = pairsBytes ys) : xs = ys := by
  induction xs generalizing ys with
  | nil =>
    cases ys with
    | nil => rfl
    | cons y ys => have := congrArg List.length h; simp [pairsBytes_length] at this
  | cons x xs ih =>
    cases ys with
    | nil => have := congrArg List.length h; simp [pairsBytes_length] at this
    | cons y ys =>
      have h' : pairBytes x ++ pairsBytes xs = pairBytes y ++ pairsBytes ys := by
        simpa [pairsBytes] using h
      obtain ⟨h1, h2⟩ := List.append_inj h' (by simp [pairBytes])
      obtain ⟨h3, h4⟩ := List.append_inj h1 (by simp)
      rw [ih h2, Prod.ext (le16_inj h3) (le16_inj h4)]

theorem peel {α : Type} {a b x y : List α} (h : a ++ x = b ++ y) (hl : a.length = b.length) : a = b ∧ x = y :=
  List.append_inj h hl

theorem ledger_if {b : Bool} {st : UInt8} {L A B : Ledger} (hb : b = true ↔ st = 0) (h : A = B) :
    (if b then A else L) = (if st = 0 then B else L) := by
  subst h
  by_cases hst : st = 0
  · rw [if_pos hst, if_pos (hb.mpr hst)]
  · rw [if_neg hst, if_neg fun h => hst (hb.mp h)]

/-- The two accounts of an event that is accepted. -/
theorem note_says (L : Ledger) (x : StdEvent) (e : V.Ev) (hw : Says c V x.code x.params e) :
    L.note e = L.send x := by
  generalize hc : x.code = code at hw
  generalize hq : x.params = q at hw
  cases x with
  | connection st h a lt enc =>
    cases hw <;> cases hc
    rename_i st' s h' a' lt' enc' hs
    have hq : (st :: le16 h) ++ (a.val ++ [lt, enc]) =
      (st' :: le16 h') ++ (a'.val.val ++ [linkTypeCode lt', boolCode enc']) := by
      simpa [StdEvent.params] using hq
    obtain ⟨h1, h2⟩ := peel hq (by simp)
    obtain ⟨rfl, h3⟩ := List.cons.inj h1
    obtain ⟨h4, h5⟩ := peel h2 (by rw [a.len, a'.val.len])
    cases le16_inj h3
    obtain ⟨rfl, h6⟩ := List.cons.inj h5
    obtain ⟨rfl, -⟩ := List.cons.inj h6
    refine ledger_if (succeeded_iff hs) ?_
    simp only [h4]
    cases lt' <;> cases enc' <;> rfl
  | disconnection st h r =>
    cases hw <;> cases hc
    rename_i st' s h' rs r' hs hr
    have hq : (st :: le16 h) ++ [r] = (st' :: le16 h') ++ [rs] := by simpa [StdEvent.params] using hq
    obtain ⟨h1, -⟩ := peel hq (by simp)
    obtain ⟨rfl, h3⟩ := List.cons.inj h1
    cases le16_inj h3
    exact ledger_if (succeeded_iff hs) rfl
  | encryptionChange st h enc =>
    cases hw <;> cases hc
    rename_i st' s h' enc' hs
    have hq : (st :: le16 h) ++ [enc] = (st' :: le16 h') ++ [encryptionCode enc'] := by
      simpa [StdEvent.params] using hq
    obtain ⟨h1, h2⟩ := peel hq (by simp)
    obtain ⟨rfl, h3⟩ := List.cons.inj h1
    cases le16_inj h3
    obtain ⟨rfl, -⟩ := List.cons.inj h2
    refine ledger_if (succeeded_iff hs) ?_
    cases enc' <;> rfl
  | commandComplete n r =>
    cases hw <;> cases hc
    · cases (List.cons.inj hq).1; rfl
    · cases (List.cons.inj hq).1; rfl
  | noCommandComplete n =>
    cases hw <;> cases hc
    · cases (List.cons.inj hq).1; rfl
    · cases (List.cons.inj hq).1; rfl
  | commandStatus st n o =>
    cases hw <;> cases hc
    cases (List.cons.inj (List.cons.inj hq).2).1; rfl
  | completedPackets xs =>
    cases hw <;> cases hc
    rename_i ys buf hz
    cases pairsBytes_inj (List.cons.inj hq).2
    simp only [Ledger.note, Ledger.send, completed_iter _ _ hz, List.map_map]
    rfl
  | leConnection st h role pt p a l t clock =>
    cases hw <;> cases hc <;> first | exact absurd (List.cons.inj hq).1 (by decide) | skip
    rename_i st' s h' role' peer' a' l' t' i clock' hs hi
    obtain ⟨hi1, hi2, hi3, hi4⟩ := hi
    have hp : ∃ b : Bool, addrTypeBytes peer' = boolCode b :: (peerOf peer').1 ∧ (peerOf peer').2 = b := by
      cases peer' <;> exact ⟨_, rfl, rfl⟩
    have hpl : (peerOf peer').1.length = 6 := by cases peer' <;> simp [peerOf, Arr.len]
    obtain ⟨b, hp1, hp2⟩ := hp
    rw [hp1] at hq
    have k0 : (0x01 :: st :: le16 h) ++ ([role, pt] ++ (p.val ++ (le16 a ++ (le16 l ++ (le16 t ++ [clock]))))) =
        (0x01 :: st' :: le16 h') ++ ([roleCode role', boolCode b] ++ ((peerOf peer').1 ++
          (le16 a' ++ (le16 l' ++ (le16 t' ++ [clockCode clock']))))) := by
      simpa [StdEvent.params] using hq
    obtain ⟨h1, k1⟩ := peel k0 (by simp)
    obtain ⟨rfl, h3⟩ := List.cons.inj (List.cons.inj h1).2
    cases le16_inj h3
    obtain ⟨h4, k2⟩ := peel k1 rfl
    obtain ⟨h5, k3⟩ := peel k2 (by rw [p.len, hpl])
    obtain ⟨h6, k4⟩ := peel k3 (by simp)
    obtain ⟨h7, k5⟩ := peel k4 (by simp)
    obtain ⟨h8, -⟩ := peel k5 (by simp)
    cases le16_inj h6
    cases le16_inj h7
    cases le16_inj h8
    obtain ⟨rfl, h9⟩ := List.cons.inj h4
    obtain ⟨rfl, -⟩ := List.cons.inj h9
    refine ledger_if (succeeded_iff hs) ?_
    simp only [hi2, hi3, hi4, hp2, ← h5]
    cases role' <;> cases b <;> rfl
  | leConnectionUpdate st h a l t =>
    cases hw <;> cases hc <;> first | exact absurd (List.cons.inj hq).1 (by decide) | skip
    rename_i st' s h' a' l' t' i hs hi
    obtain ⟨hi1, hi2, hi3, hi4⟩ := hi
    have k0 : (0x03 :: st :: le16 h) ++ (le16 a ++ (le16 l ++ le16 t)) =
        (0x03 :: st' :: le16 h') ++ (le16 a' ++ (le16 l' ++ le16 t')) := by
      simpa [StdEvent.params] using hq
    obtain ⟨h1, k1⟩ := peel k0 (by simp)
    obtain ⟨rfl, h3⟩ := List.cons.inj (List.cons.inj h1).2
    cases le16_inj h3
    obtain ⟨h6, k2⟩ := peel k1 (by simp)
    obtain ⟨h7, h8⟩ := peel k2 (by simp)
    cases le16_inj h6
    cases le16_inj h7
    cases le16_inj h8
    refine ledger_if (succeeded_iff hs) ?_
    simp only [hi2, hi3, hi4]
  | leDataLength h a b d e =>
    cases hw <;> cases hc <;> first | exact absurd (List.cons.inj hq).1 (by decide) | skip
    rename_i h' a' b' d' e'
    have hq : le16 h ++ (le16 a ++ (le16 b ++ (le16 d ++ le16 e))) =
        le16 h' ++ (le16 a' ++ (le16 b' ++ (le16 d' ++ le16 e'))) := by
      simpa [StdEvent.params] using hq
    obtain ⟨h1, hq⟩ := peel hq (by simp)
    obtain ⟨h2, hq⟩ := peel hq (by simp)
    obtain ⟨h3, hq⟩ := peel hq (by simp)
    obtain ⟨h4, h5⟩ := peel hq (by simp)
    rw [le16_inj h1, le16_inj h2, le16_inj h3, le16_inj h4, le16_inj h5]
    rfl
  | _ => cases hw <;> cases hc <;> first | rfl | exact absurd (List.cons.inj hq).1 (by decide)

end Bt
