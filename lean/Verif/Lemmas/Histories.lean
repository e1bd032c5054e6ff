import Verif.Lemmas.Streams

/-! # Sequences of packets and histories of calls, for either transport

`w` puts a packet on the wire: `0x04 :: ·` for a UART, the identity for an event link. -/

namespace Bt

open Spec

/-- Packets can be told apart on the wire. -/
def PrefixFree (w : List UInt8 → List UInt8) : Prop :=
  ∀ p q r t, Framed p → Framed q → w p ++ r = w q ++ t → p = q ∧ r = t

theorem framed_prefix {p q r t : List UInt8} (hp : Framed p) (hq : Framed q) (h : p ++ r = q ++ t) :
    p = q ∧ r = t := by
  obtain ⟨a, ps, hps, rfl⟩ := hp
  obtain ⟨b, qs, hqs, rfl⟩ := hq
  simp only [frame, List.cons_append, List.cons.injEq] at h
  obtain ⟨rfl, h1, h2⟩ := h
  have h3 : ps.length = qs.length := by
    have := congrArg UInt8.toNat h1
    rw [UInt8.toNat_ofNat', UInt8.toNat_ofNat'] at this
    omega
  obtain ⟨rfl, rfl⟩ := List.append_inj h2 h3
  exact ⟨rfl, rfl⟩

theorem prefixFree_id : PrefixFree id := fun _ _ _ _ hp hq h => framed_prefix hp hq h

theorem prefixFree_uart : PrefixFree (0x04 :: ·) := fun _ _ _ _ hp hq h =>
  framed_prefix hp hq (List.cons.inj h).2

/-- A sequence of packets on the wire. -/
def wire (w : List UInt8 → List UInt8) (ps : List (List UInt8)) : List UInt8 := (ps.map w).flatten

theorem wire_cons (w : List UInt8 → List UInt8) (p : List UInt8) (ps : List (List UInt8)) :
    wire w (p :: ps) = w p ++ wire w ps := rfl

theorem wire_comparable {w : List UInt8 → List UInt8} (hw : PrefixFree w) :
    ∀ (ps qs : List (List UInt8)) (r t : List UInt8), (∀ p ∈ ps, Framed p) → (∀ q ∈ qs, Framed q) →
      wire w ps ++ r = wire w qs ++ t → ps <+: qs ∨ qs <+: ps
  | [], qs, _, _, _, _, _ => .inl (List.nil_prefix)
  | p :: ps, [], _, _, _, _, _ => .inr (List.nil_prefix)
  | p :: ps, q :: qs, r, t, hp, hq, h => by
    rw [wire_cons, wire_cons, List.append_assoc, List.append_assoc] at h
    obtain ⟨rfl, h'⟩ := hw p q _ _ (hp p (.head _)) (hq q (.head _)) h
    rcases wire_comparable hw ps qs r t (fun p h => hp p (.tail _ h)) (fun q h => hq q (.tail _ h)) h' with h | h
    · exact .inl (List.cons_prefix_cons.mpr ⟨rfl, h⟩)
    · exact .inr (List.cons_prefix_cons.mpr ⟨rfl, h⟩)

/-- If both sequences are followed by something that does not begin with a packet, they are equal. -/
theorem wire_unique {w : List UInt8 → List UInt8} (hw : PrefixFree w) :
    ∀ (ps qs : List (List UInt8)) (r t : List UInt8), (∀ p ∈ ps, Framed p) → (∀ q ∈ qs, Framed q) →
      (∀ p u, Framed p → r ≠ w p ++ u) → (∀ p u, Framed p → t ≠ w p ++ u) →
      wire w ps ++ r = wire w qs ++ t → ps = qs
  | [], [], _, _, _, _, _, _, _ => rfl
  | [], q :: qs, r, t, _, hq, hr, _, h => by
    rw [wire_cons, List.append_assoc] at h
    exact absurd h (hr q _ (hq q (.head _)))
  | p :: ps, [], r, t, hp, _, _, ht, h => by
    rw [wire_cons, List.append_assoc] at h
    exact absurd h.symm (ht p _ (hp p (.head _)))
  | p :: ps, q :: qs, r, t, hp, hq, hr, ht, h => by
    rw [wire_cons, wire_cons, List.append_assoc, List.append_assoc] at h
    obtain ⟨rfl, h'⟩ := hw p q _ _ (hp p (.head _)) (hq q (.head _)) h
    rw [wire_unique hw ps qs r t (fun p h => hp p (.tail _ h)) (fun q h => hq q (.tail _ h)) hr ht h']

/-- A sequence of packets is the beginning of one that is followed by no further packet. -/
theorem wire_prefix {w : List UInt8 → List UInt8} (hw : PrefixFree w) :
    ∀ (ps qs : List (List UInt8)) (r t : List UInt8), (∀ p ∈ ps, Framed p) → (∀ q ∈ qs, Framed q) →
      (∀ p u, Framed p → t ≠ w p ++ u) → wire w ps ++ r = wire w qs ++ t → ps <+: qs
  | [], _, _, _, _, _, _, _ => List.nil_prefix
  | p :: ps, [], r, t, hp, _, ht, h => by
    rw [wire_cons, List.append_assoc] at h
    exact absurd h.symm (ht p _ (hp p (.head _)))
  | p :: ps, q :: qs, r, t, hp, hq, ht, h => by
    rw [wire_cons, wire_cons, List.append_assoc, List.append_assoc] at h
    obtain ⟨rfl, h'⟩ := hw p q _ _ (hp p (.head _)) (hq q (.head _)) h
    exact List.cons_prefix_cons.mpr ⟨rfl,
      wire_prefix hw ps qs r t (fun p h => hp p (.tail _ h)) (fun q h => hq q (.tail _ h)) ht h'⟩

variable {σ ε α δ : Type} {stream : σ → List UInt8} {taken : σ → Nat} {m : Ctl σ ε α}
  {w : List UInt8 → List UInt8} {outcome : Res ε α → Option δ} {decode : List UInt8 → δ}

/-- Every call takes nothing and reports nothing, or takes one packet and reports its decoding. -/
def Steps (stream : σ → List UInt8) (taken : σ → Nat) (m : Ctl σ ε α) (w : List UInt8 → List UInt8)
    (outcome : Res ε α → Option δ) (decode : List UInt8 → δ) : Prop :=
  ∀ s r s', m s = (r, s') → stream s <+: stream s' ∧
    ((taken s' = taken s ∧ outcome r = none) ∨
     ∃ p, Framed p ∧ taken s' = taken s + (w p).length ∧
       (stream s').drop (taken s) = w p ++ (stream s').drop (taken s') ∧ outcome r = some (decode p))

theorem history (hm : Steps stream taken m w outcome decode) {s s' : σ} {rs : List (Res ε α)}
    (h : History stream taken m s rs s') : stream s <+: stream s' ∧ ∃ packets, (∀ p ∈ packets, Framed p) ∧
      rs.filterMap outcome = packets.map decode ∧ taken s' = taken s + (wire w packets).length ∧
      (stream s').drop (taken s) = wire w packets ++ (stream s').drop (taken s') := by
  induction h with
  | nil s => exact ⟨List.prefix_rfl, [], by simp, rfl, rfl, rfl⟩
  | wait hs ht _ ih =>
    obtain ⟨hs', ps, h1, h2, h3, h4⟩ := ih
    rw [ht] at h3 h4
    exact ⟨hs.trans hs', ps, h1, h2, h3, h4⟩
  | @call s r s₁ rs s' hr _ ih =>
    obtain ⟨hs', ps, h1, h2, h3, h4⟩ := ih
    obtain ⟨hs, ⟨ht, ho⟩ | ⟨p, hp, ht, hb, ho⟩⟩ := hm _ _ _ hr
    · rw [ht] at h3 h4
      exact ⟨hs.trans hs', ps, h1, by rw [List.filterMap_cons, ho]; exact h2, h3, h4⟩
    · refine ⟨hs.trans hs', p :: ps, ?_, ?_, ?_, ?_⟩
      · intro q hq
        rcases List.mem_cons.mp hq with rfl | hq
        · exact hp
        · exact h1 q hq
      · rw [List.filterMap_cons, ho]
        simp only [List.map_cons, h2]
      · rw [wire_cons, List.length_append]
        omega
      · rw [wire_cons, List.append_assoc, ← h4]
        obtain ⟨t, ht'⟩ := hs'
        have hle : (w p).length ≤ ((stream s₁).drop (taken s)).length := by rw [hb]; simp
        rw [List.length_drop] at hle
        by_cases hle' : taken s ≤ (stream s₁).length
        · rw [← ht', List.drop_append_of_le_length hle', hb, ht, List.append_assoc,
            List.drop_append_of_le_length (by omega)]
        · have h0 : w p = [] := by
            have : (stream s₁).drop (taken s) = [] := List.drop_of_length_le (by omega)
            rw [this] at hb
            exact (List.append_eq_nil_iff.mp hb.symm).1
          rw [ht, h0]
          rfl

end Bt
