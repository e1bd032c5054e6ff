import Verif.Spec.Credits
import Verif.Props.Reports
import Verif.Props.Returns

/-! # C114: an application that counts credits does not overrun the buffers of the controller -/

namespace Bt

open Spec

variable {c : Cfg} {V : Vendor} {N : Nat} {fresh : Prop}

/-! ## What the events say -/

theorem event_completed {p : List UInt8} {e : NumberOfCompletedPackets}
    (h : Event.new c V p = .ok (.numberOfCompletedPackets e)) : p.head? = some 0x13 := by
  obtain ⟨n, xs, rfl, -⟩ := C14_pairs (ε := Empty) c V p e h
  rfl

theorem event_closed {p : List UInt8} {e : DisconnectionComplete V.VStatus}
    (h : Event.new c V p = .ok (.disconnectionComplete e)) :
    ∃ st rs, p = frame 0x05 (st :: le16 e.connHandle.val ++ [rs]) := by
  obtain ⟨code, ps, rfl, hl, hs⟩ := (C09_sound_and_complete c V _ _).mp h
  cases hs with
  | disconnectionComplete _ _ => exact ⟨_, _, rfl⟩

theorem event_opened {p : List UInt8} {e : LeConnectionComplete V.VStatus}
    (h : Event.new c V p = .ok (.leConnectionComplete e)) :
    ∃ n st rest, p = 0x3E :: n :: 0x01 :: st :: le16 e.connHandle.val ++ rest := by
  obtain ⟨code, ps, rfl, hl, hs⟩ := (C09_sound_and_complete c V _ _).mp h
  cases hs with
  | leConnectionComplete _ _ => exact ⟨_, _, _, by simp only [frame, List.append_assoc, List.cons_append]; rfl⟩

theorem note_cases (a : Credits) (p : List UInt8) :
    a.note (Event.new c V p) = a ∨
    (∃ n st h rest, p = 0x3E :: n :: 0x01 :: st :: le16 h ++ rest ∧
      a.note (Event.new c V p) = { a with known := put a.known h true }) ∨
    p.head? = some 0x13 ∨ p.head? = some 0x05 := by
  unfold Credits.note
  split
  · rename_i he
    obtain ⟨n, st, rest, hp⟩ := event_opened he
    exact .inr (.inl ⟨n, st, _, rest, hp, rfl⟩)
  · rename_i he
    exact .inr (.inr (.inl (event_completed he)))
  · rename_i he
    obtain ⟨st, rs, hp⟩ := event_closed he
    exact .inr (.inr (.inr (by rw [hp]; rfl)))
  · exact .inl rfl

theorem note_opened (a : Credits) (h : UInt16) (rest : List UInt8) :
    a.note (Event.new c V (Notice.opened h rest).bytes) = a ∨
      a.note (Event.new c V (Notice.opened h rest).bytes) = { a with known := put a.known h true } := by
  rcases note_cases (c := c) (V := V) a (Notice.opened h rest).bytes with h1 | ⟨n, st, h', r, hp, h1⟩ | h1 | h1
  · exact .inl h1
  · refine .inr ?_
    rw [h1]
    simp only [Notice.bytes, List.cons_append, List.nil_append, List.cons.injEq, true_and] at hp
    obtain ⟨-, -, hp⟩ := hp
    have := le16_inj (List.append_inj hp (by simp)).1
    rw [this]
  · simp [Notice.bytes] at h1
  · simp [Notice.bytes] at h1

theorem note_other (a : Credits) {p : List UInt8} (hp : OtherKind p) : a.note (Event.new c V p) = a := by
  obtain ⟨h13, h5, h3e⟩ := hp
  rcases note_cases (c := c) (V := V) a p with h1 | ⟨n, st, h', r, hp, h1⟩ | h1 | h1
  · exact h1
  · subst hp
    exact absurd rfl (h3e rfl)
  · exact absurd h1 h13
  · exact absurd h1 h5

theorem fold_amount (xs : List (UInt16 × UInt16)) (f : UInt16 → Nat) (h : UInt16) :
    (xs.map fun x => (⟨⟨x.1⟩, x.2.toNat⟩ : NumberOfCompletedPacketsPair)).foldl (fun f p =>
      put f p.connHandle.val (f p.connHandle.val - p.numCompletedPackets)) f h = f h - amount xs h := by
  induction xs generalizing f with
  | nil => simp [amount]
  | cons x xs ih =>
    rw [List.map_cons, List.foldl_cons, ih]
    by_cases hx : x.1 = h
    · subst hx
      simp [put, amount, Nat.sub_sub]
    · have : h ≠ x.1 := fun e => hx e.symm
      simp [put, amount, hx, this]

theorem note_completed (a : Credits) (xs : List (UInt16 × UInt16)) (hx : xs.length ≤ 63) :
    (a.note (Event.new c V (Notice.completed xs).bytes)).known = a.known ∧
      ∀ h, (a.note (Event.new c V (Notice.completed xs).bytes)).out h = a.out h - amount xs h := by
  obtain ⟨e, h1, h2⟩ := C14_every_list (ε := Empty) c V xs hx
  have hb : (Notice.completed xs).bytes = frame 0x13 (UInt8.ofNat xs.length :: pairsBytes xs) := by
    simp [Notice.bytes, frame, pairsBytes_length]
  rw [hb, h1]
  simp only [Credits.note, h2]
  exact ⟨trivial, fold_amount xs a.out⟩

theorem note_closed (a : Credits) (h : UInt16) (reason : UInt8) (hr : ∃ r, StatusByte c V reason r) :
    a.note (Event.new c V (Notice.closed h reason).bytes) = ⟨put a.known h false, put a.out h 0⟩ := by
  obtain ⟨r, hr⟩ := hr
  have : Event.new c V (Notice.closed h reason).bytes = .ok (.disconnectionComplete ⟨.success, ⟨h⟩, r⟩) :=
    (C09_sound_and_complete c V _ _).mpr ⟨0x05, _, by simp [Notice.bytes, frame], by simp,
      .disconnectionComplete (h := h) (status_zero c V) hr⟩
  rw [this]
  rfl

/-! ## The invariant -/

/-- The packets that are completed, but of which the application has not been told. -/
def pend (way : List Notice) (h : UInt16) : Nat :=
  (way.map fun | .completed xs => amount xs h | _ => 0).sum

/-- Nothing about a handle. -/
def Silent (way : List Notice) (h : UInt16) : Prop :=
  (∀ r, .closed h r ∉ way) ∧ (∀ r, .opened h r ∉ way) ∧ pend way h = 0

structure Balanced (c : Cfg) (V : Vendor) (s : Traffic) : Prop where
  shut : ∀ h, s.isOpen h = false → s.buffer h = 0
  exact_ : ∀ h, (∀ r, .closed h r ∉ s.way) → s.account.out h = s.buffer h + pend s.way h
  ended : ∀ h pre r post, s.way = pre ++ .closed h r :: post → s.isOpen h = false ∧ Silent post h
  aware : ∀ h, (s.account.known h = true ∨ ∃ r, .opened h r ∈ s.way) →
    s.isOpen h = true ∨ ∃ r, .closed h r ∈ s.way
  fit : ∀ xs, .completed xs ∈ s.way → xs.length ≤ 63
  reasons : ∀ h r, .closed h r ∈ s.way → ∃ st, StatusByte c V r st
  others : ∀ p, .other p ∈ s.way → OtherKind p

theorem pend_append (a b : List Notice) (h : UInt16) : pend (a ++ b) h = pend a h + pend b h := by
  simp [pend]

theorem ended_closed {s : Traffic} (hb : Balanced c V s) {h : UInt16} {r : UInt8} (hm : .closed h r ∈ s.way) :
    s.isOpen h = false := by
  obtain ⟨pre, post, hp⟩ := List.append_of_mem hm
  exact (hb.ended h pre r post hp).1

/-- What is behind the end of a connection when one more notice is on its way. -/
theorem split_last {way pre post : List Notice} {m n : Notice} (h : way ++ [m] = pre ++ n :: post) :
    (post = [] ∧ m = n) ∨ ∃ post', post = post' ++ [m] ∧ way = pre ++ n :: post' := by
  rcases List.eq_nil_or_concat post with rfl | ⟨post', x, rfl⟩
  · left
    have := List.append_inj' h rfl
    exact ⟨rfl, by simpa using this.2⟩
  · right
    rw [List.concat_eq_append] at h ⊢
    have h' : way ++ [m] = (pre ++ n :: post') ++ [x] := by simpa using h
    have := List.append_inj' h' rfl
    refine ⟨post', ?_, this.1⟩
    rw [this.2]

theorem balanced_step {s t : Traffic} (hf : fresh) (hb : Balanced c V s) (hs : Traffic.Step c V N fresh s t) :
    Balanced c V t := by
  cases hs with
  | send h hk ht =>
    refine ⟨fun g hg => ?_, fun g hg => ?_, hb.ended, hb.aware, hb.fit, hb.reasons, hb.others⟩
    · simp only at hg ⊢
      by_cases ho : s.isOpen h = true
      · have : g ≠ h := fun e => by rw [e, ho] at hg; cases hg
        simp [ho, put, this, hb.shut g hg]
      · simp [ho, hb.shut g hg]
    · simp only at hg ⊢
      have he := hb.exact_ g hg
      by_cases hgh : g = h
      · subst hgh
        have ho : s.isOpen g = true := by
          rcases hb.aware g (.inl hk) with ho | ⟨r, hr⟩
          · exact ho
          · exact absurd hr (hg r)
        simp [ho, put]
        omega
      · simp only [put, if_neg hgh]
        split <;> simp [put, hgh, he]
  | opens h rest ho hfr =>
    have hn := hfr hf
    refine ⟨fun g hg => ?_, fun g hg => ?_, fun g pre r post hp => ?_, fun g hg => ?_, fun xs hx => ?_,
      fun g r hr => ?_, fun p hp => ?_⟩
    · simp only [put] at hg
      split at hg
      · cases hg
      · exact hb.shut g hg
    · simp only at hg ⊢
      rw [pend_append, hb.exact_ g fun r hr => hg r (by simp [hr])]
      simp [pend]
    · simp only at hp ⊢
      rcases split_last hp with ⟨-, h2⟩ | ⟨post', rfl, h2⟩
      · cases h2
      · obtain ⟨g1, g2, g3, g4⟩ := hb.ended g pre r post' h2
        have hgh : g ≠ h := by
          rintro rfl
          exact hn r (by rw [h2]; simp)
        refine ⟨by simp [put, hgh, g1], fun r' hr' => ?_, fun r' hr' => ?_, ?_⟩
        · simp at hr'
          exact g2 r' hr'
        · simp [hgh] at hr'
          exact g3 r' hr'
        · rw [pend_append, g4]
          simp [pend]
    · simp only [put] at hg ⊢
      by_cases hgh : g = h
      · simp [hgh]
      · simp only [if_neg hgh]
        rcases hb.aware g (by
          rcases hg with hg | ⟨r, hr⟩
          · exact .inl hg
          · simp [hgh] at hr
            exact .inr ⟨r, hr⟩) with h1 | ⟨r, h1⟩
        · exact .inl h1
        · exact .inr ⟨r, by simp [h1]⟩
    · simp at hx; exact hb.fit xs hx
    · simp at hr; exact hb.reasons g r hr
    · simp at hp; exact hb.others p hp
  | completes xs hx ha =>
    refine ⟨fun g hg => ?_, fun g hg => ?_, fun g pre r post hp => ?_, fun g hg => ?_, fun ys hy => ?_,
      fun g r hr => ?_, fun p hp => ?_⟩
    · simp only at hg ⊢
      rw [hb.shut g hg, Nat.zero_sub]
    · simp only at hg ⊢
      rw [pend_append, hb.exact_ g fun r hr => hg r (by simp [hr])]
      have := ha g
      simp [pend]
      omega
    · simp only at hp ⊢
      rcases split_last hp with ⟨-, h2⟩ | ⟨post', rfl, h2⟩
      · cases h2
      · obtain ⟨g1, g2, g3, g4⟩ := hb.ended g pre r post' h2
        refine ⟨g1, fun r' hr' => ?_, fun r' hr' => ?_, ?_⟩
        · simp at hr'
          exact g2 r' hr'
        · simp at hr'
          exact g3 r' hr'
        · have := ha g
          rw [hb.shut g g1] at this
          rw [pend_append, g4]
          simp [pend]
          omega
    · simp only at hg ⊢
      rcases hb.aware g (by
        rcases hg with hg | ⟨r, hr⟩
        · exact .inl hg
        · simp at hr
          exact .inr ⟨r, hr⟩) with h1 | ⟨r, h1⟩
      · exact .inl h1
      · exact .inr ⟨r, by simp [h1]⟩
    · simp at hy
      rcases hy with hy | rfl
      · exact hb.fit ys hy
      · exact hx
    · simp at hr; exact hb.reasons g r hr
    · simp at hp; exact hb.others p hp
  | closes h reason ho hr =>
    refine ⟨fun g hg => ?_, fun g hg => ?_, fun g pre r post hp => ?_, fun g hg => ?_, fun ys hy => ?_,
      fun g r hr' => ?_, fun p hp => ?_⟩
    · simp only [put] at hg ⊢
      by_cases hgh : g = h
      · simp [hgh]
      · simp only [if_neg hgh] at hg ⊢
        exact hb.shut g hg
    · simp only at hg ⊢
      have hgh : g ≠ h := by
        rintro rfl
        exact hg reason (by simp)
      rw [pend_append, hb.exact_ g fun r hr => hg r (by simp [hr])]
      simp [pend, put, hgh]
    · simp only at hp ⊢
      rcases split_last hp with ⟨rfl, h2⟩ | ⟨post', rfl, h2⟩
      · cases h2
        exact ⟨by simp [put], by simp, by simp, rfl⟩
      · obtain ⟨g1, g2, g3, g4⟩ := hb.ended g pre r post' h2
        have hgh : g ≠ h := by
          rintro rfl
          rw [ho] at g1
          cases g1
        refine ⟨by simp [put, hgh, g1], fun r' hr' => ?_, fun r' hr' => ?_, ?_⟩
        · simp [hgh] at hr'
          exact g2 r' hr'
        · simp at hr'
          exact g3 r' hr'
        · rw [pend_append, g4]
          simp [pend]
    · simp only [put] at hg ⊢
      by_cases hgh : g = h
      · exact .inr ⟨reason, by simp [hgh]⟩
      · simp only [if_neg hgh]
        rcases hb.aware g (by
          rcases hg with hg | ⟨r, hr⟩
          · exact .inl hg
          · simp at hr
            exact .inr ⟨r, hr⟩) with h1 | ⟨r, h1⟩
        · exact .inl h1
        · exact .inr ⟨r, by simp [h1]⟩
    · simp at hy; exact hb.fit ys hy
    · simp at hr'
      rcases hr' with hr' | ⟨-, rfl⟩
      · exact hb.reasons g r hr'
      · exact hr
    · simp at hp; exact hb.others p hp
  | tells packet hk =>
    refine ⟨hb.shut, fun g hg => ?_, fun g pre r post hp => ?_, fun g hg => ?_, fun ys hy => ?_,
      fun g r hr' => ?_, fun p hp => ?_⟩
    · simp only at hg ⊢
      rw [pend_append, hb.exact_ g fun r hr => hg r (by simp [hr])]
      simp [pend]
    · simp only at hp ⊢
      rcases split_last hp with ⟨rfl, h2⟩ | ⟨post', rfl, h2⟩
      · cases h2
      · obtain ⟨g1, g2, g3, g4⟩ := hb.ended g pre r post' h2
        refine ⟨g1, fun r' hr' => ?_, fun r' hr' => ?_, ?_⟩
        · simp at hr'
          exact g2 r' hr'
        · simp at hr'
          exact g3 r' hr'
        · rw [pend_append, g4]
          simp [pend]
    · simp only at hg ⊢
      rcases hb.aware g (by
        rcases hg with hg | ⟨r, hr⟩
        · exact .inl hg
        · simp at hr
          exact .inr ⟨r, hr⟩) with h1 | ⟨r, h1⟩
      · exact .inl h1
      · exact .inr ⟨r, by simp [h1]⟩
    · simp at hy; exact hb.fit ys hy
    · simp at hr'; exact hb.reasons g r hr'
    · simp at hp
      rcases hp with hp | rfl
      · exact hb.others p hp
      · exact hk
  | reads m rest hw =>
    have hmem : ∀ x, x ∈ rest → x ∈ s.way := fun x hx => by rw [hw]; exact List.mem_cons_of_mem _ hx
    have hended : ∀ g pre r post, rest = pre ++ .closed g r :: post → s.isOpen g = false ∧ Silent post g :=
      fun g pre r post hp => hb.ended g (m :: pre) r post (by rw [hw, hp]; rfl)
    -- the parts that do not depend on the notice
    suffices h : (∀ g, (∀ r, .closed g r ∉ rest) →
        (s.account.note (Event.new c V m.bytes)).out g = s.buffer g + pend rest g) ∧
        ∀ g, ((s.account.note (Event.new c V m.bytes)).known g = true ∨ ∃ r, .opened g r ∈ rest) →
          s.isOpen g = true ∨ ∃ r, .closed g r ∈ rest from
      ⟨hb.shut, h.1, hended, h.2, fun xs hx => hb.fit xs (hmem _ hx), fun g r hr => hb.reasons g r (hmem _ hr),
        fun p hp => hb.others p (hmem _ hp)⟩
    have hexact := hb.exact_
    have haware := hb.aware
    rw [hw] at hexact haware
    cases m with
    | opened h r =>
      have hsame : (s.account.note (Event.new c V (Notice.opened h r).bytes)).out = s.account.out := by
        rcases note_opened (c := c) (V := V) s.account h r with e | e <;> rw [e]
      have hknown : ∀ g, (s.account.note (Event.new c V (Notice.opened h r).bytes)).known g = true →
          s.account.known g = true ∨ g = h := by
        intro g hg
        rcases note_opened (c := c) (V := V) s.account h r with e | e <;> rw [e] at hg
        · exact .inl hg
        · simp only [put] at hg
          split at hg
          · rename_i h1; exact .inr h1
          · exact .inl hg
      refine ⟨fun g hg => ?_, fun g hg => ?_⟩
      · rw [hsame, hexact g (by simpa using hg)]
        simp [pend]
      · rcases haware g (by
          rcases hg with hg | ⟨r', hr'⟩
          · rcases hknown g hg with h1 | rfl
            · exact .inl h1
            · exact .inr ⟨r, by simp⟩
          · exact .inr ⟨r', by simp [hr']⟩) with h1 | ⟨r', h1⟩
        · exact .inl h1
        · simp at h1
          exact .inr ⟨r', h1⟩
    | completed xs =>
      obtain ⟨e1, e2⟩ := note_completed (c := c) (V := V) s.account xs (hb.fit xs (by rw [hw]; simp))
      refine ⟨fun g hg => ?_, fun g hg => ?_⟩
      · rw [e2, hexact g (by simpa using hg)]
        simp [pend]
        omega
      · rw [e1] at hg
        rcases haware g (by
          rcases hg with hg | ⟨r', hr'⟩
          · exact .inl hg
          · exact .inr ⟨r', by simp [hr']⟩) with h1 | ⟨r', h1⟩
        · exact .inl h1
        · simp at h1
          exact .inr ⟨r', h1⟩
    | closed h r =>
      rw [note_closed (c := c) (V := V) s.account h r (hb.reasons h r (by rw [hw]; simp))]
      obtain ⟨g1, g2, g3, g4⟩ := hb.ended h [] r rest (by rw [hw]; rfl)
      refine ⟨fun g hg => ?_, fun g hg => ?_⟩
      · simp only [put]
        by_cases hgh : g = h
        · subst hgh
          simp [hb.shut g g1, g4]
        · rw [if_neg hgh, hexact g (by simpa [hgh] using hg)]
          simp [pend]
      · simp only [put] at hg
        by_cases hgh : g = h
        · subst hgh
          simp at hg
          obtain ⟨r', hr'⟩ := hg
          exact absurd hr' (g3 r')
        · rw [if_neg hgh] at hg
          rcases haware g (by
            rcases hg with hg | ⟨r', hr'⟩
            · exact .inl hg
            · exact .inr ⟨r', by simp [hr']⟩) with h1 | ⟨r', h1⟩
          · exact .inl h1
          · simp [hgh] at h1
            exact .inr ⟨r', h1⟩
    | other p =>
      have e : s.account.note (Event.new c V (Notice.other p).bytes) = s.account :=
        note_other s.account (hb.others p (by rw [hw]; simp))
      rw [e]
      refine ⟨fun g hg => ?_, fun g hg => ?_⟩
      · rw [hexact g (by simpa using hg)]
        simp [pend]
      · rcases haware g (by
          rcases hg with hg | ⟨r', hr'⟩
          · exact .inl hg
          · exact .inr ⟨r', by simp [hr']⟩) with h1 | ⟨r', h1⟩
        · exact .inl h1
        · simp at h1
          exact .inr ⟨r', h1⟩

theorem balanced_reached {s : Traffic} (hf : fresh) (h : Traffic.Reached c V N fresh s) : Balanced c V s := by
  induction h with
  | start =>
    exact ⟨fun _ _ => rfl, fun _ _ => rfl, fun _ pre _ _ hp => by simp at hp, fun _ h => by simp at h,
      fun _ h => by simp at h, fun _ _ h => by simp at h, fun _ h => by simp at h⟩
  | step _ hs ih => exact balanced_step hf ih hs

/-! ## Sums -/

theorem sum_le {α : Type} (l : List α) (f g : α → Nat) (h : ∀ x ∈ l, f x ≤ g x) : (l.map f).sum ≤ (l.map g).sum := by
  induction l with
  | nil => simp
  | cons a l ih =>
    have h1 := h a (by simp)
    have h2 := ih fun x hx => h x (by simp [hx])
    simp only [List.map_cons, List.sum_cons]
    omega

theorem total_le {f g : UInt16 → Nat} (h : ∀ x, f x ≤ g x) : total f ≤ total g :=
  sum_le _ _ _ fun _ _ => h _

theorem sum_one (l : List Nat) (hn : l.Nodup) (f : UInt16 → Nat) (h : UInt16) (hl : ∀ i ∈ l, i < 0x10000) :
    (l.map fun i => put f h (f h + 1) (UInt16.ofNat i)).sum =
      (l.map fun i => f (UInt16.ofNat i)).sum + if h.toNat ∈ l then 1 else 0 := by
  induction l with
  | nil => simp
  | cons a l ih =>
    have ha := hl a (by simp)
    have hi := ih hn.tail fun i hi => hl i (by simp [hi])
    have hna : a ∉ l := (List.nodup_cons.mp hn).1
    simp only [List.map_cons, List.sum_cons, hi]
    by_cases e : UInt16.ofNat a = h
    · have : h.toNat = a := by
        rw [← e, UInt16.toNat_ofNat']
        exact Nat.mod_eq_of_lt ha
      simp only [put, e, this, hna, if_true, if_false, List.mem_cons, true_or]
      omega
    · have : h.toNat ≠ a := by
        rintro rfl
        exact e (by simp)
      simp only [put, if_neg e, List.mem_cons, this, false_or]
      omega

theorem total_put (f : UInt16 → Nat) (h : UInt16) : total (put f h (f h + 1)) = total f + 1 := by
  unfold total
  rw [sum_one _ List.nodup_range _ _ (fun i hi => List.mem_range.mp hi),
    if_pos (List.mem_range.mpr h.toNat_lt)]

theorem total_zero : total (fun _ => 0) = 0 := by
  unfold total
  induction List.range 0x10000 with
  | nil => rfl
  | cons a l ih => simpa using ih

/-! ## The property -/

theorem note_le (a : Credits) (p : List UInt8) (h : UInt16) : (a.note (Event.new c V p)).out h ≤ a.out h := by
  unfold Credits.note
  split
  · exact Nat.le_refl _
  · rename_i e he
    obtain ⟨n, xs, -, -, -, hi⟩ := C14_pairs (ε := Empty) c V p e he
    rw [hi]
    simp only
    rw [fold_amount]
    exact Nat.sub_le _ _
  · simp only [put]
    split
    · exact Nat.zero_le _
    · exact Nat.le_refl _
  · exact Nat.le_refl _

/-- The account never exceeds the number of buffers. -/
theorem account_le {s : Traffic} (h : Traffic.Reached c V N fresh s) : total s.account.out ≤ N := by
  induction h with
  | start => rw [show total ({} : Traffic).account.out = 0 from total_zero]; exact Nat.zero_le _
  | step _ hs ih =>
    cases hs with
    | send h hk ht =>
      simp only
      rw [total_put]
      exact ht
    | reads m rest hw => exact Nat.le_trans (total_le fun x => note_le _ _ x) ih
    | _ => exact ih

/-- **C114.** The buffers of the controller are never overrun: whatever happens, and in whatever order, the packets in them
are at most `N`. -/
theorem C114_never_overrun {s : Traffic} (h : Traffic.Reached c V N True s) : total s.buffer ≤ N := by
  have hb := balanced_reached trivial h
  refine Nat.le_trans (total_le fun g => ?_) (account_le h)
  by_cases hc : ∃ r, .closed g r ∈ s.way
  · obtain ⟨r, hr⟩ := hc
    rw [hb.shut g (ended_closed hb hr)]
    exact Nat.zero_le _
  · rw [hb.exact_ g fun r hr => hc ⟨r, hr⟩]
    exact Nat.le_add_right _ _

/-- **C114.** No credit is lost: when the application has read the events that are on their way, its account is exactly what
is in the buffers, for each connection. So it may use every buffer that is free. -/
theorem C114_no_credit_lost {s : Traffic} (h : Traffic.Reached c V N True s) (g : UInt16) :
    (s.way.foldl (fun a m => a.note (Event.new c V m.bytes)) s.account).out g = s.buffer g := by
  generalize hw : s.way = way
  induction way generalizing s with
  | nil => exact (balanced_reached trivial h).exact_ g (by simp [hw]) |>.trans (by simp [hw, pend])
  | cons m rest ih => exact ih (h.step (.reads m rest hw)) rfl

/-- **C114.** And it knows no connection that has ended. -/
theorem C114_known {s : Traffic} (h : Traffic.Reached c V N True s) (g : UInt16)
    (hk : (s.way.foldl (fun a m => a.note (Event.new c V m.bytes)) s.account).known g = true) : s.isOpen g = true := by
  have key : ∀ way (s : Traffic), Traffic.Reached c V N True s → s.way = way →
      (way.foldl (fun a m => a.note (Event.new c V m.bytes)) s.account).known g = true → s.isOpen g = true := by
    intro way
    induction way with
    | nil =>
      intro s h hw hk
      rcases (balanced_reached trivial h).aware g (.inl hk) with h1 | ⟨r, h1⟩
      · exact h1
      · simp [hw] at h1
    | cons m rest ih =>
      intro s h hw hk
      have := ih _ (h.step (.reads m rest hw)) rfl hk
      exact this
  exact key _ s h rfl hk

/-! ## Handles that are used again -/

/-- LE Connection Complete for handle 1. -/
def openedOne : List UInt8 := [0, 1, 1, 2, 3, 4, 5, 6, 24, 0, 0, 0, 100, 0, 0]

theorem note_openedOne (a : Credits) :
    a.note (Event.new ⟨false, false⟩ demoVendor (Notice.opened 1 openedOne).bytes) =
      { a with known := put a.known 1 true } := by
  rfl

/-- A state with a packet in the only buffer, reached under the assumption about handles. -/
example : ∃ s, Traffic.Reached ⟨false, false⟩ demoVendor 1 True s ∧ s.buffer 1 = 1 ∧ s.account.out 1 = 1 := by
  have hz := total_zero
  have r1 := Traffic.Reached.step (c := ⟨false, false⟩) (V := demoVendor) (N := 1) (fresh := True) .start
    (.opens 1 openedOne rfl (by simp))
  have r2 := r1.step (.reads _ _ rfl)
  have r3 := r2.step (.send 1 rfl (by
    rw [note_openedOne]
    simp only
    omega))
  exact ⟨_, r3, rfl, rfl⟩

/-- **C114.** The assumption about handles is needed: if the controller may use a handle again before the host has read that
the old connection has ended, one buffer can be overrun. -/
theorem C114_handles_reused : ∃ s, Traffic.Reached ⟨false, false⟩ demoVendor 1 False s ∧ 1 < total s.buffer := by
  have hz := total_zero
  have r1 := Traffic.Reached.step (c := ⟨false, false⟩) (V := demoVendor) (N := 1) (fresh := False) .start
    (.opens 1 openedOne rfl False.elim)
  have r2 := r1.step (.reads _ _ rfl)
  have r3 := r2.step (.closes 1 0x13 rfl ⟨.remoteTerminationByUser, rfl⟩)
  have r4 := r3.step (.opens 1 openedOne rfl False.elim)
  have r5 := r4.step (.send 1 rfl (by
    rw [note_openedOne]
    simp only
    omega))
  have r6 := r5.step (.reads _ _ rfl)
  have r7 := r6.step (.reads _ _ rfl)
  have hc : ∀ a : Credits, a.note (Event.new ⟨false, false⟩ demoVendor (Notice.closed 1 0x13).bytes) =
      ⟨put a.known 1 false, put a.out 1 0⟩ := fun a => note_closed a 1 0x13 ⟨.remoteTerminationByUser, rfl⟩
  have r8 := r7.step (.send 1 rfl (by
    rw [note_openedOne, hc, note_openedOne]
    simp only
    refine Nat.lt_of_le_of_lt (total_le (g := fun _ => 0) fun g => ?_) (by omega)
    simp only [put]
    split <;> simp))
  refine ⟨_, r8, ?_⟩
  show 1 < total (put (put (put (fun _ => 0) 1 0) 1 (0 + 1)) 1 (0 + 1 + 1))
  have e1 := total_put (put (put (fun _ => 0) 1 0) 1 (0 + 1)) 1
  have e2 := total_put (put (fun _ => 0) 1 0) 1
  have e3 : put (put (fun _ => 0) 1 0) 1 (0 + 1) 1 = 0 + 1 := rfl
  have e4 : put (fun _ => 0) 1 0 1 = 0 := rfl
  rw [e3] at e1
  rw [e4] at e2
  omega

end Bt
