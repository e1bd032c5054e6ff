import Verif.Spec.Secrets
import Verif.Props.Secrecy

/-! # C116: an application that heeds the events does not send secrets in the clear -/

namespace Bt

open Spec

variable {c : Cfg} {V : Vendor} {fresh steady known : Prop}

/-! ## What one packet does to the account -/

theorem believes_on {h : UInt16} {p : List UInt8} (ha : Accepted c V p) (he : Encrypts h p) (L : Ledger) :
    (L.noteOutcome (Event.new c V p)).encrypted h.toNat = true := by
  obtain ⟨e, hp⟩ := ha
  obtain ⟨code, qs, rfl, -, hs⟩ := (C09_sound_and_complete c V _ _).mp hp
  rw [hp]
  exact encrypts_note hs he L

theorem believes_off {h : UInt16} {p : List UInt8} (ha : Accepted c V p) (he : Unencrypts h p) (L : Ledger) :
    (L.noteOutcome (Event.new c V p)).encrypted h.toNat = false := by
  obtain ⟨e, hp⟩ := ha
  obtain ⟨code, qs, rfl, -, hs⟩ := (C09_sound_and_complete c V _ _).mp hp
  rw [hp]
  exact unencrypts_note hs he L

theorem believes_same {h : UInt16} {p : List UInt8} (h1 : ¬ Encrypts h p) (h2 : ¬ Unencrypts h p) (L : Ledger) :
    (L.noteOutcome (Event.new c V p)).encrypted h.toNat = L.encrypted h.toNat := by
  by_cases ha : Accepted c V p
  · obtain ⟨e, hp⟩ := ha
    obtain ⟨code, qs, rfl, -, hs⟩ := (C09_sound_and_complete c V _ _).mp hp
    rw [hp]
    rcases encryption_cases hs h L with hc | hc | hc
    · exact absurd hc h1
    · exact absurd hc h2
    · exact hc
  · exact rejected_note ha L

/-- The two bytes of a packet that name the connection. -/
def handlePart (p : List UInt8) : List UInt8 := if p.head? = some 0x3E then (p.drop 4).take 2 else (p.drop 3).take 2

theorem encrypts_handle {h : UInt16} {p : List UInt8} (he : Encrypts h p) : handlePart p = le16 h := by
  cases he <;> simp [handlePart, frame, le16]

theorem unencrypts_handle {h : UInt16} {p : List UInt8} (he : Unencrypts h p) : handlePart p = le16 h := by
  cases he <;> simp [handlePart, frame, le16]

/-- A packet about one connection says nothing about another. -/
theorem other_handle {g h : UInt16} {p : List UInt8} (hp : Encrypts h p ∨ Unencrypts h p) (hg : g ≠ h) :
    ¬ Encrypts g p ∧ ¬ Unencrypts g p := by
  have e : handlePart p = le16 h := hp.elim encrypts_handle unencrypts_handle
  exact ⟨fun he => hg (le16_inj ((encrypts_handle he).symm.trans e)),
    fun he => hg (le16_inj ((unencrypts_handle he).symm.trans e))⟩

theorem end_accepted {h : UInt16} {r : UInt8} (hr : ∃ st, StatusByte c V r st) : Accepted c V (endPacket h r) :=
  ((C106_accepted (c := c) (V := V) h 0 r).2).mpr hr

theorem change_accepted (h : UInt16) {e : UInt8} (he : e ≤ 2) : Accepted c V (frame 0x08 (0 :: le16 h ++ [e])) :=
  ((C106_accepted (c := c) (V := V) h e 0).1).mpr he

theorem end_unencrypts (h : UInt16) (r : UInt8) : Unencrypts h (endPacket h r) := .disconnection

/-! ## What the account will be -/

/-- The account when the packets on their way have been read. -/
def Caught (c : Cfg) (V : Vendor) (s : Secrets) : Ledger :=
  s.way.foldl (fun L p => L.noteOutcome (Event.new c V p)) s.ledger

structure Coherent (c : Cfg) (V : Vendor) (s : Secrets) : Prop where
  final : ∀ h, (Caught c V s).encrypted h.toNat = s.enc h
  shut : ∀ h, s.enc h = true → s.isOpen h = true

/-- One more packet on its way. -/
theorem caught_append (s : Secrets) (p : List UInt8) (o e : UInt16 → Bool) (a : List (UInt16 × Bool)) :
    Caught c V ⟨o, e, s.way ++ [p], s.ledger, a⟩ = (Caught c V s).noteOutcome (Event.new c V p) := by
  simp [Caught]

theorem coherent_step {s t : Secrets} (hkn : known) (hb : Coherent c V s) (hs : Secrets.Step c V fresh steady known s t) : Coherent c V t := by
  cases hs with
  | sends h hk => exact ⟨hb.final, hb.shut⟩
  | opens h rest ho hf =>
    refine ⟨fun g => ?_, fun g hg => ?_⟩
    · rw [caught_append]
      by_cases hgh : g = h
      · subst hgh
        have h0 : s.enc g = false := by
          cases he : s.enc g with
          | false => rfl
          | true => rw [hb.shut g he] at ho; cases ho
        by_cases ha : Accepted c V (frame 0x3E (0x01 :: 0 :: le16 g ++ rest))
        · rw [believes_off ha .leConnection]
          exact h0.symm
        · rw [rejected_note ha]
          exact hb.final g
      · obtain ⟨h1, h2⟩ := other_handle (p := frame 0x3E (0x01 :: 0 :: le16 h ++ rest)) (.inr .leConnection) hgh
        rw [believes_same h1 h2]
        exact hb.final g
    · simp only [put]
      split
      · rfl
      · exact hb.shut g hg
  | encrypts h e ho he =>
    refine ⟨fun g => ?_, fun g hg => ?_⟩
    · rw [caught_append]
      by_cases hgh : g = h
      · subst hgh
        rw [believes_on (change_accepted g (by rcases he with rfl | rfl <;> decide)) (.change he)]
        simp [put]
      · obtain ⟨h1, h2⟩ := other_handle (.inl (.change (h := h) he)) hgh
        rw [believes_same h1 h2]
        simp only [put, if_neg hgh]
        exact hb.final g
    · simp only [put] at hg ⊢
      split at hg
      · rename_i hgh; rw [hgh]; exact ho
      · exact hb.shut g hg
  | unencrypts h ho hn =>
    refine ⟨fun g => ?_, fun g hg => ?_⟩
    · rw [caught_append]
      by_cases hgh : g = h
      · subst hgh
        rw [believes_off (change_accepted g (by decide)) .change]
        simp [put]
      · obtain ⟨h1, h2⟩ := other_handle (.inr (.change (h := h))) hgh
        rw [believes_same h1 h2]
        simp only [put, if_neg hgh]
        exact hb.final g
    · simp only [put] at hg ⊢
      split at hg
      · cases hg
      · exact hb.shut g hg
  | ends h reason ho hr =>
    refine ⟨fun g => ?_, fun g hg => ?_⟩
    · rw [caught_append]
      by_cases hgh : g = h
      · subst hgh
        rw [believes_off (end_accepted (hr hkn)) (end_unencrypts g reason)]
        simp [put]
      · obtain ⟨h1, h2⟩ := other_handle (.inr (end_unencrypts h reason)) hgh
        rw [believes_same h1 h2]
        simp only [put, if_neg hgh]
        exact hb.final g
    · simp only [put] at hg ⊢
      by_cases hgh : g = h
      · simp [hgh] at hg
      · simp only [if_neg hgh] at hg ⊢
        exact hb.shut g hg
  | tells p hp =>
    refine ⟨fun g => ?_, hb.shut⟩
    rw [caught_append, believes_same (hp g).1 (hp g).2]
    exact hb.final g
  | reads p rest hw =>
    refine ⟨fun g => ?_, hb.shut⟩
    have := hb.final g
    simp only [Caught, hw] at this ⊢
    exact this

theorem coherent_reached {s : Secrets} (hkn : known) (h : Secrets.Reached c V fresh steady known s) : Coherent c V s := by
  induction h with
  | start => exact ⟨fun _ => rfl, fun _ h => by cases h⟩
  | step _ hs ih => exact coherent_step hkn ih hs

/-- **C116.** When the packets on their way have been read, the application believes a connection to be encrypted exactly if it
is; so secrets can be sent on every encrypted connection. -/
theorem C116_catches_up {s : Secrets} (h : Secrets.Reached c V fresh steady True s) (g : UInt16) :
    (s.way.foldl (fun L p => L.noteOutcome (Event.new c V p)) s.ledger).encrypted g.toNat = s.enc g :=
  (coherent_reached trivial h).final g

/-! ## What the account is before that -/

structure Guarded (c : Cfg) (V : Vendor) (s : Secrets) : Prop where
  shut : ∀ h, s.enc h = true → s.isOpen h = true
  belief : ∀ h, s.ledger.encrypted h.toNat = true → s.enc h = true ∨ ∃ r, endPacket h r ∈ s.way
  promise : ∀ h pre p post, s.way = pre ++ p :: post → Encrypts h p → s.enc h = true ∨ ∃ r, endPacket h r ∈ post
  ended : ∀ h r, endPacket h r ∈ s.way → s.isOpen h = false
  reasons : ∀ h r, endPacket h r ∈ s.way → ∃ st, StatusByte c V r st
  safe : ∀ x ∈ s.air, x.2 = true

theorem way_last {way pre post : List (List UInt8)} {m n : List UInt8} (h : way ++ [m] = pre ++ n :: post) :
    (post = [] ∧ m = n) ∨ ∃ post', post = post' ++ [m] ∧ way = pre ++ n :: post' := by
  rcases List.eq_nil_or_concat post with rfl | ⟨post', x, rfl⟩
  · left
    have := List.append_inj' h rfl
    exact ⟨rfl, by simpa using this.2⟩
  · right
    rw [List.concat_eq_append] at h ⊢
    have h' : way ++ [m] = (pre ++ n :: post') ++ [x] := by simpa using h
    have := List.append_inj' h' rfl
    refine ⟨post', ?_, this.1⟩
    rw [this.2]

/-- Everything but `enc`, `isOpen` and the account is kept by one more packet on its way. -/
theorem promise_append {s : Secrets} {q : List UInt8} {enc : UInt16 → Bool} {h : UInt16}
    (hp : ∀ pre p post, s.way = pre ++ p :: post → Encrypts h p → s.enc h = true ∨ ∃ r, endPacket h r ∈ post)
    (hk : s.enc h = true → enc h = true ∨ ∃ r, endPacket h r = q) (hq : Encrypts h q → enc h = true) :
    ∀ pre p post, s.way ++ [q] = pre ++ p :: post → Encrypts h p → enc h = true ∨ ∃ r, endPacket h r ∈ post := by
  intro pre p post hw he
  rcases way_last hw with ⟨rfl, rfl⟩ | ⟨post', rfl, hw'⟩
  · exact .inl (hq he)
  · rcases hp pre p post' hw' he with h1 | ⟨r, h1⟩
    · rcases hk h1 with h2 | ⟨r, h2⟩
      · exact .inl h2
      · exact .inr ⟨r, by simp [h2]⟩
    · exact .inr ⟨r, by simp [h1]⟩

theorem belief_append {s : Secrets} {q : List UInt8} {enc : UInt16 → Bool} {h : UInt16}
    (hp : s.enc h = true ∨ ∃ r, endPacket h r ∈ s.way) (hk : s.enc h = true → enc h = true ∨ ∃ r, endPacket h r = q) :
    enc h = true ∨ ∃ r, endPacket h r ∈ s.way ++ [q] := by
  rcases hp with h1 | ⟨r, h1⟩
  · rcases hk h1 with h2 | ⟨r, h2⟩
    · exact .inl h2
    · exact .inr ⟨r, by simp [h2]⟩
  · exact .inr ⟨r, by simp [h1]⟩

theorem endPacket_inj {g h : UInt16} {q r : UInt8} (he : endPacket g q = endPacket h r) : g = h ∧ q = r := by
  obtain ⟨-, he⟩ := frame_inj he
  simp only [List.cons_append, List.cons.injEq, true_and] at he
  obtain ⟨h1, h2⟩ := List.append_inj he (by simp)
  exact ⟨le16_inj h1, by simpa using h2⟩

theorem guarded_step {s t : Secrets} (hf : fresh) (hst : steady) (hkn : known) (hb : Guarded c V s)
    (hs : Secrets.Step c V fresh steady known s t) : Guarded c V t := by
  cases hs with
  | sends h hk =>
    refine ⟨hb.shut, hb.belief, hb.promise, hb.ended, hb.reasons, fun x hx => ?_⟩
    simp only at hx
    split at hx
    · rename_i ho
      rcases List.mem_cons.mp hx with rfl | hx
      · rcases hb.belief h hk with h1 | ⟨r, h1⟩
        · exact h1
        · rw [hb.ended h r h1] at ho
          cases ho
      · exact hb.safe x hx
    · exact hb.safe x hx
  | opens h rest ho hfr =>
    have hn := hfr hf
    have hne : ∀ g r, endPacket g r ≠ frame 0x3E (0x01 :: 0 :: le16 h ++ rest) := fun g r e => by
      have := (frame_inj e).1
      revert this
      decide
    refine ⟨fun g hg => ?_, fun g hg => belief_append (hb.belief g hg) .inl,
      fun g => promise_append (hb.promise g) .inl fun he => ?_, fun g r hr => ?_, fun g r hr => ?_, hb.safe⟩
    · simp only [put]
      split
      · rfl
      · exact hb.shut g hg
    · generalize hp : frame 0x3E (0x01 :: 0 :: le16 h ++ rest) = p at he
      cases he with
      | change hx => exact absurd (frame_inj hp).1 (by decide)
      | connection ha => exact absurd (frame_inj hp).1 (by decide)
    · simp only [List.mem_append, List.mem_singleton] at hr
      rcases hr with hr | hr
      · have hgh : g ≠ h := by
          rintro rfl
          exact hn r hr
        simp only [put, if_neg hgh]
        exact hb.ended g r hr
      · exact absurd hr (hne g r)
    · simp only [List.mem_append, List.mem_singleton] at hr
      rcases hr with hr | hr
      · exact hb.reasons g r hr
      · exact absurd hr (hne g r)
  | encrypts h e ho he =>
    have hne : ∀ g r, endPacket g r ≠ frame 0x08 (0 :: le16 h ++ [e]) := fun g r e => by
      have := (frame_inj e).1
      revert this
      decide
    have hup : ∀ g, s.enc g = true → put s.enc h true g = true := fun g hg => by
      simp only [put]
      split
      · rfl
      · exact hg
    refine ⟨fun g hg => ?_, fun g hg => belief_append (hb.belief g hg) fun h1 => .inl (hup g h1),
      fun g => promise_append (hb.promise g) (fun h1 => .inl (hup g h1)) fun hg => ?_, fun g r hr => ?_, fun g r hr => ?_,
      hb.safe⟩
    · simp only [put] at hg
      split at hg
      · rename_i hgh; rw [hgh]; exact ho
      · exact hb.shut g hg
    · by_cases hgh : g = h
      · simp [put, hgh]
      · exact absurd hg (other_handle (.inl (.change (h := h) he)) hgh).1
    · simp only [List.mem_append, List.mem_singleton] at hr
      rcases hr with hr | hr
      · exact hb.ended g r hr
      · exact absurd hr (hne g r)
    · simp only [List.mem_append, List.mem_singleton] at hr
      rcases hr with hr | hr
      · exact hb.reasons g r hr
      · exact absurd hr (hne g r)
  | unencrypts h ho hn => exact absurd hst hn
  | ends h reason ho hr =>
    have hdn : ∀ g, s.enc g = true → put s.enc h false g = true ∨ ∃ r, endPacket g r = endPacket h reason := fun g hg => by
      by_cases hgh : g = h
      · exact .inr ⟨reason, by rw [hgh]⟩
      · exact .inl (by simp only [put, if_neg hgh]; exact hg)
    refine ⟨fun g hg => ?_, fun g hg => belief_append (hb.belief g hg) (hdn g),
      fun g => promise_append (hb.promise g) (hdn g) fun he => ?_, fun g r hr' => ?_, fun g r hr' => ?_, hb.safe⟩
    · simp only [put] at hg ⊢
      by_cases hgh : g = h
      · simp [hgh] at hg
      · simp only [if_neg hgh] at hg ⊢
        exact hb.shut g hg
    · generalize hp : endPacket h reason = p at he
      cases he with
      | change hx => exact absurd (frame_inj hp).1 (by decide)
      | connection ha => exact absurd (frame_inj hp).1 (by decide)
    · simp only [List.mem_append, List.mem_singleton] at hr'
      simp only [put]
      split
      · rfl
      · rename_i hgh
        rcases hr' with hr' | hr'
        · exact hb.ended g r hr'
        · exact absurd (endPacket_inj hr').1 hgh
    · simp only [List.mem_append, List.mem_singleton] at hr'
      rcases hr' with hr' | hr'
      · exact hb.reasons g r hr'
      · rw [(endPacket_inj hr').2]
        exact hr hkn
  | tells p hp =>
    have hne : ∀ g r, endPacket g r ≠ p := fun g r e => (hp g).2 (e ▸ end_unencrypts g r)
    refine ⟨hb.shut, fun g hg => belief_append (hb.belief g hg) .inl,
      fun g => promise_append (hb.promise g) .inl fun he => absurd he (hp g).1, fun g r hr => ?_, fun g r hr => ?_, hb.safe⟩
    · simp only [List.mem_append, List.mem_singleton] at hr
      rcases hr with hr | hr
      · exact hb.ended g r hr
      · exact absurd hr (hne g r)
    · simp only [List.mem_append, List.mem_singleton] at hr
      rcases hr with hr | hr
      · exact hb.reasons g r hr
      · exact absurd hr (hne g r)
  | reads p rest hw =>
    have hmem : ∀ x, x ∈ rest → x ∈ s.way := fun x hx => by rw [hw]; exact List.mem_cons_of_mem _ hx
    refine ⟨hb.shut, fun g hg => ?_, fun g pre q post hq he => hb.promise g (p :: pre) q post (hw.trans (congrArg (p :: ·) hq)) he,
      fun g r hr => hb.ended g r (hmem _ hr), fun g r hr => hb.reasons g r (hmem _ hr), hb.safe⟩
    simp only at hg ⊢
    by_cases he : Encrypts g p
    · exact hb.promise g [] p rest (by rw [hw]; rfl) he
    · by_cases hp : ∃ r, endPacket g r = p
      · obtain ⟨r, rfl⟩ := hp
        rw [believes_off (end_accepted (hb.reasons g r (by rw [hw]; simp))) (end_unencrypts g r)] at hg
        cases hg
      · have hold : s.ledger.encrypted g.toNat = true := by
          by_cases hu : Unencrypts g p
          · by_cases ha : Accepted c V p
            · rw [believes_off ha hu] at hg
              cases hg
            · rwa [rejected_note ha] at hg
          · rwa [believes_same he hu] at hg
        rcases hb.belief g hold with h1 | ⟨r, h1⟩
        · exact .inl h1
        · rw [hw] at h1
          rcases List.mem_cons.mp h1 with h1 | h1
          · exact absurd ⟨r, h1⟩ hp
          · exact .inr ⟨r, h1⟩

theorem guarded_reached {s : Secrets} (hf : fresh) (hst : steady) (hkn : known) (h : Secrets.Reached c V fresh steady known s) :
    Guarded c V s := by
  induction h with
  | start =>
    exact ⟨fun _ h => (by cases h), fun _ h => (by cases h), fun _ pre _ _ hp => by simp at hp, fun _ _ h => by simp at h,
      fun _ _ h => by simp at h, fun _ h => by simp at h⟩
  | step _ hs ih => exact guarded_step hf hst hkn ih hs

/-- **C116.** No secret is ever sent over a connection that is not encrypted, whatever happens, in whatever order, and however
late the application reads. -/
theorem C116_no_leak {s : Secrets} (h : Secrets.Reached c V True True True s) : ∀ x ∈ s.air, x.2 = true :=
  (guarded_reached trivial trivial trivial h).safe

/-! ## The assumptions -/

/-- A secret has been sent on an encrypted connection. -/
theorem secret_sent (fresh steady known : Prop) : ∃ L : Ledger, L.encrypted (1 : UInt16).toNat = true ∧
    Secrets.Reached ⟨false, false⟩ demoVendor fresh steady known
      ⟨put (fun _ => false) 1 true, put (fun _ => false) 1 true, [], L, [(1, true)]⟩ := by
  have r1 := Secrets.Reached.step (c := ⟨false, false⟩) (V := demoVendor) (fresh := fresh) (steady := steady) (known := known)
    .start (.opens 1 [] rfl (by simp))
  have r2 := r1.step (.encrypts 1 1 rfl (.inl rfl))
  have r3 := r2.step (.reads _ _ rfl)
  have r4 := r3.step (.reads _ _ rfl)
  have hL := believes_on (c := ⟨false, false⟩) (V := demoVendor) (change_accepted 1 (e := 1) (by decide))
    (.change (.inl rfl)) (({} : Ledger).noteOutcome
      (Event.new ⟨false, false⟩ demoVendor (frame 0x3E (0x01 :: 0 :: le16 1 ++ []))))
  exact ⟨_, hL, r4.step (.sends 1 hL)⟩

example : ∃ s, Secrets.Reached ⟨false, false⟩ demoVendor True True True s ∧ (1, true) ∈ s.air := by
  obtain ⟨L, -, h⟩ := secret_sent True True True
  exact ⟨_, h, List.mem_cons_self⟩

/-- **C116.** It is needed that handles are not used again too early: otherwise a secret can be sent over a new connection that is
not encrypted. -/
theorem C116_handles_reused : ∃ s, Secrets.Reached ⟨false, false⟩ demoVendor False True True s ∧ (1, false) ∈ s.air := by
  obtain ⟨L, hL, h⟩ := secret_sent False True True
  have r1 := h.step (.ends 1 0x13 rfl fun _ => ⟨.remoteTerminationByUser, rfl⟩)
  have r2 := r1.step (.opens 1 [] rfl False.elim)
  exact ⟨_, r2.step (.sends 1 hL), List.mem_cons_self⟩

/-- **C116.** And that connections stay encrypted: otherwise a secret can be sent before it has been read that encryption has
been turned off. -/
theorem C116_turned_off : ∃ s, Secrets.Reached ⟨false, false⟩ demoVendor True False True s ∧ (1, false) ∈ s.air := by
  obtain ⟨L, hL, h⟩ := secret_sent True False True
  have r1 := h.step (.unencrypts 1 rfl (fun h => h))
  exact ⟨_, r1.step (.sends 1 hL), List.mem_cons_self⟩

/-- **C116.** And that the crate knows the reasons: otherwise the end of a connection is an event that it rejects, the application
goes on to believe that the connection is encrypted, and sends a secret over a new connection with the same handle. -/
theorem C116_unknown_reason : ∃ s, Secrets.Reached ⟨false, false⟩ demoVendor True True False s ∧ (1, false) ∈ s.air := by
  obtain ⟨L, hL, h⟩ := secret_sent True True False
  have hn : ¬ Accepted ⟨false, false⟩ demoVendor (endPacket 1 0x50) := by
    rintro ⟨e, he⟩
    cases he
  have r1 := h.step (.ends 1 0x50 rfl False.elim)
  have r2 := r1.step (.reads _ _ rfl)
  have r3 := r2.step (.opens 1 [] rfl (by simp))
  exact ⟨_, r3.step (.sends 1 ((rejected_note hn L).trans hL)), List.mem_cons_self⟩

end Bt
