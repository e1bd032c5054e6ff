import Verif.Spec.CreditsForever
import Verif.Props.Credits

/-! # C119: an application that counts credits can always go on -/

namespace Bt

open Spec

variable {c : Cfg} {V : Vendor} {N : Nat} {s : Nat → Traffic}

theorem endless_reached (h : Traffic.Endless c V N True s) (i : Nat) : Traffic.Reached c V N True (s i) := by
  induction i with
  | zero => exact h.start
  | succ i ih =>
    rcases h.step i with h1 | h1
    · exact ih.step h1
    · rwa [h1]

/-- A step without a credit. -/
theorem step_without {a b : Traffic} (h : Traffic.Step c V N True a b ∨ b = a) (hn : N ≤ total a.account.out) :
    (∀ g, b.buffer g ≤ a.buffer g) ∧
      (Traffic.ReadNow c V a b ∨ b.account = a.account ∧ a.way <+: b.way) := by
  rcases h with h | rfl
  rotate_left
  · exact ⟨fun _ => Nat.le_refl _, .inr ⟨rfl, List.prefix_rfl⟩⟩
  cases h with
  | send g hk ht => omega
  | opens g rest _ _ => exact ⟨fun _ => Nat.le_refl _, .inr ⟨rfl, List.prefix_append _ _⟩⟩
  | completes xs _ _ => exact ⟨fun _ => Nat.sub_le _ _, .inr ⟨rfl, List.prefix_append _ _⟩⟩
  | closes g r _ _ =>
    refine ⟨fun g' => ?_, .inr ⟨rfl, List.prefix_append _ _⟩⟩
    simp only [put]
    split
    · exact Nat.zero_le _
    · exact Nat.le_refl _
  | tells p _ => exact ⟨fun _ => Nat.le_refl _, .inr ⟨rfl, List.prefix_append _ _⟩⟩
  | reads m rest hw => exact ⟨fun _ => Nat.le_refl _, .inl ⟨m, rest, hw, rfl⟩⟩

/-- Without credits, the first notice is read before the account changes. -/
theorem first_read (h : Traffic.Endless c V N True s) (m : Notice) (rest : List Notice) (d : Nat) :
    ∀ i, (∀ j, i ≤ j → N ≤ total (s j).account.out) → m :: rest <+: (s i).way →
      Traffic.ReadNow c V (s (i + d)) (s (i + d + 1)) →
      ∃ j, i ≤ j ∧ rest <+: (s j).way ∧ (s j).account = (s i).account.note (Event.new c V m.bytes) := by
  have now (i : Nat) (hw : m :: rest <+: (s i).way) (hr : Traffic.ReadNow c V (s i) (s (i + 1))) :
      ∃ j, i ≤ j ∧ rest <+: (s j).way ∧ (s j).account = (s i).account.note (Event.new c V m.bytes) := by
    obtain ⟨m', rest', h1, h2⟩ := hr
    rw [h1, List.cons_prefix_cons] at hw
    obtain ⟨rfl, hw⟩ := hw
    exact ⟨i + 1, by omega, by rw [h2]; exact hw, by rw [h2]⟩
  induction d with
  | zero => exact fun i _ hw hr => now i hw hr
  | succ d ih =>
    intro i hn hw hr
    rcases (step_without (h.step i) (hn i (Nat.le_refl i))).2 with h1 | ⟨h1, h2⟩
    · exact now i hw h1
    · obtain ⟨j, hj, h3, h4⟩ := ih (i + 1) (fun j hj => hn j (by omega)) (hw.trans h2)
        (by rwa [show i + 1 + d = i + (d + 1) by omega])
      exact ⟨j, by omega, h3, h4.trans (by rw [h1])⟩

/-- Without credits, all that is on its way is read in the end. -/
theorem way_read (h : Traffic.Endless c V N True s) (hr : Traffic.KeepsReading c V s) (way : List Notice) :
    ∀ i, (∀ j, i ≤ j → N ≤ total (s j).account.out) → way <+: (s i).way →
      ∃ j, i ≤ j ∧ (s j).account = way.foldl (fun a m => a.note (Event.new c V m.bytes)) (s i).account := by
  induction way with
  | nil => exact fun i _ _ => ⟨i, Nat.le_refl i, rfl⟩
  | cons m rest ih =>
    intro i hn hw
    obtain ⟨j, hj, hrj⟩ := hr i (by intro h0; rw [h0] at hw; simp at hw)
    obtain ⟨d, rfl⟩ := Nat.exists_eq_add_of_le hj
    obtain ⟨k, hk, h1, h2⟩ := first_read h m rest d i hn hw hrj
    obtain ⟨l, hl, h3⟩ := ih k (fun j hj => hn j (by omega)) h1
    exact ⟨l, by omega, h3.trans (by rw [h2]; rfl)⟩

theorem sum_lt {α : Type} (l : List α) (f g : α → Nat) (h : ∀ x ∈ l, f x ≤ g x) {y : α} (hy : y ∈ l) (hl : f y < g y) :
    (l.map f).sum < (l.map g).sum := by
  induction l with
  | nil => simp at hy
  | cons a l ih =>
    have h1 := h a (by simp)
    have h2 : ∀ x ∈ l, f x ≤ g x := fun x hx => h x (by simp [hx])
    have h3 := sum_le l f g h2
    simp only [List.map_cons, List.sum_cons]
    rcases List.mem_cons.mp hy with rfl | hy
    · omega
    · have := ih h2 hy
      omega

theorem total_lt {f g : UInt16 → Nat} (h : ∀ x, f x ≤ g x) {y : UInt16} (hl : f y < g y) : total f < total g :=
  sum_lt _ _ _ (fun _ _ => h _) (y := y.toNat) (List.mem_range.mpr y.toNat_lt) (by simpa using hl)

theorem total_pos {f : UInt16 → Nat} (h : 0 < total f) : ∃ g, 0 < f g := by
  by_contra hc
  have h0 : ∀ g, f g ≤ 0 := fun g => Nat.le_of_not_lt fun hg => hc ⟨g, hg⟩
  have h1 := total_le (g := fun _ => 0) h0
  rw [total_zero] at h1
  omega

/-- **C119.** There is no deadlock: in every state that can be reached, the application has a credit, or there is a notice for
it to read, or the controller has a packet to get rid of. -/
theorem C119_no_deadlock {t : Traffic} (hN : 0 < N) (h : Traffic.Reached c V N True t) :
    total t.account.out < N ∨ t.way ≠ [] ∨ ∃ g, 0 < t.buffer g := by
  by_cases hw : t.way = []
  · by_cases hb : 0 < total t.account.out
    · refine .inr (.inr ?_)
      obtain ⟨g, hg⟩ := total_pos hb
      refine ⟨g, ?_⟩
      have := C114_no_credit_lost h g
      rw [hw] at this
      simp only [List.foldl_nil] at this
      omega
    · exact .inl (by omega)
  · exact .inr (.inl hw)

/-- **C119.** In an endless execution in which the application keeps reading and the controller keeps freeing buffers, the
application has a credit again and again, whatever else happens. -/
theorem C119_credit_again (hN : 0 < N) (h : Traffic.Endless c V N True s) (hr : Traffic.KeepsReading c V s)
    (hf : Traffic.KeepsFreeing s) (i : Nat) : ∃ j, i ≤ j ∧ total (s j).account.out < N := by
  by_contra hc
  have hn : ∀ j, i ≤ j → N ≤ total (s j).account.out := fun j hj =>
    Nat.le_of_not_lt fun hl => hc ⟨j, hj, hl⟩
  have mono : ∀ j, i ≤ j → ∀ g, (s (j + 1)).buffer g ≤ (s j).buffer g := fun j hj =>
    (step_without (h.step j) (hn j hj)).1
  have done : ∀ j, i ≤ j → N ≤ total (s j).buffer := by
    intro j hj
    obtain ⟨k, hk, h1⟩ := way_read h hr (s j).way j (fun l hl => hn l (by omega)) List.prefix_rfl
    have h2 := hn k (by omega)
    rw [h1] at h2
    exact Nat.le_trans h2 (total_le fun g => Nat.le_of_eq (C114_no_credit_lost (endless_reached h j) g))
  obtain ⟨g, hg⟩ := total_pos (Nat.lt_of_lt_of_le hN (done i (Nat.le_refl i)))
  obtain ⟨j, hj, hl⟩ := hf i g hg
  have h1 := total_lt (mono j hj) hl
  have h2 := C114_never_overrun (endless_reached h j)
  have h3 := done (j + 1) (by omega)
  omega

/-! ## A packet is sent, completed and accounted for, for ever -/

def idle : Traffic := ⟨fun _ => 0, put (fun _ => false) 1 true, [], ⟨put (fun _ => false) 1 true, fun _ => 0⟩⟩

def busy : Traffic :=
  ⟨put (fun _ => 0) 1 1, put (fun _ => false) 1 true, [], ⟨put (fun _ => false) 1 true, put (fun _ => 0) 1 1⟩⟩

def completedOne : Traffic :=
  ⟨fun _ => 0, put (fun _ => false) 1 true, [.completed [(1, 1)]], ⟨put (fun _ => false) 1 true, put (fun _ => 0) 1 1⟩⟩

def cycle (i : Nat) : Traffic := if i % 3 = 0 then idle else if i % 3 = 1 then busy else completedOne

theorem idle_reached : Traffic.Reached ⟨false, false⟩ demoVendor 1 True idle := by
  have r1 := Traffic.Reached.step (c := ⟨false, false⟩) (V := demoVendor) (N := 1) (fresh := True) .start
    (.opens 1 openedOne rfl (by simp))
  have r2 := r1.step (.reads _ _ rfl)
  rw [note_openedOne] at r2
  exact r2

theorem idle_busy : Traffic.Step ⟨false, false⟩ demoVendor 1 True idle busy := by
  have hz := total_zero
  have := Traffic.Step.send (c := ⟨false, false⟩) (V := demoVendor) (N := 1) (fresh := True) (s := idle) 1 rfl
    (by show total (fun _ => 0) < 1; omega)
  exact this

theorem amount_one (h : UInt16) : amount [(1, 1)] h = put (fun _ => 0) 1 1 h := by
  by_cases hh : h = 1
  · subst hh
    rfl
  · have : ¬ (1 = h) := fun e => hh e.symm
    simp [amount, put, hh, this]

theorem busy_completedOne : Traffic.Step ⟨false, false⟩ demoVendor 1 True busy completedOne := by
  have := Traffic.Step.completes (c := ⟨false, false⟩) (V := demoVendor) (N := 1) (fresh := True) (s := busy) [(1, 1)]
    (by decide) (fun h => Nat.le_of_eq (amount_one h))
  have e : (fun h => busy.buffer h - amount [(1, 1)] h) = fun _ => 0 := by
    funext h
    rw [amount_one]
    exact Nat.sub_self _
  rw [e] at this
  exact this

theorem completedOne_read : completedOne.account.note
    (Event.new ⟨false, false⟩ demoVendor (Notice.completed [(1, 1)]).bytes) = idle.account := by
  obtain ⟨h1, h2⟩ := note_completed (c := ⟨false, false⟩) (V := demoVendor) completedOne.account [(1, 1)] (by decide)
  generalize completedOne.account.note (Event.new ⟨false, false⟩ demoVendor (Notice.completed [(1, 1)]).bytes) = b at h1 h2
  obtain ⟨k, o⟩ := b
  simp only at h1 h2
  have : o = fun _ => 0 := by
    funext h
    rw [h2, amount_one]
    exact Nat.sub_self _
  rw [h1, this]
  rfl

theorem completedOne_readNow : Traffic.ReadNow ⟨false, false⟩ demoVendor completedOne idle := by
  refine ⟨.completed [(1, 1)], [], rfl, ?_⟩
  rw [completedOne_read]
  rfl

theorem completedOne_idle : Traffic.Step ⟨false, false⟩ demoVendor 1 True completedOne idle := by
  have := Traffic.Step.reads (c := ⟨false, false⟩) (V := demoVendor) (N := 1) (fresh := True) (s := completedOne)
    (.completed [(1, 1)]) [] rfl
  rw [completedOne_read] at this
  exact this

theorem cycle_zero (i : Nat) : cycle (3 * i) = idle := by simp [cycle]

theorem cycle_one (i : Nat) : cycle (3 * i + 1) = busy := by
  have h : (3 * i + 1) % 3 = 1 := by omega
  simp [cycle, h]

theorem cycle_two (i : Nat) : cycle (3 * i + 2) = completedOne := by
  have h : (3 * i + 2) % 3 = 2 := by omega
  simp [cycle, h]

theorem cycle_endless : Traffic.Endless ⟨false, false⟩ demoVendor 1 True cycle := by
  refine ⟨by rw [show cycle 0 = idle from rfl]; exact idle_reached, fun i => .inl ?_⟩
  obtain ⟨k, rfl | rfl | rfl⟩ : ∃ k, i = 3 * k ∨ i = 3 * k + 1 ∨ i = 3 * k + 2 := ⟨i / 3, by omega⟩
  · rw [cycle_zero, cycle_one]
    exact idle_busy
  · rw [cycle_one, show 3 * k + 1 + 1 = 3 * k + 2 by omega, cycle_two]
    exact busy_completedOne
  · rw [cycle_two, show 3 * k + 2 + 1 = 3 * (k + 1) by omega, cycle_zero]
    exact completedOne_idle

/-- The hypotheses of `C119_credit_again` can be met by an execution in which packets are sent for ever. -/
example (i : Nat) : ∃ j, i ≤ j ∧ total (cycle j).account.out < 1 :=
  C119_credit_again (by omega) cycle_endless
    (fun i _ => ⟨3 * i + 2, by omega, by
      rw [cycle_two, show 3 * i + 2 + 1 = 3 * (i + 1) by omega, cycle_zero]
      exact completedOne_readNow⟩)
    (fun i h hp => by
      refine ⟨3 * i + 1, by omega, ?_⟩
      rw [cycle_one, show 3 * i + 1 + 1 = 3 * i + 2 by omega, cycle_two]
      have hh : h = 1 := by
        obtain ⟨k, rfl | rfl | rfl⟩ : ∃ k, i = 3 * k ∨ i = 3 * k + 1 ∨ i = 3 * k + 2 := ⟨i / 3, by omega⟩
        · rw [cycle_zero] at hp
          exact absurd hp (Nat.lt_irrefl 0)
        · rw [cycle_one] at hp
          by_contra hne
          simp [busy, put, hne] at hp
        · rw [cycle_two] at hp
          exact absurd hp (Nat.lt_irrefl 0)
      subst hh
      exact Nat.zero_lt_one) i

example : total idle.account.out < 1 ∨ idle.way ≠ [] ∨ ∃ g, 0 < idle.buffer g :=
  C119_no_deadlock (by omega) idle_reached

/-- **C119**, what is not covered: if a connection ends for a reason that the crate does not know, the event is rejected and the
account stays as it is, so that the credits of the packets that the controller has thrown away never come back. -/
theorem C119_unknown_reason (a : Credits) (h : UInt16) (reason : UInt8) (hr : ∀ r, ¬ StatusByte c V reason r) :
    a.note (Event.new c V (Notice.closed h reason).bytes) = a := by
  cases he : Event.new c V (Notice.closed h reason).bytes with
  | err e => rfl
  | panic => rfl
  | ok e =>
    obtain ⟨code, ps, hp, hl, hs⟩ := (C09_sound_and_complete c V _ _).mp he
    exfalso
    simp only [Notice.bytes, frame, le16, List.cons_append, List.nil_append, List.cons.injEq] at hp
    obtain ⟨hc, -, hps⟩ := hp
    subst hc
    cases hs with
    | disconnectionComplete h1 h2 =>
      simp only [List.cons_append, List.cons.injEq] at hps
      have e := (List.append_inj' hps.2 rfl).2
      rw [← (List.cons.inj e).1] at h2
      exact hr _ h2

/-- 0x50 is such a reason. -/
example (a : Credits) : a.note (Event.new ⟨false, false⟩ demoVendor (Notice.closed 1 0x50).bytes) = a :=
  C119_unknown_reason a 1 0x50 fun r h => by
    obtain ⟨w, hw, -⟩ := h
    cases hw

/-- **C119**, so these credits are lost for good: from then on the controller completes no packet of the connection, having
thrown them away, and does not tell again, for a known reason, that it has ended; whatever else it tells, the account of the
connection stays as it is. -/
theorem C119_lost_for_good (h : UInt16) (ms : List Notice) (hms : ∀ m ∈ ms, Traffic.NoHelp c V h m) (a : Credits) :
    (ms.foldl (fun a m => a.note (Event.new c V m.bytes)) a).out h = a.out h := by
  induction ms generalizing a with
  | nil => rfl
  | cons m ms ih =>
    rw [List.foldl_cons, ih fun m hm => hms m (List.mem_cons_of_mem _ hm)]
    have h1 := hms m List.mem_cons_self
    cases m with
    | opened g rest =>
      rcases note_opened (c := c) (V := V) a g rest with e | e <;> rw [e]
    | completed xs => rw [(note_completed a xs h1.1).2 h, h1.2, Nat.sub_zero]
    | closed g r =>
      by_cases hr : ∃ st, StatusByte c V r st
      · rcases h1 with h1 | h1
        · rw [note_closed a g r hr]
          simp [put, Ne.symm h1]
        · exact absurd hr (fun ⟨st, hst⟩ => h1 st hst)
      · rw [C119_unknown_reason a g r fun st hst => hr ⟨st, hst⟩]
    | other p => exact congrArg (·.out h) (note_other (c := c) (V := V) a h1)

/-- One packet was sent on connection 1, which ended for reason 0x50; then another connection comes and goes. -/
example : ([Notice.closed 1 0x50, .opened 2 openedOne, .completed [(2, 5)], .closed 2 0x13].foldl
    (fun a m => a.note (Event.new ⟨false, false⟩ demoVendor m.bytes)) busy.account).out 1 = 1 :=
  C119_lost_for_good 1 _ (by
    intro m hm
    simp only [List.mem_cons, List.not_mem_nil, or_false] at hm
    rcases hm with rfl | rfl | rfl | rfl
    · exact .inr fun r h => by
        obtain ⟨w, hw, -⟩ := h
        cases hw
    · trivial
    · exact ⟨by decide, by decide⟩
    · exact .inl (by decide)) busy.account

end Bt
