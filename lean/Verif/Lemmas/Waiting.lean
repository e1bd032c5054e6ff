import Verif.Spec.Waiting
import Verif.Lemmas.Dialogue

/-! # Lemmas: hosts that wait for answers -/

namespace Bt

open Spec

/-! ## Lists -/

theorem count_at_most_one {α : Type} [DecidableEq α] {xs : List α} {o : α}
    (h : ∀ x, xs.count x ≤ [o].count x) : xs <+: [o] := by
  match xs with
  | [] => exact List.nil_prefix
  | [x] =>
    have hx := h x
    by_cases e : x = o
    · rw [e]; exact List.prefix_rfl
    · rw [List.count_cons_self, List.count_cons_of_ne (Ne.symm e)] at hx
      simp at hx
  | x :: y :: zs =>
    have hx : ∀ z ∈ x :: y :: zs, z = o := by
      intro z hz
      by_cases e : z = o
      · exact e
      · have h1 := h z
        have h2 := List.count_pos_iff.mpr hz
        rw [List.count_cons_of_ne (Ne.symm e)] at h1
        simp at h1
        omega
    have ex := hx x (.head _)
    have ey := hx y (.tail _ (.head _))
    subst ex
    subst ey
    have h1 := h y
    rw [List.count_cons_self, List.count_cons_self, List.count_cons_self] at h1
    simp at h1

theorem count_none {α : Type} [DecidableEq α] {xs : List α} (h : ∀ x, xs.count x ≤ ([] : List α).count x) :
    xs = [] := by
  cases xs with
  | nil => rfl
  | cons x xs =>
    have := h x
    rw [List.count_cons_self] at this
    simp at this

theorem filterMap_length_le {α β γ : Type} (f : α → Option β) (g : α → Option γ) :
    ∀ xs : List α, (∀ x ∈ xs, f x ≠ none → g x ≠ none) → (xs.filterMap f).length ≤ (xs.filterMap g).length
  | [], _ => by simp
  | x :: xs, h => by
    have ih := filterMap_length_le f g xs fun y hy => h y (.tail _ hy)
    have hx := h x (.head _)
    rw [List.filterMap_cons, List.filterMap_cons]
    cases hf : f x with
    | none =>
      cases hg : g x with
      | none => exact ih
      | some b => exact Nat.le_succ_of_le ih
    | some a =>
      cases hg : g x with
      | none => exact absurd hg (hx (by simp [hf]))
      | some b => exact Nat.succ_le_succ ih

theorem answersIn_mono {ps qs : List (List UInt8)} (h : ps <+: qs) : answersIn ps <+: answersIn qs := by
  obtain ⟨t, rfl⟩ := h
  rw [answersIn, answersIn, List.filterMap_append]
  exact List.prefix_append _ _

/-! ## What is told by a host that waits -/

section
variable {VS E ρ δ : Type} {V : Vendor} {outcome : ρ → Option (Res δ V.Ev)} {acts : Nat → Act VS E ρ}

/-- The answers that a host has been told. -/
def toldBy (outcome : ρ → Option (Res δ V.Ev)) (as : List (Act VS E ρ)) : List V.Ev :=
  answersTold ((Act.reads as).filterMap outcome)

theorem toldBy_append (as bs : List (Act VS E ρ)) :
    toldBy outcome (as ++ bs) = toldBy outcome as ++ toldBy outcome bs := by
  simp only [toldBy, answersTold, Act.reads, List.filterMap_append]

theorem succeeded_append (as bs : List (Act VS E ρ)) :
    Act.succeeded (as ++ bs) = Act.succeeded as ++ Act.succeeded bs := by
  simp only [Act.succeeded, List.filterMap_append]

theorem firstActs_split {A : Type} (acts : Nat → A) {m n : Nat} (h : m < n) :
    ∃ later, firstActs acts n = firstActs acts m ++ acts m :: later := by
  induction h with
  | refl => exact ⟨[], firstActs_succ acts m⟩
  | @step n _ ih =>
    obtain ⟨later, hl⟩ := ih
    exact ⟨later ++ [acts n], by rw [firstActs_succ, hl]; simp⟩

/-- The last command that returned Ok. -/
theorem last_command (acts : Nat → Act VS E ρ) (n : Nat) : Act.succeeded (firstActs acts n) = [] ∨
    ∃ m cmd, m < n ∧ acts m = .command cmd (.ok ()) ∧
      Act.succeeded (firstActs acts n) = Act.succeeded (firstActs acts m) ++ [cmd] := by
  induction n with
  | zero => exact .inl rfl
  | succ n ih =>
    rw [firstActs_succ, succeeded_append]
    have keep : Act.succeeded [acts n] = [] → Act.succeeded (firstActs acts n) ++ Act.succeeded [acts n] = [] ∨
        ∃ m cmd, m < n + 1 ∧ acts m = .command cmd (.ok ()) ∧
          Act.succeeded (firstActs acts n) ++ Act.succeeded [acts n] =
            Act.succeeded (firstActs acts m) ++ [cmd] := by
      intro h
      rw [h, List.append_nil]
      rcases ih with h | ⟨m, cmd, hm, ha, hs⟩
      · exact .inl h
      · exact .inr ⟨m, cmd, Nat.lt_succ_of_lt hm, ha, hs⟩
    cases ha : acts n with
    | read r =>
      rw [ha] at keep
      exact keep rfl
    | command cmd r =>
      rw [ha] at keep
      cases r with
      | ok u => exact .inr ⟨n, cmd, Nat.lt_succ_self _, ha, rfl⟩
      | err e => exact keep rfl
      | panic => exact keep rfl

/-- An answer to a command of the API is an answer. -/
theorem tells_isAnswer (hz : ∀ cmd : Command VS, cmdOpcode cmd ≠ 0) {cmd : Command VS} {e : V.Ev} (h : TellsAnswer cmd e) :
    IsAnswer e = true := by
  rcases h with ⟨n, r, rfl, hr⟩ | ⟨s, n, rfl⟩
  · cases r <;> first | rfl | cases hr
  · simpa [IsAnswer] using hz cmd

theorem told_of_mem (hz : ∀ cmd : Command VS, cmdOpcode cmd ≠ 0) {as : List (Act VS E ρ)} {r : ρ} {e : V.Ev} {cmd : Command VS} (hm : .read r ∈ as)
    (ho : outcome r = some (.ok e)) (ht : TellsAnswer cmd e) : 1 ≤ (toldBy outcome as).length := by
  refine List.length_pos_iff.mpr (List.ne_nil_of_mem (a := e) ?_)
  refine List.mem_filterMap.mpr ⟨.ok e, List.mem_filterMap.mpr ⟨r, List.mem_filterMap.mpr ⟨_, hm, rfl⟩, ho⟩, ?_⟩
  simp [tells_isAnswer hz ht]

/-- Once all commands are answered, as many answers have been told. -/
theorem settled_told (hz : ∀ cmd : Command VS, cmdOpcode cmd ≠ 0) (hs : OneAtATime outcome acts) (n : Nat) (h : Settled outcome (firstActs acts n)) :
    (Act.succeeded (firstActs acts n)).length ≤ (toldBy outcome (firstActs acts n)).length := by
  induction n using Nat.strongRecOn with
  | _ n ih =>
    rcases last_command acts n with h0 | ⟨m, cmd, hm, ha, hl⟩
    · rw [h0]; exact Nat.zero_le _
    · obtain ⟨later, hn⟩ := firstActs_split acts hm
      have h1 := ih m hm (hs m cmd _ ha)
      rw [ha] at hn
      obtain ⟨r, e, hr, ho, ht⟩ := h _ _ _ hn
      have h2 := told_of_mem hz hr ho ht
      rw [hl, hn, toldBy_append, List.length_append, List.length_append]
      have : toldBy outcome (.command cmd (.ok ()) :: later) = toldBy outcome later := rfl
      rw [this, List.length_singleton]
      omega

/-- At no time are there more than one command without an answer told. -/
theorem told_but_one (hz : ∀ cmd : Command VS, cmdOpcode cmd ≠ 0) (hs : OneAtATime outcome acts) (n : Nat) :
    (Act.succeeded (firstActs acts n)).length ≤ (toldBy outcome (firstActs acts n)).length + 1 := by
  rcases last_command acts n with h0 | ⟨m, cmd, hm, ha, hl⟩
  · rw [h0]; exact Nat.zero_le _
  · obtain ⟨later, hn⟩ := firstActs_split acts hm
    have h1 := settled_told hz hs m (hs m cmd _ ha)
    rw [hl, hn, toldBy_append, List.length_append, List.length_append, List.length_singleton]
    omega

/-! ## What is answered -/

variable {w : List UInt8 → List UInt8} {arrived : Nat → List UInt8} {read : Nat → List (List UInt8)}

/-- The answers that have arrived are the answers to the first commands. -/
theorem answers_prefix (hz : ∀ cmd : Command VS, cmdOpcode cmd ≠ 0) (hs : OneAtATime outcome acts) (hw : PrefixFree w)
    (hmono : ∀ {i j}, i ≤ j → arrived i <+: arrived j)
    (hread : ∀ n, (∀ p ∈ read n, Framed p) ∧ wire w (read n) <+: arrived n)
    (htold : ∀ n, (toldBy outcome (firstActs acts n)).length ≤ (answersIn (read n)).length)
    (hcount : ∀ n packets, (∀ p ∈ packets, Framed p) → wire w packets <+: arrived n →
      ∀ o, (answersIn packets).count o ≤ ((Act.succeeded (firstActs acts n)).map cmdOpcode).count o)
    (n : Nat) (packets : List (List UInt8)) (hf : ∀ p ∈ packets, Framed p) (hp : wire w packets <+: arrived n) :
    answersIn packets <+: (Act.succeeded (firstActs acts n)).map cmdOpcode := by
  induction n using Nat.strongRecOn generalizing packets with
  | _ n ih =>
    have hc := hcount n packets hf hp
    rcases last_command acts n with h0 | ⟨m, cmd, hm, ha, hl⟩
    · rw [h0] at hc ⊢
      rw [count_none hc]
      exact List.nil_prefix
    · obtain ⟨hfm, hpm⟩ := hread m
      have h1 := ih m hm (read m) hfm hpm
      have h2 := settled_told hz hs m (hs m cmd _ ha)
      have h3 : answersIn (read m) = (Act.succeeded (firstActs acts m)).map cmdOpcode :=
        h1.eq_of_length_le (by rw [List.length_map]; exact Nat.le_trans h2 (htold m))
      rw [hl, List.map_append, ← h3] at hc ⊢
      obtain ⟨u, hu⟩ := hp
      obtain ⟨v, hv⟩ := hpm.trans (hmono (Nat.le_of_lt hm))
      rcases wire_comparable hw packets (read m) u v hf hfm (hu.trans hv.symm) with h | h
      · exact (answersIn_mono h).trans (List.prefix_append _ _)
      · obtain ⟨new, rfl⟩ := h
        have e : answersIn (read m ++ new) = answersIn (read m) ++ answersIn new := by
          rw [answersIn, answersIn, answersIn, List.filterMap_append]
        rw [e] at hc ⊢
        refine (List.prefix_append_right_inj _).mpr (count_at_most_one fun o => ?_)
        have := hc o
        rw [List.count_append, List.count_append] at this
        exact Nat.le_of_add_le_add_left this

end

end Bt
