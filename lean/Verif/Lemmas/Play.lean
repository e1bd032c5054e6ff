import Verif.Spec.Interchangeable

/-! # Applications over two controllers, round by round -/

namespace Bt

open Spec

/-- If each call on related states has related results and leads to related states, so have all rounds. -/
theorem play_related {σ σ' VS E E' ε ε' α α' : Type} {R : σ → σ' → Prop} {read : Ctl σ ε α} {read' : Ctl σ' ε' α'}
    {exec : Command VS → Ctl σ (Nb (HostError E VS)) Unit} {exec' : Command VS → Ctl σ' (Nb (HostError E' VS)) Unit}
    {ρ : Act VS E (Res ε α) → Act VS E' (Res ε' α')}
    {app : Nat → List (Act VS E' (Res ε' α')) → Move VS} {outside : Nat → σ → σ} {outside' : Nat → σ' → σ'}
    (hr : ∀ s s', R s s' → ρ (.read (read s).1) = .read (read' s').1 ∧ R (read s).2 (read' s').2)
    (he : ∀ n past cmd, app n past = .command cmd → ∀ s s', R s s' →
      ρ (.command cmd (exec cmd s).1) = .command cmd (exec' cmd s').1 ∧ R (exec cmd s).2 (exec' cmd s').2)
    (ho : ∀ n s s', R s s' → R (outside n s) (outside' n s')) {s : σ} {s' : σ'} (h : R s s') (n : Nat) :
    (play read' exec' app outside' n s').1 =
        (play read exec (fun n past => app n (past.map ρ)) outside n s).1.map ρ ∧
      R (play read exec (fun n past => app n (past.map ρ)) outside n s).2
        (play read' exec' app outside' n s').2 := by
  induction n with
  | zero => exact ⟨rfl, h⟩
  | succ n ih =>
    simp only [play]
    rcases e : play read exec (fun n past => app n (past.map ρ)) outside n s with ⟨past, s₁⟩
    rcases e' : play read' exec' app outside' n s' with ⟨past', s₁'⟩
    rw [e, e'] at ih
    obtain ⟨rfl, h1⟩ := ih
    have h2 := ho n s₁ s₁' h1
    simp only
    cases ha : app n (past.map ρ) with
    | read =>
      obtain ⟨hr1, hr2⟩ := hr _ _ h2
      refine ⟨?_, hr2⟩
      simp only [List.map_append, List.map_cons, List.map_nil, hr1]
    | command cmd =>
      obtain ⟨hr1, hr2⟩ := he n _ cmd ha _ _ h2
      refine ⟨?_, hr2⟩
      simp only [List.map_append, List.map_cons, List.map_nil, hr1]
    | rest => exact ⟨rfl, h2⟩

end Bt
