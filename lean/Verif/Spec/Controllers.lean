import Verif.Spec.Streams

/-! # Two controllers, to show that the assumptions about controllers can be met -/

namespace Spec

open Bt

/-- A receive queue: all bytes, and how many of them have been handed out. -/
abbrev Fifo := List UInt8 × Nat

/-- A controller that hands out the bytes of a queue. -/
def fifo : Controller Fifo Unit where
  write _ _ := fun s => (.ok (), s)
  peek n := fun s =>
    match (s.1.drop s.2)[n]? with
    | some b => (.ok b, s)
    | none => (.err .wouldBlock, s)
  readInto n := fun s =>
    if h : n ≤ (s.1.drop s.2).length then
      (.ok ⟨(s.1.drop s.2).take n, by rw [List.length_take]; omega⟩, (s.1, s.2 + n))
    else (.err .wouldBlock, s)

/-- A slow controller: its queue, the bytes still to come and the number of calls so far. -/
structure Slow where
  queue : Fifo
  future : List UInt8
  calls : Nat

/-- The next byte arrives. -/
def Slow.tick (s : Slow) : Slow :=
  ⟨(s.queue.1 ++ s.future.take 1, s.queue.2), s.future.drop 1, s.calls + 1⟩

/-- A call of the slow controller: one more byte arrives, every fourth call is a communication error. -/
def slowCall {α : Type} (call : Ctl Fifo (Nb Unit) α) : Ctl Slow (Nb Unit) α := fun s =>
  if s.calls % 4 = 3 then (.err (.other ()), s.tick)
  else ((call s.tick.queue).1, { s.tick with queue := (call s.tick.queue).2 })

/-- A controller that receives one byte at each call and fails at every fourth. -/
def slow : Controller Slow Unit where
  write h p := slowCall (fifo.write h p)
  peek n := slowCall (fifo.peek n)
  readInto n := slowCall (fifo.readInto n)

theorem fifo_delivers : Delivers fifo Prod.fst Prod.snd where
  peek n s r s' h := by
    simp only [fifo] at h
    split at h
    · rename_i b hb
      obtain ⟨rfl, rfl⟩ := Prod.mk.inj h
      refine ⟨by simp, List.prefix_rfl, rfl, fun b' h => ?_⟩
      cases h
      rwa [List.getElem?_drop] at hb
    · obtain ⟨rfl, rfl⟩ := Prod.mk.inj h
      exact ⟨by simp, List.prefix_rfl, rfl, fun b' h => (by cases h)⟩
  readInto n s r s' h := by
    simp only [fifo] at h
    split at h
    · obtain ⟨rfl, rfl⟩ := Prod.mk.inj h
      refine ⟨by simp, List.prefix_rfl, fun e h => (by cases h), fun got h => ?_⟩
      cases h
      exact ⟨rfl, rfl⟩
    · obtain ⟨rfl, rfl⟩ := Prod.mk.inj h
      exact ⟨by simp, List.prefix_rfl, fun _ _ => rfl, fun got h => (by cases h)⟩

theorem fifo_prompt : Prompt fifo Prod.fst Prod.snd where
  peek n s h := by
    obtain ⟨b, hb⟩ : ∃ b, (s.1.drop s.2)[n]? = some b := ⟨_, List.getElem?_eq_getElem h⟩
    exact ⟨b, by simp only [fifo, hb]⟩
  readInto n s h := ⟨⟨(s.1.drop s.2).take n, by
    rw [List.length_take]; exact Nat.min_eq_left h⟩, by
      have h : n ≤ (s.1.drop s.2).length := h
      simp only [fifo, dif_pos h]⟩

theorem fifo_quiet : Quiet fifo Prod.fst Prod.snd where
  peek n s := by
    constructor
    · simp only [fifo]
      split <;> rfl
    · intro h
      have h : (s.1.drop s.2)[n]? = none := List.getElem?_eq_none h
      simp only [fifo, h]
  readInto n s := by
    constructor
    · simp only [fifo]
      split <;> rfl
    · intro h
      have h : ¬ n ≤ (s.1.drop s.2).length := Nat.not_le.mpr h
      simp only [fifo, dif_neg h]

theorem slow_delivers : Delivers slow (·.queue.1) (·.queue.2) where
  peek n s r s' h := by
    have ht : s.queue.1 <+: s.tick.queue.1 := List.prefix_append _ _
    simp only [slow, slowCall] at h
    split at h
    · obtain ⟨rfl, rfl⟩ := Prod.mk.inj h
      exact ⟨by simp, ht, rfl, fun b h => (by cases h)⟩
    · obtain ⟨rfl, rfl⟩ := Prod.mk.inj h
      obtain ⟨h1, h2, h3, h4⟩ := fifo_delivers.peek n s.tick.queue _ _ rfl
      exact ⟨h1, ht.trans h2, h3, h4⟩
  readInto n s r s' h := by
    have ht : s.queue.1 <+: s.tick.queue.1 := List.prefix_append _ _
    simp only [slow, slowCall] at h
    split at h
    · obtain ⟨rfl, rfl⟩ := Prod.mk.inj h
      exact ⟨by simp, ht, fun _ _ => rfl, fun b h => (by cases h)⟩
    · obtain ⟨rfl, rfl⟩ := Prod.mk.inj h
      obtain ⟨h1, h2, h3, h4⟩ := fifo_delivers.readInto n s.tick.queue _ _ rfl
      exact ⟨h1, ht.trans h2, h3, h4⟩

end Spec
