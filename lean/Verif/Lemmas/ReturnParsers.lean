import Verif.Lemmas.EventParsers
import Verif.Lemmas.FlagTables

/-! # The remaining return-parameter parsers -/

namespace Bt

open Spec

variable (c : Cfg) (V : Vendor)

theorem leEncryptedData_eq (st : UInt8) (d : Arr 16) :
    toLeEncryptedData c V (st :: d.val) =
      (do let s ← tryStatus c V st
          .ok ⟨s, d⟩) := by
  unfold toLeEncryptedData
  rw [requireLen_ok (by simp [d.len])]
  simp only [sliceFrom, List.length_cons, Nat.le_add_left, if_true, Res.bind_ok, List.drop_succ_cons,
    List.drop_zero, toArr_of_eq d.len]
  rfl

theorem leEncryptedData_len (p : List UInt8) (hl : p.length ≠ 17) :
    toLeEncryptedData c V p = .err (.badLength p.length 17) := by
  unfold toLeEncryptedData
  rw [requireLen_err hl]
  rfl

theorem leEncryptedData_shape (p : List UInt8) (hl : p.length = 17) :
    ∃ (st : UInt8) (d : Arr 16), p = st :: d.val := by
  match p, hl with
  | st :: d, hl => exact ⟨st, ⟨d, by simpa using hl⟩, rfl⟩

theorem channelMap_eq (st : UInt8) (h : UInt16) (m : Arr 5) :
    ∃ r : Option ChannelClassification,
      (∀ f, r = some f ↔ f = ⟨m⟩ ∧ ∀ i j, HasBit m.val i j → ChannelBit i j) ∧
      toLeChannelMapParameters c V (st :: le16 h ++ m.val) =
        (do let s ← tryStatus c V st
            match r with
            | some m => .ok ⟨s, ⟨h⟩, m⟩
            | none => .err (.invalidChannelMap m)) := by
  obtain ⟨r, hr, hf⟩ := (C50_from_bits (ε := EvError V.VErr) (n := 5) c channelClassification
    (fun d hd _ => C50_tables_in_range.1 d hd) m.val).2 m.len
  refine ⟨r, ?_, ?_⟩
  · intro f
    rw [hf f]
    constructor
    · rintro ⟨h1, h2⟩
      obtain ⟨f⟩ := f
      exact ⟨congrArg _ (Arr.ext' h1), fun i j h => (declared_channelClassification c i j).mp (h2 i j h)⟩
    · rintro ⟨rfl, h2⟩
      exact ⟨rfl, fun i j h => (declared_channelClassification c i j).mpr (h2 i j h)⟩
  · obtain ⟨h0, h1, hb, hv⟩ := le16_cases h
    obtain ⟨m, hm⟩ := m
    match m, hm with
    | [m0, m1, m2, m3, m4], hm =>
      have hr' : BFlags.fromBits (ε := V.EvErr) c channelClassification 5 [m0, m1, m2, m3, m4] = .ok r := hr
      rw [hb, ← hv]
      unfold toLeChannelMapParameters
      have e1 : requireLen (VE := V.VErr) ([st, h0, h1] ++ [m0, m1, m2, m3, m4]) 8 = .ok () := rfl
      have e2 : slice (ε := EvError V.VErr) ([st, h0, h1] ++ [m0, m1, m2, m3, m4]) 3 8 =
        .ok [m0, m1, m2, m3, m4] := rfl
      have e3 : sliceFrom (ε := EvError V.VErr) ([st, h0, h1] ++ [m0, m1, m2, m3, m4]) 3 =
        .ok [m0, m1, m2, m3, m4] := rfl
      have e4 : toArr (ε := EvError V.VErr) 5 [m0, m1, m2, m3, m4] = .ok ⟨[m0, m1, m2, m3, m4], hm⟩ := rfl
      rw [e1, e2, e3, Res.bind_ok, Res.bind_ok, e4]
      simp only [Res.bind_ok]
      rw [hr']
      rfl

theorem channelMap_len (p : List UInt8) (hl : p.length ≠ 8) :
    toLeChannelMapParameters c V p = .err (.badLength p.length 8) := by
  unfold toLeChannelMapParameters
  rw [requireLen_err hl]
  rfl

theorem channelMap_shape (p : List UInt8) (hl : p.length = 8) :
    ∃ (st : UInt8) (h : UInt16) (m : Arr 5), p = st :: le16 h ++ m.val := by
  match p, hl with
  | [st, h0, h1, m0, m1, m2, m3, m4], _ =>
    obtain ⟨h, hh⟩ := le16_exists h0 h1
    exact ⟨st, h, ⟨[m0, m1, m2, m3, m4], rfl⟩, by rw [← hh]; rfl⟩

theorem supportedCommands_eq (st : UInt8) (m : Arr COMMAND_FLAGS_SIZE) :
    ∃ r : Option CommandFlags,
      (∀ f, r = some f ↔ f = ⟨m⟩ ∧ ∀ i j, HasBit m.val i j → CommandBit c i j) ∧
      toSupportedCommands c V (st :: m.val) =
        (do let s ← tryStatus c V st
            match r with
            | some m => .ok ⟨s, m⟩
            | none => .err .badCommandFlag) := by
  obtain ⟨r, hr, hf⟩ := (C50_from_bits (ε := EvError V.VErr) (n := COMMAND_FLAGS_SIZE) c commandFlags
    (fun d hd _ => C50_tables_in_range.2 d hd) m.val).2 m.len
  refine ⟨r, ?_, ?_⟩
  · intro f
    rw [hf f]
    constructor
    · rintro ⟨h1, h2⟩
      obtain ⟨f⟩ := f
      exact ⟨congrArg _ (Arr.ext' h1), fun i j h => (declared_commandFlags c i j).mp (h2 i j h)⟩
    · rintro ⟨rfl, h2⟩
      exact ⟨rfl, fun i j h => (declared_commandFlags c i j).mpr (h2 i j h)⟩
  · have hl : (st :: m.val).length = 65 := by simp [m.len, COMMAND_FLAGS_SIZE]
    have e2 : slice (ε := EvError V.VErr) (st :: m.val) 1 (COMMAND_FLAGS_SIZE + 1) = .ok m.val := by
      rw [slice_of_le (by simp) (by rw [hl]; simp [COMMAND_FLAGS_SIZE]), List.take_of_length_le (by rw [hl]; simp [COMMAND_FLAGS_SIZE])]
      rfl
    have e3 : tryCommandFlags (VE := V.VErr) c m.val =
        (match (generalizing := false) r with
          | some m => .ok m
          | none => .err .badCommandFlag) := by
      unfold tryCommandFlags
      rw [requireLen_ok m.len, Res.bind_ok, hr]
      cases r <;> rfl
    unfold toSupportedCommands
    rw [requireLen_ok (by rw [hl]; rfl)]
    simp only [Res.bind_ok, idx, List.getElem?_cons_zero, e2, e3]
    congr 1
    funext s
    cases r <;> rfl

theorem supportedCommands_len (p : List UInt8) (hl : p.length ≠ 65) :
    toSupportedCommands c V p = .err (.badLength p.length 65) := by
  unfold toSupportedCommands
  rw [show 1 + COMMAND_FLAGS_SIZE = 65 from rfl, requireLen_err hl]
  rfl

theorem supportedCommands_shape (p : List UInt8) (hl : p.length = 65) :
    ∃ (st : UInt8) (m : Arr COMMAND_FLAGS_SIZE), p = st :: m.val := by
  match p, hl with
  | st :: d, hl => exact ⟨st, ⟨d, by simpa [COMMAND_FLAGS_SIZE] using hl⟩, rfl⟩

end Bt
