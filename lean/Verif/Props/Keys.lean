import Verif.Spec.Keys
import Verif.Props.Procedures

/-! # C108: the two ends of a connection use the same key -/

namespace Bt

open Spec

variable {σ σ' E E' : Type} {V : Vendor} (c : Cfg) (l l' : Link) (k : Controller σ E) (k' : Controller σ' E')

/-- **C108.** The central starts encryption; its controller takes the command apart; the controller of the peripheral
asks its host, for its own handle of the connection, with the same bytes. The host of the peripheral gets the
random number and the diversifier that the central gave, answers with one command, for this connection, and the
controller of the peripheral gets the key of the central exactly if the peripheral knows it under these two numbers. -/
theorem C108_same_key {VS VS' : Type} (vinto : VS → UInt8) (vinto' : VS' → UInt8) (p : EncryptionParameters)
    (keys : UInt64 → UInt16 → Option (Arr 16)) (s : σ) (s' : σ')
    (header payload : List UInt8)
    (hw : (Command.exec (linkHeader l) (recording k) vinto (.leStartEncryption p) (s, [])).2.2 =
      [.write header payload])
    (handle rand ediv key : List UInt8) (ha : StartsEncryption l (header ++ payload) handle rand ediv key)
    (handle' : List UInt8) (hh : handle'.length = 2) :
    ∃ (e : V.Ev) (cmd : Command VS') (header' payload' : List UInt8),
      Event.new c V (keyRequest handle' rand ediv) = .ok e ∧
      answerRequest keys e = some cmd ∧
      (cmd.exec (linkHeader l') (recording k') vinto' (s', [])).2.2 = [.write header' payload'] ∧
      (RepliesKey l' (header' ++ payload') handle' key ↔
        keys p.randomNumber p.encryptedDiversifier = some p.longTermKey) ∧
      (RepliesNoKey l' (header' ++ payload') handle' ↔ keys p.randomNumber p.encryptedDiversifier = none) := by
  obtain ⟨-, rfl, rfl⟩ := wrote c l k vinto _ (by simp [Command.Constructible]) s header payload hw
  obtain ⟨h1, h2, h3, h4, h5⟩ := ha
  have h6 : headerBytes l (cmdOpcode (.leStartEncryption (VS := VS) p)) (cmdParams (.leStartEncryption (VS := VS) p)).length =
      indicator l ++ [0x19, 0x20, 28] := by
    have : (cmdParams (.leStartEncryption (VS := VS) p)).length = 28 := by simp [cmdParams, p.longTermKey.len]
    rw [this]
    change headerBytes l 0x2019 28 = _
    cases l <;> decide
  rw [h6] at h5
  have h7 := List.append_cancel_left (h5.trans (by simp only [List.append_assoc] : _ =
    (indicator l ++ [0x19, 0x20, 28]) ++ (handle ++ (rand ++ (ediv ++ key)))))
  have h7 : le16 p.connHandle.val ++ (le64 p.randomNumber ++ (le16 p.encryptedDiversifier ++ p.longTermKey.val)) =
    handle ++ (rand ++ (ediv ++ key)) := by simpa [cmdParams] using h7
  obtain ⟨-, h8⟩ := List.append_inj h7 (by simp [h1])
  obtain ⟨rfl, h9⟩ := List.append_inj h8 (by simp [h2])
  obtain ⟨rfl, rfl⟩ := List.append_inj h9 (by simp [h3])
  obtain ⟨hd, rfl⟩ : ∃ hd : UInt16, handle' = le16 hd := by
    exact ⟨_, (le16_ofNat_leNat handle' hh).symm⟩
  refine ⟨.leLongTermKeyRequest ⟨⟨hd⟩, p.randomNumber, p.encryptedDiversifier⟩, ?_⟩
  have he : Event.new c V (keyRequest (le16 hd) (le64 p.randomNumber) (le16 p.encryptedDiversifier)) =
      .ok (.leLongTermKeyRequest ⟨⟨hd⟩, p.randomNumber, p.encryptedDiversifier⟩) := by
    refine (C09_sound_and_complete c V _ _).mpr ⟨0x3E, _, ?_, ?_, .leLongTermKeyRequest⟩
    · simp [keyRequest, frame]
    · simp
  cases hk : keys p.randomNumber p.encryptedDiversifier with
  | none =>
    refine ⟨.leLongTermKeyRequestNegativeReply ⟨hd⟩, _, _, he, by simp [answerRequest, hk],
      C39_trace c l' k' vinto' _ (by simp [Command.Constructible]) rfl s' [], ?_, ?_⟩
    all_goals
      have hb : headerBytes l' (cmdOpcode (.leLongTermKeyRequestNegativeReply (VS := VS') ⟨hd⟩))
          (cmdParams (.leLongTermKeyRequestNegativeReply (VS := VS') ⟨hd⟩)).length = indicator l' ++ [0x1B, 0x20, 2] := by
        have : (cmdParams (.leLongTermKeyRequestNegativeReply (VS := VS') ⟨hd⟩)).length = 2 := by simp [cmdParams]
        rw [this]
        change headerBytes l' 0x201B 2 = _
        cases l' <;> decide
      rw [hb]
    · refine iff_of_false ?_ (by simp)
      rintro ⟨-, -, h⟩
      simp only [List.append_assoc] at h
      exact absurd (List.cons.inj (List.append_cancel_left h)).1 (by decide)
    · exact iff_of_true ⟨by simp, rfl⟩ rfl
  | some key' =>
    refine ⟨.leLongTermKeyRequestReply ⟨hd⟩ key', _, _, he, by simp [answerRequest, hk],
      C39_trace c l' k' vinto' _ (by simp [Command.Constructible]) rfl s' [], ?_, ?_⟩
    all_goals
      have hb : headerBytes l' (cmdOpcode (.leLongTermKeyRequestReply (VS := VS') ⟨hd⟩ key'))
          (cmdParams (.leLongTermKeyRequestReply (VS := VS') ⟨hd⟩ key')).length = indicator l' ++ [0x1A, 0x20, 18] := by
        have : (cmdParams (.leLongTermKeyRequestReply (VS := VS') ⟨hd⟩ key')).length = 18 := by
          simp [cmdParams, key'.len]
        rw [this]
        change headerBytes l' 0x201A 18 = _
        cases l' <;> decide
      rw [hb]
    · constructor
      · rintro ⟨-, -, h⟩
        simp only [cmdParams, List.append_assoc] at h
        have h := List.append_cancel_left (List.append_cancel_left (List.append_cancel_left h))
        cases key'
        cases hp : p.longTermKey
        simp only [hp] at h
        subst h
        rfl
      · intro h
        cases h
        exact ⟨by simp, h4, by simp [cmdParams]⟩
    · refine iff_of_false ?_ (by simp)
      rintro ⟨-, h⟩
      simp only [List.append_assoc] at h
      exact absurd (List.cons.inj (List.append_cancel_left h)).1 (by decide)

/-- **C108.** The central's command is always written, as one LE Start Encryption with its key. -/
theorem C108_started {VS : Type} (vinto : VS → UInt8) (p : EncryptionParameters) (s : σ) :
    ∃ header payload handle rand ediv,
      (Command.exec (linkHeader l) (recording k) vinto (.leStartEncryption p) (s, [])).2.2 = [.write header payload] ∧
      StartsEncryption l (header ++ payload) handle rand ediv p.longTermKey.val := by
  refine ⟨_, _, le16 p.connHandle.val, le64 p.randomNumber, le16 p.encryptedDiversifier,
    C39_trace ⟨false, false⟩ l k vinto _ (by simp [Command.Constructible]) rfl s [], by simp, by simp, by simp,
    p.longTermKey.len, ?_⟩
  have : (cmdParams (.leStartEncryption (VS := VS) p)).length = 28 := by simp [cmdParams, p.longTermKey.len]
  rw [this]
  change headerBytes l 0x2019 28 ++ _ = _
  have : headerBytes l 0x2019 28 = indicator l ++ [0x19, 0x20, 28] := by cases l <;> decide
  rw [this]
  simp [cmdParams]

/-- The bytes of a central, and of a peripheral that knows the key. -/
example : StartsEncryption .uart
      ([0x01, 0x19, 0x20, 28] ++ [0x40, 0, 8, 7, 6, 5, 4, 3, 2, 1, 0x0A, 0x0B, 1, 2, 3, 4, 5, 6, 7, 8, 9, 10, 11, 12, 13, 14, 15, 16])
      [0x40, 0] [8, 7, 6, 5, 4, 3, 2, 1] [0x0A, 0x0B] [1, 2, 3, 4, 5, 6, 7, 8, 9, 10, 11, 12, 13, 14, 15, 16] ∧
    (Command.exec (linkHeader .uart) (recording logController) (fun x : Unit => 0)
      (.leStartEncryption ⟨⟨0x40⟩, 0x0102030405060708, 0x0B0A, ⟨[1, 2, 3, 4, 5, 6, 7, 8, 9, 10, 11, 12, 13, 14, 15, 16], rfl⟩⟩)
      ([], [])).2.2 = [.write [0x01, 0x19, 0x20, 28]
        [0x40, 0, 8, 7, 6, 5, 4, 3, 2, 1, 0x0A, 0x0B, 1, 2, 3, 4, 5, 6, 7, 8, 9, 10, 11, 12, 13, 14, 15, 16]] ∧
    Event.new c demoVendor (keyRequest [0x41, 0] [8, 7, 6, 5, 4, 3, 2, 1] [0x0A, 0x0B]) =
      .ok (.leLongTermKeyRequest ⟨⟨0x41⟩, 0x0102030405060708, 0x0B0A⟩) :=
  ⟨⟨rfl, rfl, rfl, rfl, rfl⟩, rfl, rfl⟩

end Bt
