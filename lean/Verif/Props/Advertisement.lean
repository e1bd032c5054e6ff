import Verif.Lemmas.Bytes
import Verif.Spec.Advertisement

/-! # C37, C38: advertisement structures -/

namespace Bt

open Spec

variable {ε : Type}

theorem len_eq_adSize (a : Advertisement) : a.len = adSize a := by
  cases a <;> simp [Advertisement.len, adSize, adContent] <;> omega

theorem typeByte_eq (a : Advertisement) : a.getType.asU8 = (adContent a).1 := by cases a <;> rfl

/-- Overwriting a field at the start of `buf[off..]`. -/
theorem withRange_tail {buf src : List UInt8} {off k : Nat} {f : List UInt8 → Res ε (List UInt8)}
    (h : off ≤ buf.length)
    (hf : ∀ s : List UInt8, f s = if k ≤ s.length then .ok (src ++ s.drop k) else .panic) :
    withRange buf off buf.length f =
      if off + k ≤ buf.length then .ok (buf.take off ++ src ++ buf.drop (off + k)) else .panic := by
  rw [withRange_of_le h (Nat.le_refl _), hf, List.take_length]
  by_cases hk : off + k ≤ buf.length
  · rw [if_pos hk, if_pos (by simp; omega)]
    simp [List.drop_drop]
  · rw [if_neg hk, if_neg (by simp; omega)]
    rfl

theorem copyRange_eq (buf src : List UInt8) (a : Nat) :
    copyRange (ε := ε) buf a (a + src.length) src =
      if a + src.length ≤ buf.length then .ok (buf.take a ++ src ++ buf.drop (a + src.length))
      else .panic := by
  by_cases h : a + src.length ≤ buf.length
  · rw [if_pos h, copyRange_of_le (by omega) h (by omega)]
  · rw [if_neg h, copyRange, if_neg (by omega)]

/-- A fixed-size field followed by data, at offset 2. -/
theorem field_then_data {α : Type} (K : List UInt8 → Res ε α) (b0 b1 : UInt8) (rest src d : List UInt8) (k m : Nat)
    (hk : src.length = k) (hm : m = 2 + k)
    {f : List UInt8 → Res ε (List UInt8)}
    (hf : ∀ s : List UInt8, f s = if k ≤ s.length then .ok (src ++ s.drop k) else .panic) :
    (do
      let bytes ← withRange (b0 :: b1 :: rest) 2 (b0 :: b1 :: rest).length f
      let bytes ← copyRange bytes m (m + d.length) d
      K bytes) =
    if k + d.length ≤ rest.length then K (b0 :: b1 :: (src ++ d) ++ rest.drop (k + d.length))
    else .panic := by
  subst hm
  rw [withRange_tail (by simp) hf]
  by_cases h1 : 2 + k ≤ (b0 :: b1 :: rest).length
  · rw [if_pos h1]
    simp only [List.length_cons] at h1
    simp only [Res.bind_ok]
    rw [copyRange_eq]
    by_cases h2 : k + d.length ≤ rest.length
    · rw [if_pos h2, if_pos (by simp [hk]; omega)]
      simp only [Res.bind_ok]
      congr 1
      have e1 : 2 + k = k + 2 := Nat.add_comm _ _
      have e2 : k + 2 + d.length = k + d.length + 2 := by omega
      rw [e1, e2]
      simp [hk, List.drop_append, List.drop_of_length_le]
    · rw [if_neg h2, if_neg (by simp [hk]; omega)]
      rfl
  · rw [if_neg h1, if_neg (by simp at h1; omega)]
    rfl

theorem writeU16_ite (v : UInt16) (s : List UInt8) :
    writeU16 (ε := ε) s v = if 2 ≤ s.length then .ok (le16 v ++ s.drop 2) else .panic := by
  rw [writeU16, leBytes_eq_le]; rfl

theorem writeU32_ite (v : UInt32) (s : List UInt8) :
    writeU32 (ε := ε) s v = if 4 ≤ s.length then .ok (le32 v ++ s.drop 4) else .panic := by
  rw [writeU32, leBytes_eq_le]; rfl

theorem writeU128_ite (v : Nat) (s : List UInt8) :
    writeU128 (ε := ε) s v = if 16 ≤ s.length then .ok (le 16 v ++ s.drop 16) else .panic := by
  rw [writeU128, leBytes_eq_le]

/-- **C37.** `copy_into_slice` writes the length byte (size minus one, modulo 256), the type byte and the value,
reports the number of bytes written, leaves the rest of the buffer untouched, and panics exactly when
the buffer is too short. -/
theorem C37_written (a : Advertisement) (buf : List UInt8) :
    a.copyIntoSlice (ε := ε) buf =
      if adSize a ≤ buf.length then
        .ok (UInt8.ofNat (adSize a - 1) :: (adContent a).1 :: (adContent a).2 ++ buf.drop (adSize a),
          adSize a)
      else .panic := by
  have hs : adSize a = 2 + (adContent a).2.length := rfl
  unfold Advertisement.copyIntoSlice
  rw [len_eq_adSize, typeByte_eq]
  match buf with
  | [] => rw [if_neg (by simp; omega)]; rfl
  | [b0] => rw [if_neg (by simp; omega)]; rfl
  | b0 :: b1 :: rest =>
    dsimp only
    rw [setByte_of_lt _ (by simp)]
    simp only [Res.bind_ok, List.take_zero, List.nil_append, List.drop_succ_cons, List.drop_zero]
    rw [setByte_of_lt _ (by simp)]
    simp only [Res.bind_ok, List.take_succ_cons, List.take_zero, List.cons_append, List.nil_append,
      List.drop_succ_cons, List.drop_zero]
    have hd : ∀ n, List.drop (2 + n) (b0 :: b1 :: rest) = rest.drop n := by
      intro n; rw [Nat.add_comm]; rfl
    cases a with
    | completeLocalName name =>
      simp only [adContent, adSize, List.length_cons, hd]
      rw [copyRange_eq]
      by_cases h : name.length ≤ rest.length
      · rw [if_pos (by simp; omega), if_pos (by omega)]
        change Res.ok _ = Res.ok _
        rw [Nat.add_comm 2 name.length]
        rfl
      · rw [if_neg (by simp; omega), if_neg (by omega)]
        rfl
    | serviceData16BitUuid u d =>
      simp only [adContent, adSize, List.length_append, length_le16, hd]
      rw [field_then_data _ _ _ _ _ _ 2 4 (length_le16 u) rfl (fun s => writeU16_ite u s)]
      by_cases h : 2 + d.length ≤ rest.length
      · rw [if_pos h, if_pos (by simp; omega)]; rfl
      · rw [if_neg h, if_neg (by simp only [List.length_cons]; omega)]
    | serviceData32BitUuid u d =>
      simp only [adContent, adSize, List.length_append, length_le32, hd]
      rw [field_then_data _ _ _ _ _ _ 4 6 (length_le32 u) rfl (fun s => writeU32_ite u s)]
      by_cases h : 4 + d.length ≤ rest.length
      · rw [if_pos h, if_pos (by simp; omega)]; rfl
      · rw [if_neg h, if_neg (by simp only [List.length_cons]; omega)]
    | serviceData128BitUuid u d =>
      simp only [adContent, adSize, List.length_append, length_le, hd]
      rw [field_then_data _ _ _ _ _ _ 16 18 (length_le 16 u.val) rfl (fun s => writeU128_ite u.val s)]
      by_cases h : 16 + d.length ≤ rest.length
      · rw [if_pos h, if_pos (by simp; omega)]; rfl
      · rw [if_neg h, if_neg (by simp only [List.length_cons]; omega)]
    | manufacturerSpecificData u d =>
      simp only [adContent, adSize, List.length_append, length_le16, hd]
      rw [field_then_data _ _ _ _ _ _ 2 4 (length_le16 u) rfl (fun s => writeU16_ite u s)]
      by_cases h : 2 + d.length ≤ rest.length
      · rw [if_pos h, if_pos (by simp; omega)]; rfl
      · rw [if_neg h, if_neg (by simp only [List.length_cons]; omega)]

example : (Advertisement.serviceData32BitUuid 0x01020304 [7, 8]).copyIntoSlice (ε := Empty)
    [0, 0, 0, 0, 0, 0, 0, 0, 0xAA] = .ok ([7, 0x20, 4, 3, 2, 1, 7, 8, 0xAA], 8) := by decide +kernel

theorem adOfContent_adContent (a : Advertisement) :
    adOfContent (adContent a).1 (adContent a).2 = some a := by
  cases a with
  | completeLocalName name => simp [adOfContent, adContent]
  | serviceData16BitUuid u d =>
    simp [adOfContent, adContent, leVal_eq_leNat, ofNat_leNat_le16]
  | serviceData32BitUuid u d =>
    simp [adOfContent, adContent, leVal_eq_leNat, ofNat_leNat_le32]
  | serviceData128BitUuid u d =>
    have h : Fin.ofNat (2 ^ 128) (leNat (le 16 u.val)) = u := by
      rw [← leBytes_eq_le, leNat_leBytes]
      apply Fin.ext
      have := u.isLt
      simp only [Fin.ofNat]
      omega
    simp only [adOfContent, adContent]
    rw [if_neg (by decide), if_neg (fun h => absurd h.1 (by decide)),
      if_neg (fun h => absurd h.1 (by decide)), if_pos (by simp)]
    simp only [List.take_append, List.drop_append, length_le, List.take_of_length_le,
      List.drop_of_length_le, leVal_eq_leNat, Nat.le_refl, Nat.sub_self, List.take_zero,
      List.append_nil, List.nil_append, List.drop_zero, h]
  | manufacturerSpecificData u d =>
    simp [adOfContent, adContent, leVal_eq_leNat, ofNat_leNat_le16]

/-- Reading a record whose length byte does not wrap. -/
theorem readRecord_append (t : UInt8) (v rest : List UInt8) (h : v.length ≤ 254) :
    readRecord (UInt8.ofNat (v.length + 1) :: t :: v ++ rest) = some (t, v, rest) := by
  have hn : (UInt8.ofNat (v.length + 1)).toNat = v.length + 1 := by
    rw [UInt8.toNat_ofNat']; omega
  simp only [readRecord, List.cons_append, hn]
  rw [if_pos (by simp)]
  simp

/-- **C37.** The bytes written for an advertisement whose record fits a length byte (type and value at most
255 bytes) are read back, by the format's own rules, as the same advertisement, whatever follows. -/
theorem C37_parses_back (a : Advertisement) (buf out : List UInt8) (n : Nat) (rest : List UInt8)
    (h : a.copyIntoSlice (ε := ε) buf = .ok (out, n)) (hl : adSize a ≤ 256) :
    ∃ t v, readRecord (out.take n ++ rest) = some (t, v, rest) ∧ adOfContent t v = some a := by
  rw [C37_written] at h
  split at h
  · cases h
    refine ⟨(adContent a).1, (adContent a).2, ?_, adOfContent_adContent a⟩
    have hs : adSize a = (adContent a).2.length + 2 := by rw [adSize, Nat.add_comm]
    rw [List.take_append_of_le_length (by simp [hs]), List.take_of_length_le (by simp [hs]), hs]
    exact readRecord_append _ _ rest (by omega)
  · cases h

example : adSize (.completeLocalName (List.replicate 254 65)) ≤ 256 := by decide +kernel

/-- **C37, beyond the limit.** The length byte is the true length modulo 256, so a longer record is announced
short and does not parse back: the record read is strictly shorter than the one written. -/
theorem C37_long_wraps (a : Advertisement) (buf out : List UInt8) (n : Nat)
    (h : a.copyIntoSlice (ε := ε) buf = .ok (out, n)) (hl : 256 < adSize a) :
    ∃ b rest, out = b :: rest ∧ b.toNat = (n - 1) % 256 ∧ b.toNat < n - 1 := by
  rw [C37_written] at h
  split at h
  · cases h
    refine ⟨_, _, rfl, ?_⟩
    rw [UInt8.toNat_ofNat']
    omega
  · cases h

example : 256 < adSize (.manufacturerSpecificData 1 (List.replicate 253 7)) := by decide +kernel

/-- A program that writes advertisements one after another into a buffer, each at the offset where the
previous one ended, and counts the bytes. -/
def writeAds : List Advertisement → List UInt8 → Res ε (List UInt8 × Nat)
  | [], buf => .ok (buf, 0)
  | a :: as, buf => do
    let (buf, n) ← a.copyIntoSlice buf
    let (tail, m) ← writeAds as (buf.drop n)
    .ok (buf.take n ++ tail, n + m)

/-- Total size of the records. -/
def adsSize (as : List Advertisement) : Nat := (as.map adSize).sum

theorem readAdsFuel_writeAds (as : List Advertisement) (buf : List UInt8)
    (hs : ∀ a ∈ as, adSize a ≤ 256) (hb : adsSize as ≤ buf.length) :
    ∃ out, writeAds (ε := ε) as buf = .ok (out ++ buf.drop (adsSize as), adsSize as) ∧
      out.length = adsSize as ∧ ∀ fuel, out.length ≤ fuel → readAdsFuel fuel out = some as := by
  induction as generalizing buf with
  | nil => exact ⟨[], by simp [writeAds, adsSize], rfl, fun fuel _ => by cases fuel <;> rfl⟩
  | cons a as ih =>
    have ha : adSize a = (adContent a).2.length + 2 := by rw [adSize, Nat.add_comm]
    have hsum : adsSize (a :: as) = adSize a + adsSize as := by simp [adsSize]
    rw [hsum] at hb
    obtain ⟨out, h1, h2, h3⟩ := ih (buf.drop (adSize a)) (fun x hx => hs x (by simp [hx]))
      (by simp; omega)
    have h256 := hs a (by simp)
    generalize hr : (UInt8.ofNat (adSize a - 1) :: (adContent a).1 :: (adContent a).2) = r at *
    have hrl : r.length = adSize a := by rw [← hr]; simp [ha]
    refine ⟨r ++ out, ?_, by simp [hrl, h2, hsum], ?_⟩
    · rw [writeAds, C37_written, if_pos (by omega), hr]
      simp only [Res.bind_ok]
      rw [List.drop_left' hrl, h1, List.take_left' hrl]
      simp [hsum, List.drop_drop]
    · intro fuel hf
      match fuel with
      | 0 => rw [List.length_append] at hf; omega
      | fuel + 1 =>
        have hrr : readRecord (r ++ out) = some ((adContent a).1, (adContent a).2, out) := by
          rw [← hr, ha]
          exact readRecord_append _ _ out (by omega)
        match hro : r ++ out with
        | [] => rw [hro] at hrr; cases hrr
        | x :: xs =>
          rw [← hro]
          unfold readAdsFuel
          rw [hro]
          simp only
          rw [← hro, hrr]
          simp only
          rw [adOfContent_adContent, h3 fuel (by rw [List.length_append] at hf; omega)]

/-- **C38.** Writing any list of advertisements one after another succeeds when they fit, fills exactly the
prefix of the buffer of their total size, and reading that prefix as a sequence of length-type-value
records recovers the list. -/
theorem C38_sequence (as : List Advertisement) (buf : List UInt8)
    (hs : ∀ a ∈ as, adSize a ≤ 256) (hb : (as.map adSize).sum ≤ buf.length) :
    ∃ out, writeAds (ε := ε) as buf =
        .ok (out ++ buf.drop ((as.map adSize).sum), (as.map adSize).sum) ∧
      out.length = (as.map adSize).sum ∧ readAds out = some as := by
  obtain ⟨out, h1, h2, h3⟩ := readAdsFuel_writeAds (ε := ε) as buf hs hb
  exact ⟨out, h1, h2, h3 _ (Nat.le_refl _)⟩

example : ∃ out, writeAds (ε := Empty)
    [.completeLocalName [65, 66], .serviceData16BitUuid 0x1234 [], .manufacturerSpecificData 1 [9]]
    (zeroes 31) = .ok (out, 13) ∧ readAds (out.take 13) =
    some [.completeLocalName [65, 66], .serviceData16BitUuid 0x1234 [], .manufacturerSpecificData 1 [9]] :=
  ⟨_, rfl, by decide +kernel⟩

end Bt
