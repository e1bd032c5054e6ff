import Verif.Model.DebugEvent
import Verif.Spec.Log
import Verif.Spec.Flags
import Verif.Lemmas.Debug
import Verif.Lemmas.Flags
import Verif.Lemmas.FlagNames

/-! # Helper lemmas: texts that can be read off -/

namespace Bt

open Spec

/-- From `t` and `u`, each followed by something that can follow a value, it can be concluded that `P` holds and that
the same thing follows. -/
def Sync (t u : Text) (P : Prop) : Prop := ∀ r s, Follows r → Follows s → t ++ r = u ++ s → P ∧ r = s

theorem Sync.mono {t u : Text} {P Q : Prop} (h : Sync t u P) (hpq : P → Q) : Sync t u Q :=
  fun r s hr hs e => ⟨hpq (h r s hr hs e).1, (h r s hr hs e).2⟩

theorem Sync.of_legible {α : Type} {f : α → Text} (h : Legible f) (a b : α) : Sync (f a) (f b) (a = b) := by
  intro r s hr hs e
  obtain rfl := h a b r s hr hs e
  exact ⟨rfl, List.append_cancel_left e⟩

theorem Sync.legible {α : Type} {f : α → Text} (h : ∀ a b, Sync (f a) (f b) (a = b)) : Legible f :=
  fun a b r s hr hs e => (h a b r s hr hs e).1

theorem Sync.eq {t u : Text} {P : Prop} (h : Sync t u P) (e : t = u) : P :=
  (h [] [] (Or.inl rfl) (Or.inl rfl) (by rw [e])).1

/-- Texts that end by themselves. -/
theorem Sync.of_closed {t u : Text} {P : Prop} (h : ∀ r s : Text, t ++ r = u ++ s → P ∧ r = s) : Sync t u P :=
  fun r s _ _ => h r s

/-! ## Splitting -/

theorem span_eq {p : Char → Bool} {v w r s : Text} (hv : ∀ x ∈ v, p x = true) (hw : ∀ x ∈ w, p x = true)
    (hr : ∀ x ∈ r.head?, p x = false) (hs : ∀ x ∈ s.head?, p x = false) (h : v ++ r = w ++ s) : v = w ∧ r = s := by
  induction v generalizing w with
  | nil =>
    cases w with
    | nil => exact ⟨rfl, h⟩
    | cons y w =>
      have := hr y (by rw [List.nil_append] at h; rw [h]; rfl)
      rw [hw y (by simp)] at this
      cases this
  | cons a v ih =>
    cases w with
    | nil =>
      have := hs a (by rw [List.nil_append] at h; rw [← h]; rfl)
      rw [hv a (by simp)] at this
      cases this
    | cons y w =>
      simp only [List.cons_append, List.cons.injEq] at h
      obtain ⟨rfl, h⟩ := h
      obtain ⟨rfl, rfl⟩ := ih (fun x hx => hv x (by simp [hx])) (fun x hx => hw x (by simp [hx])) h
      exact ⟨rfl, rfl⟩

/-- Characters of Rust identifiers. -/
def wordChar (x : Char) : Bool := x.isAlphanum || x == '_'

theorem follows_head {r : Text} (h : Follows r) : ∀ x ∈ r.head?, x = ',' ∨ x = ')' ∨ x = ']' ∨ x = '}' ∨ x = ' ' := by
  rcases h with rfl | ⟨t, rfl | rfl | rfl | rfl | rfl⟩ <;> simp

theorem follows_class {p : Char → Bool} (h1 : p ',' = false) (h2 : p ')' = false) (h3 : p ']' = false)
    (h4 : p '}' = false) (h5 : p ' ' = false) {r : Text} (h : Follows r) : ∀ x ∈ r.head?, p x = false := by
  intro x hx
  rcases follows_head h x hx with rfl | rfl | rfl | rfl | rfl <;> assumption

theorem follows_word {r : Text} (h : Follows r) : ∀ x ∈ r.head?, wordChar x = false :=
  follows_class (by decide) (by decide) (by decide) (by decide) (by decide) h

theorem follows_comma (t : Text) : Follows (',' :: t) := Or.inr ⟨t, Or.inl rfl⟩
theorem follows_paren (t : Text) : Follows (')' :: t) := Or.inr ⟨t, Or.inr (Or.inl rfl)⟩
theorem follows_brace (t : Text) : Follows (' ' :: '}' :: t) := Or.inr ⟨t, by simp⟩

/-! ## Lines -/

/-- A text whose last line ends, where the flag says whether the text begins a line. -/
def LinesEnd : Bool → Text → Prop
  | on, [] => on = true
  | _, x :: t => LinesEnd (x == '\n') t

theorem linesEnd_append (on : Bool) (t u : Text) (h : LinesEnd true u) : LinesEnd on (t ++ ',' :: '\n' :: u) := by
  induction t generalizing on with
  | nil => exact h
  | cons x t ih => exact ih _

theorem linesEnd_fields : ∀ fs, LinesEnd true (fmtFieldLines fs)
  | [] => rfl
  | (k, v) :: fs => by
    have := linesEnd_append true (k.toList ++ ':' :: ' ' :: v) _ (linesEnd_fields fs)
    simpa only [fmtFieldLines, List.append_assoc, List.cons_append] using this

theorem linesEnd_lines : ∀ ts, LinesEnd true (fmtLines ts)
  | [] => rfl
  | t :: ts => linesEnd_append true t _ (linesEnd_lines ts)

/-- Indented lines and what follows them can be told apart, and the lines can be read off. -/
theorem pad_end {x : Char} (hx : x ≠ ' ') {r s : Text} : ∀ (on : Bool) (a b : Text), LinesEnd on a → LinesEnd on b →
    fmtPad on a ++ x :: r = fmtPad on b ++ x :: s → a = b ∧ r = s
  | _, [], [], _, _, h => ⟨rfl, (List.cons.inj h).2⟩
  | _, [], _ :: _, ha, _, h => by
    cases ha
    exact absurd (List.cons.inj h).1 hx
  | _, _ :: _, [], _, hb, h => by
    cases hb
    exact absurd (List.cons.inj h).1.symm hx
  | on, y :: a, z :: b, ha, hb, h => by
    have h : y :: (fmtPad (y == '\n') a ++ x :: r) = z :: (fmtPad (z == '\n') b ++ x :: s) := by
      cases on with
      | true => simpa only [fmtPad, List.cons_append, List.cons.injEq, true_and] using h
      | false => exact h
    obtain ⟨rfl, h⟩ := List.cons.inj h
    obtain ⟨rfl, rfl⟩ := pad_end hx _ a b ha hb h
    exact ⟨rfl, rfl⟩

/-! ## Structs, tuples and variants -/

/-- Fields that can be read off, on one line and on several. -/
def FieldsSync (fs gs : List (String × Text)) (P : Prop) : Prop :=
  (∀ r s, fmtFields fs ++ ' ' :: '}' :: r = fmtFields gs ++ ' ' :: '}' :: s → P ∧ r = s) ∧
    ∀ r s, fmtFieldLines fs ++ r = fmtFieldLines gs ++ s → P ∧ r = s

def ItemsSync (ts us : List Text) (P : Prop) : Prop :=
  (∀ r s, fmtItems id ts ++ ')' :: r = fmtItems id us ++ ')' :: s → P ∧ r = s) ∧
    ∀ r s, fmtLines ts ++ r = fmtLines us ++ s → P ∧ r = s

theorem fields_one (k : String) {t u : Text} {P : Prop} (h : Sync t u P) : FieldsSync [(k, t)] [(k, u)] P := by
  refine ⟨fun r s e => ?_, fun r s e => ?_⟩
  · simp only [fmtFields, List.append_assoc, List.cons_append, List.append_cancel_left_eq, List.cons.injEq,
      true_and] at e
    obtain ⟨h1, h2⟩ := h _ _ (follows_brace _) (follows_brace _) e
    exact ⟨h1, by simpa using h2⟩
  · simp only [fmtFieldLines, List.append_assoc, List.cons_append, List.append_cancel_left_eq, List.cons.injEq,
      true_and] at e
    obtain ⟨h1, h2⟩ := h _ _ (follows_comma _) (follows_comma _) e
    exact ⟨h1, by simpa using h2⟩

theorem fields_cons (k : String) {t u : Text} {P Q : Prop} {f g : String × Text} {fs gs : List (String × Text)}
    (h : Sync t u P) (hs : FieldsSync (f :: fs) (g :: gs) Q) :
    FieldsSync ((k, t) :: f :: fs) ((k, u) :: g :: gs) (P ∧ Q) := by
  refine ⟨fun r s e => ?_, fun r s e => ?_⟩
  · simp only [fmtFields, List.append_assoc, List.cons_append, List.append_cancel_left_eq, List.cons.injEq,
      true_and] at e
    obtain ⟨h1, h2⟩ := h _ _ (follows_comma _) (follows_comma _) e
    simp only [List.cons.injEq, true_and] at h2
    obtain ⟨h3, h4⟩ := hs.1 _ _ h2
    exact ⟨⟨h1, h3⟩, h4⟩
  · have e : k.toList ++ ':' :: ' ' :: (t ++ ',' :: '\n' :: fmtFieldLines (f :: fs)) ++ r =
        k.toList ++ ':' :: ' ' :: (u ++ ',' :: '\n' :: fmtFieldLines (g :: gs)) ++ s := e
    simp only [List.append_assoc, List.cons_append, List.append_cancel_left_eq, List.cons.injEq, true_and] at e
    obtain ⟨h1, h2⟩ := h _ _ (follows_comma _) (follows_comma _) e
    simp only [List.cons.injEq, true_and] at h2
    obtain ⟨h3, h4⟩ := hs.2 _ _ h2
    exact ⟨⟨h1, h3⟩, h4⟩

theorem items_one {t u : Text} {P : Prop} (h : Sync t u P) : ItemsSync [t] [u] P := by
  refine ⟨fun r s e => ?_, fun r s e => ?_⟩
  · obtain ⟨h1, h2⟩ := h _ _ (follows_paren _) (follows_paren _) e
    exact ⟨h1, by simpa using h2⟩
  · simp only [fmtLines, List.append_assoc, List.cons_append] at e
    obtain ⟨h1, h2⟩ := h _ _ (follows_comma _) (follows_comma _) e
    exact ⟨h1, by simpa using h2⟩

theorem items_two {t u t' u' : Text} {P Q : Prop} (h : Sync t u P) (h' : Sync t' u' Q) :
    ItemsSync [t, t'] [u, u'] (P ∧ Q) := by
  refine ⟨fun r s e => ?_, fun r s e => ?_⟩
  · simp only [fmtItems, id, List.append_assoc, List.cons_append] at e
    obtain ⟨h1, h2⟩ := h _ _ (follows_comma _) (follows_comma _) e
    simp only [List.cons.injEq, true_and] at h2
    obtain ⟨h3, h4⟩ := h' _ _ (follows_paren _) (follows_paren _) h2
    exact ⟨⟨h1, h3⟩, by simpa using h4⟩
  · have e : t ++ ',' :: '\n' :: fmtLines [t'] ++ r = u ++ ',' :: '\n' :: fmtLines [u'] ++ s := e
    simp only [List.append_assoc, List.cons_append] at e
    obtain ⟨h1, h2⟩ := h _ _ (follows_comma _) (follows_comma _) e
    simp only [List.cons.injEq, true_and] at h2
    obtain ⟨h3, h4⟩ := (items_one h').2 _ _ h2
    exact ⟨⟨h1, h3⟩, h4⟩

section

variable [Style]

/-- Structs end by themselves. -/
theorem struct_closed (n : String) {fs gs : List (String × Text)} {P : Prop} (h : FieldsSync fs gs P) {r s : Text}
    (e : fmtStruct n fs ++ r = fmtStruct n gs ++ s) : P ∧ r = s := by
  unfold fmtStruct at e
  split at e
  · simp only [List.append_assoc, List.cons_append, List.append_cancel_left_eq, List.cons.injEq, true_and,
      List.nil_append] at e
    obtain ⟨h1, h2⟩ := pad_end (by decide) _ _ _ (linesEnd_fields fs) (linesEnd_fields gs) e
    exact ⟨(h.2 [] [] (by rw [h1])).1, h2⟩
  · refine h.1 r s ?_
    simpa only [List.append_assoc, List.cons_append, List.append_cancel_left_eq, List.cons.injEq, true_and,
      List.nil_append] using e

theorem struct_sync (n : String) {fs gs : List (String × Text)} {P : Prop} (h : FieldsSync fs gs P) :
    Sync (fmtStruct n fs) (fmtStruct n gs) P := Sync.of_closed fun _ _ e => struct_closed n h e

theorem tuple_sync (n : String) {ts us : List Text} {P : Prop} (h : ItemsSync ts us P) :
    Sync (fmtTuple n ts) (fmtTuple n us) P := by
  refine Sync.of_closed fun r s e => ?_
  unfold fmtTuple at e
  split at e
  · simp only [List.append_assoc, List.cons_append, List.append_cancel_left_eq, List.cons.injEq, true_and,
      List.nil_append] at e
    obtain ⟨h1, h2⟩ := pad_end (by decide) _ _ _ (linesEnd_lines ts) (linesEnd_lines us) e
    exact ⟨(h.2 [] [] (by rw [h1])).1, h2⟩
  · refine h.1 r s ?_
    simpa only [List.append_assoc, List.cons_append, List.append_cancel_left_eq, List.cons.injEq, true_and,
      List.nil_append] using e

theorem variant_one (n : String) {t u : Text} {P : Prop} (h : Sync t u P) :
    Sync (fmtVariant n [t]) (fmtVariant n [u]) P := tuple_sync n (items_one h)

theorem variant_two (n : String) {t u t' u' : Text} {P Q : Prop} (h : Sync t u P) (h' : Sync t' u' Q) :
    Sync (fmtVariant n [t, t']) (fmtVariant n [u, u']) (P ∧ Q) := tuple_sync n (items_two h h')

theorem variant_unit (n : String) {P : Prop} (h : P) : Sync (fmtVariant n []) (fmtVariant n []) P :=
  fun _ _ _ _ e => ⟨h, List.append_cancel_left e⟩

theorem tuple_form (n : String) (ts : List Text) : ∃ w, fmtTuple n ts = n.toList ++ '(' :: w := by
  unfold fmtTuple
  split
  · exact ⟨_, rfl⟩
  · exact ⟨_, rfl⟩

theorem struct_form (n : String) (fs : List (String × Text)) : ∃ w, fmtStruct n fs = n.toList ++ ' ' :: '{' :: w := by
  unfold fmtStruct
  split
  · exact ⟨_, rfl⟩
  · exact ⟨_, rfl⟩

/-- The name of a variant can be read off. -/
theorem variant_name {n m : String} (hn : ∀ x ∈ n.toList, wordChar x = true) (hm : ∀ x ∈ m.toList, wordChar x = true)
    {ts us : List Text} {P : Prop} (h : n = m → Sync (fmtVariant n ts) (fmtVariant m us) P) :
    Sync (fmtVariant n ts) (fmtVariant m us) P := by
  intro r s hr hs e
  have form (n : String) (ts : List Text) (r : Text) (hr : Follows r) :
      ∃ v, fmtVariant n ts ++ r = n.toList ++ v ∧ ∀ x ∈ v.head?, wordChar x = false := by
    cases ts with
    | nil => exact ⟨r, rfl, follows_word hr⟩
    | cons t ts =>
      obtain ⟨w, hw⟩ := tuple_form n (t :: ts)
      refine ⟨'(' :: (w ++ r), ?_, ?_⟩
      · rw [fmtVariant, hw, List.append_assoc, List.cons_append]
      · simp; decide
  obtain ⟨v, h1, hv⟩ := form n ts r hr
  obtain ⟨w, h2, hw⟩ := form m us s hs
  have e' := e
  rw [h1, h2] at e'
  exact h (String.toList_inj.mp (span_eq hn hm hv hw e').1) r s hr hs e

end

/-- Enums without fields: the names are told apart. -/
theorem word_sync {t u : Text} {P : Prop} (ht : ∀ x ∈ t, wordChar x = true) (hu : ∀ x ∈ u, wordChar x = true)
    (h : t = u → P) : Sync t u P := by
  intro r s hr hs e
  obtain ⟨h1, h2⟩ := span_eq ht hu (follows_word hr) (follows_word hs) e
  exact ⟨h h1, h2⟩

/-! ## Numbers -/

theorem fmtDec_digit (n : Nat) : ∀ x ∈ fmtDec n, x.isDigit = true :=
  fun _ h => Nat.isDigit_of_mem_toDigits (by decide) (by decide) h

theorem dec_sync (m n : Nat) : Sync (fmtDec m) (fmtDec n) (m = n) := by
  intro r s hr hs e
  obtain ⟨h1, h2⟩ := span_eq (fmtDec_digit m) (fmtDec_digit n)
    (follows_class (by decide) (by decide) (by decide) (by decide) (by decide) hr)
    (follows_class (by decide) (by decide) (by decide) (by decide) (by decide) hs) e
  exact ⟨fmtDec_inj h1, h2⟩

theorem dec8_sync (m n : UInt8) : Sync (fmtDec m.toNat) (fmtDec n.toNat) (m = n) :=
  (dec_sync _ _).mono UInt8.toNat_inj.mp
theorem dec16_sync (m n : UInt16) : Sync (fmtDec m.toNat) (fmtDec n.toNat) (m = n) :=
  (dec_sync _ _).mono UInt16.toNat_inj.mp
theorem dec64_sync (m n : UInt64) : Sync (fmtDec m.toNat) (fmtDec n.toNat) (m = n) :=
  (dec_sync _ _).mono UInt64.toNat_inj.mp

theorem int8_sync (x y : Int8) : Sync (fmtInt8 x) (fmtInt8 y) (x = y) := by
  have all (x : Int8) : ∀ z ∈ fmtInt8 x, (z.isDigit || z == '-') = true := by
    intro z hz
    unfold fmtInt8 at hz
    split at hz
    · rcases List.mem_cons.mp hz with rfl | hz
      · decide
      · rw [fmtDec_digit _ z hz]; rfl
    · rw [fmtDec_digit _ z hz]; rfl
  intro r s hr hs e
  obtain ⟨h1, h2⟩ := span_eq (p := fun z => z.isDigit || z == '-') (all x) (all y)
    (follows_class (by decide) (by decide) (by decide) (by decide) (by decide) hr)
    (follows_class (by decide) (by decide) (by decide) (by decide) (by decide) hs) e
  exact ⟨fmtInt8_inj h1, h2⟩

theorem bool_sync (a b : Bool) : Sync (fmtBool a) (fmtBool b) (a = b) := by
  have w : ∀ a : Bool, ∀ x ∈ fmtBool a, wordChar x = true := by decide
  exact word_sync (w a) (w b) (by revert a b; decide)

theorem bytes_sync (xs ys : List UInt8) :
    Sync (fmtSlice (fmtDec ·.toNat) xs) (fmtSlice (fmtDec ·.toNat) ys) (xs = ys) :=
  Sync.of_closed fun _ _ e => fmtBytes_inj e

theorem fmtLines_inj : ∀ {xs ys : List UInt8},
    fmtLines (xs.map (fmtDec ·.toNat)) = fmtLines (ys.map (fmtDec ·.toNat)) → xs = ys
  | [], [], _ => rfl
  | x :: xs, y :: ys, h => by
    rw [List.map_cons, List.map_cons, fmtLines, fmtLines] at h
    obtain ⟨rfl, h2⟩ := dec8_sync x y _ _ (follows_comma _) (follows_comma _) h
    simp only [List.cons.injEq, true_and] at h2
    rw [fmtLines_inj h2]
  | [], y :: ys, h => by simp [fmtLines] at h
  | x :: xs, [], h => by simp [fmtLines] at h

theorem list_sync [Style] (xs ys : List UInt8) :
    Sync (fmtList (fmtDec ·.toNat) xs) (fmtList (fmtDec ·.toNat) ys) (xs = ys) := by
  unfold fmtList
  by_cases hz : Style.alternate = true
  · rw [if_pos hz, if_pos hz]
    refine Sync.of_closed fun r s e => ?_
    cases xs with
    | nil =>
      cases ys with
      | nil => exact ⟨rfl, List.append_cancel_left e⟩
      | cons y ys => exact absurd (List.cons.inj (List.cons.inj e).2).1 (by decide)
    | cons x xs =>
      cases ys with
      | nil => exact absurd (List.cons.inj (List.cons.inj e).2).1 (by decide)
      | cons y ys =>
        rw [if_neg (by simp), if_neg (by simp)] at e
        simp only [List.append_assoc, List.cons_append, List.cons.injEq, true_and, List.nil_append] at e
        obtain ⟨h1, h2⟩ := pad_end (by decide) _ _ _ (linesEnd_lines _) (linesEnd_lines _) e
        exact ⟨fmtLines_inj h1, h2⟩
  · rw [if_neg hz, if_neg hz]
    exact bytes_sync _ _

theorem arr_sync [Style] {n : Nat} (xs ys : Arr n) :
    Sync (fmtList (fmtDec ·.toNat) xs.val) (fmtList (fmtDec ·.toNat) ys.val) (xs = ys) :=
  (list_sync _ _).mono Arr.ext'

/-! ## Durations -/

theorem digitChar_digit {d : Nat} (h : d < 10) : (Nat.digitChar d).isDigit = true := by
  revert d; decide

theorem digitChar_inj {d e : Nat} (hd : d < 10) (he : e < 10) (h : Nat.digitChar d = Nat.digitChar e) : d = e := by
  have : ∀ d < 10, ∀ e < 10, Nat.digitChar d = Nat.digitChar e → d = e := by decide
  exact this d hd e he h

theorem fmtFrac_digit : ∀ (n k a : Nat), a < 10 ^ (k + 1) → ∀ x ∈ fmtFrac n a (10 ^ k), x.isDigit = true
  | 0, _, _, _, x, hx => by simp [fmtFrac] at hx
  | n + 1, k, a, ha, x, hx => by
    rw [fmtFrac] at hx
    split at hx
    · simp at hx
    · rcases List.mem_cons.mp hx with rfl | hx
      · exact digitChar_digit (Nat.div_lt_of_lt_mul (by rwa [Nat.pow_succ] at ha))
      · cases k with
        | zero =>
          rw [Nat.pow_zero, Nat.mod_one] at hx
          cases n <;> simp [fmtFrac] at hx
        | succ k =>
          rw [Nat.pow_succ, Nat.mul_div_cancel _ (by decide)] at hx
          exact fmtFrac_digit n k _ (Nat.mod_lt _ (Nat.pow_pos (by decide))) x (by rwa [Nat.pow_succ])

theorem fmtFrac_inj : ∀ (n k a b : Nat), k < n → a < 10 ^ (k + 1) → b < 10 ^ (k + 1) →
    fmtFrac n a (10 ^ k) = fmtFrac n b (10 ^ k) → a = b
  | 0, _, _, _, h, _, _, _ => absurd h (Nat.not_lt_zero _)
  | n + 1, k, a, b, hk, ha, hb, h => by
    rw [fmtFrac, fmtFrac] at h
    by_cases h0 : a = 0 <;> by_cases h1 : b = 0
    · omega
    · rw [if_pos h0, if_neg h1] at h; cases h
    · rw [if_neg h0, if_pos h1] at h; cases h
    · rw [if_neg h0, if_neg h1] at h
      obtain ⟨h2, h3⟩ := List.cons.inj h
      have lt {a : Nat} (ha : a < 10 ^ (k + 1)) : a / 10 ^ k < 10 :=
        Nat.div_lt_of_lt_mul (by rwa [Nat.pow_succ] at ha)
      have h2 := digitChar_inj (lt ha) (lt hb) h2
      have h4 : a % 10 ^ k = b % 10 ^ k := by
        cases k with
        | zero => rw [Nat.pow_zero, Nat.mod_one, Nat.mod_one]
        | succ k =>
          rw [Nat.pow_succ, Nat.mul_div_cancel _ (by decide)] at h3
          have hm (x : Nat) : x % (10 ^ k * 10) < 10 ^ (k + 1) := by
            rw [← Nat.pow_succ]; exact Nat.mod_lt _ (Nat.pow_pos (by decide))
          have := fmtFrac_inj n k _ _ (by omega) (hm a) (hm b) h3
          rwa [Nat.pow_succ]
      rw [← Nat.div_add_mod a (10 ^ k), ← Nat.div_add_mod b (10 ^ k), h2, h4]

/-- Characters of a decimal number. -/
def decimalChar (x : Char) : Bool := x.isDigit || x == '.'

theorem fmtDecimal_char (i k a : Nat) (ha : a < 10 ^ (k + 1)) :
    ∀ x ∈ fmtDecimal i a (10 ^ k), decimalChar x = true := by
  intro x hx
  unfold fmtDecimal at hx
  rcases List.mem_append.mp hx with hx | hx
  · rw [decimalChar, fmtDec_digit _ x hx]; rfl
  · split at hx
    · simp at hx
    · rcases List.mem_cons.mp hx with rfl | hx
      · decide
      · rw [decimalChar, fmtFrac_digit 9 k a ha x hx]; rfl

theorem fmtDecimal_inj {i j k a b : Nat} (hk : k < 9) (ha : a < 10 ^ (k + 1)) (hb : b < 10 ^ (k + 1))
    (h : fmtDecimal i a (10 ^ k) = fmtDecimal j b (10 ^ k)) : i = j ∧ a = b := by
  unfold fmtDecimal at h
  have hd (a : Nat) : ∀ x ∈ (if a = 0 then ([] : Text) else '.' :: fmtFrac 9 a (10 ^ k)).head?, x.isDigit = false := by
    split <;> simp
  obtain ⟨h1, h2⟩ := span_eq (fmtDec_digit i) (fmtDec_digit j) (hd a) (hd b) h
  refine ⟨fmtDec_inj h1, ?_⟩
  by_cases h3 : a = 0 <;> by_cases h4 : b = 0
  · omega
  · rw [if_pos h3, if_neg h4] at h2; cases h2
  · rw [if_neg h3, if_pos h4] at h2; cases h2
  · rw [if_neg h3, if_neg h4] at h2
    exact fmtFrac_inj 9 k a b hk ha hb (List.cons.inj h2).2

theorem duration_sync (d e : Duration) : Sync d.debug e.debug (d = e) := by
  -- the number and the unit
  have form (d : Duration) : ∃ i a k u, d.debug = fmtDecimal i a (10 ^ k) ++ u ∧ a < 10 ^ (k + 1) ∧ k < 9 ∧
      ((u = ['s'] ∧ k = 8 ∧ d.ns = i * 1000000000 + a) ∨ (u = ['m', 's'] ∧ k = 5 ∧ d.ns = i * 1000000 + a) ∨
        (u = ['µ', 's'] ∧ k = 2 ∧ d.ns = i * 1000 + a) ∨ (u = ['n', 's'] ∧ k = 0 ∧ d.ns = i ∧ a = 0)) := by
    unfold Duration.debug
    by_cases h1 : 0 < d.ns / 1000000000
    · exact ⟨_, _, 8, _, by simp only [if_pos h1]; rfl, Nat.mod_lt _ (by decide), by decide,
        Or.inl ⟨rfl, rfl, by omega⟩⟩
    · by_cases h2 : 1000000 ≤ d.ns % 1000000000
      · exact ⟨_, _, 5, _, by simp only [if_neg h1, if_pos h2]; rfl, Nat.mod_lt _ (by decide), by decide,
          Or.inr (Or.inl ⟨rfl, rfl, by omega⟩)⟩
      · by_cases h3 : 1000 ≤ d.ns % 1000000000
        · exact ⟨_, _, 2, _, by simp only [if_neg h1, if_neg h2, if_pos h3]; rfl, Nat.mod_lt _ (by decide), by decide,
            Or.inr (Or.inr (Or.inl ⟨rfl, rfl, by omega⟩))⟩
        · exact ⟨_, 0, 0, _, by simp only [if_neg h1, if_neg h2, if_neg h3]; rfl, by decide, by decide,
            Or.inr (Or.inr (Or.inr ⟨rfl, rfl, by omega, rfl⟩))⟩
  obtain ⟨i, a, k, u, h1, h2, h3, h4⟩ := form d
  obtain ⟨j, b, l, v, g1, g2, g3, g4⟩ := form e
  have hu {u : Text} (h : u = ['s'] ∨ u = ['m', 's'] ∨ u = ['µ', 's'] ∨ u = ['n', 's']) (r : Text) :
      ∀ x ∈ (u ++ r).head?, decimalChar x = false := by
    rcases h with rfl | rfl | rfl | rfl <;> simp <;> decide
  refine Sync.of_closed fun r s h => ?_
  rw [h1, g1, List.append_assoc, List.append_assoc] at h
  obtain ⟨p1, p2⟩ := span_eq (fmtDecimal_char i k a h2) (fmtDecimal_char j l b g2)
    (hu (by rcases h4 with h | h | h | h <;> simp [h.1]) r) (hu (by rcases g4 with h | h | h | h <;> simp [h.1]) s) h
  rcases h4 with h4 | h4 | h4 | h4 <;> rcases g4 with g4 | g4 | g4 | g4 <;>
    obtain ⟨rfl, rfl, h4⟩ := h4 <;> obtain ⟨rfl, rfl, g4⟩ := g4 <;>
    simp only [List.cons_append, List.nil_append, List.cons.injEq, true_and, Char.reduceEq, false_and] at p2
  all_goals
    obtain ⟨rfl, rfl⟩ := fmtDecimal_inj h3 h2 g2 p1
    exact ⟨Duration.ext' (by omega), p2⟩

/-! ## Flags -/

theorem alternatives_sync : ∀ {ws us : List Text}, (∀ w ∈ ws, ∀ x ∈ w, wordChar x = true) →
    (∀ w ∈ us, ∀ x ∈ w, wordChar x = true) → ws ≠ [] → us ≠ [] →
    Sync (fmtAlternatives ws) (fmtAlternatives us) (ws = us)
  | [], _, _, _, h, _ => absurd rfl h
  | _ :: _, [], _, _, _, h => absurd rfl h
  | [w], [u], hw, hu, _, _ => by
    intro r s hr hs e
    obtain ⟨h1, h2⟩ := span_eq (hw w (by simp)) (hu u (by simp)) (follows_word hr) (follows_word hs) e
    exact ⟨by rw [h1], h2⟩
  | [w], u :: u' :: us, hw, hu, _, _ => by
    intro r s hr hs e
    simp only [fmtAlternatives, List.append_assoc, List.cons_append] at e
    obtain ⟨h1, h2⟩ := span_eq (hw w (by simp)) (hu u (by simp)) (follows_word hr) (by simp; decide) e
    rcases hr with rfl | ⟨t, rfl | rfl | rfl | rfl | rfl⟩ <;> simp at h2
  | w :: w' :: ws, [u], hw, hu, _, _ => by
    intro r s hr hs e
    simp only [fmtAlternatives, List.append_assoc, List.cons_append] at e
    obtain ⟨h1, h2⟩ := span_eq (hw w (by simp)) (hu u (by simp)) (by simp; decide) (follows_word hs) e
    rcases hs with rfl | ⟨t, rfl | rfl | rfl | rfl | rfl⟩ <;> simp at h2
  | w :: w' :: ws, u :: u' :: us, hw, hu, _, _ => by
    intro r s hr hs e
    simp only [fmtAlternatives, List.append_assoc, List.cons_append] at e
    obtain ⟨h1, h2⟩ := span_eq (hw w (by simp)) (hu u (by simp)) (by simp; decide) (by simp; decide) e
    simp only [List.cons.injEq, true_and] at h2
    obtain ⟨h3, h4⟩ := alternatives_sync (ws := w' :: ws) (us := u' :: us) (fun x hx => hw x (by simp at hx ⊢; right; exact hx))
      (fun x hx => hu x (by simp at hx ⊢; right; exact hx)) (by simp) (by simp) r s hr hs h2
    exact ⟨by rw [h1, h3], h4⟩

/-- `"(empty)"` is not a list of flags. -/
theorem empty_clash {ws : List Text} (hw : ∀ w ∈ ws, ∀ x ∈ w, wordChar x = true) (hn : ws ≠ []) {r s : Text}
    (hr : Follows r) (e : fmtAlternatives ws ++ r = "(empty)".toList ++ s) : False := by
  have e0 : "(empty)".toList = '(' :: "empty)".toList := by decide
  rw [e0] at e
  match ws, hn with
  | [w], _ =>
    obtain ⟨-, h2⟩ := span_eq (w := []) (hw w (by simp)) (by simp) (follows_word hr) (s := '(' :: ("empty)".toList ++ s))
      (by simp; decide) e
    rcases follows_head hr '(' (by rw [h2]; rfl) with h | h | h | h | h <;> cases h
  | w :: w' :: ws, _ =>
    simp only [fmtAlternatives, List.append_assoc, List.cons_append] at e
    obtain ⟨-, h2⟩ := span_eq (w := []) (hw w (by simp)) (by simp) (by simp; decide) (s := '(' :: ("empty)".toList ++ s))
      (by simp; decide) e
    cases h2

/-- A flag table as Rust accepts it: names are different identifiers, masks are single bits. -/
def SoundTable (t : List FlagDecl) : Prop :=
  (∀ d ∈ t, ∃ k < 64, d.mask.toNat = 2 ^ k) ∧ (∀ d ∈ t, ∀ x ∈ d.name.toList, wordChar x = true) ∧
    (∀ d ∈ t, ∀ e ∈ t, d.name = e.name → d = e)

theorem flags_sync [Style] {c : Cfg} {t : List FlagDecl} (ht : SoundTable t) {x y : UInt64}
    (hx : ∀ j, x.toNat.testBit j = true → Declared64 c t j) (hy : ∀ j, y.toNat.testBit j = true → Declared64 c t j) :
    Sync (fmtFlags c t x) (fmtFlags c t y) (x = y) := by
  obtain ⟨hm, hw, hinj⟩ := ht
  have extra {x : UInt64} (hx : ∀ j, x.toNat.testBit j = true → Declared64 c t j) : x &&& ~~~ allBits c t = 0 := by
    rw [u64_andNot_eq_zero]
    intro j hj
    exact (testBit_allBits c t j).mpr (hx j hj)
  let names (x : UInt64) : List Text :=
    ((t.filter fun d => d.gate.on c).filter fun d => x &&& d.mask = d.mask).map fun d => d.name.toList
  have text {x : UInt64} (hx : ∀ j, x.toNat.testBit j = true → Declared64 c t j) :
      fmtFlags c t x = if (names x).isEmpty then "(empty)".toList else fmtAlternatives (names x) := by
    unfold fmtFlags
    simp only [extra hx, if_true, List.append_nil, names]
  have words (x : UInt64) : ∀ w ∈ names x, ∀ z ∈ w, wordChar z = true := by
    intro w hw'
    simp only [names, List.mem_map, List.mem_filter] at hw'
    obtain ⟨d, ⟨⟨h1, -⟩, -⟩, rfl⟩ := hw'
    exact hw d h1
  have mem (x : UInt64) (d : FlagDecl) (h1 : d ∈ t) (h2 : d.gate.on c = true) :
      x &&& d.mask = d.mask ↔ d.name.toList ∈ names x := by
    simp only [names, List.mem_map, List.mem_filter, decide_eq_true_eq]
    constructor
    · intro h
      exact ⟨d, ⟨⟨h1, h2⟩, h⟩, rfl⟩
    · rintro ⟨e, ⟨⟨h3, -⟩, h5⟩, h6⟩
      obtain rfl := hinj e h3 d h1 (String.toList_inj.mp h6)
      exact h5
  have bitOf (x : UInt64) {d : FlagDecl} {j : Nat} (h1 : d ∈ t) (h3 : d.mask.toNat.testBit j = true) :
      x &&& d.mask = d.mask ↔ x.toNat.testBit j = true := by
    obtain ⟨k, -, hk⟩ := hm d h1
    obtain rfl := (testBit_two_pow_iff hk).mp h3
    constructor
    · intro h
      have := congrArg (fun z => z.toNat.testBit j) h
      simp only [UInt64.toNat_and, Nat.testBit_and, h3, Bool.and_true] at this
      exact this
    · intro h
      apply u64_ext
      intro i
      rw [UInt64.toNat_and, Nat.testBit_and]
      by_cases hi : d.mask.toNat.testBit i = true
      · obtain rfl := (testBit_two_pow_iff hk).mp hi
        rw [h, Bool.true_and]
      · rw [Bool.not_eq_true] at hi
        rw [hi, Bool.and_false]
  have done (h : names x = names y) : x = y := by
    have half {x y : UInt64} (hx : ∀ j, x.toNat.testBit j = true → Declared64 c t j) (h : names x = names y) (j : Nat)
        (hj : x.toNat.testBit j = true) : y.toNat.testBit j = true := by
      obtain ⟨d, h1, h2, h3⟩ := hx j hj
      rw [← bitOf y h1 h3, mem y d h1 h2, ← h, ← mem x d h1 h2, bitOf x h1 h3]
      exact hj
    apply u64_ext
    intro j
    exact Bool.eq_iff_iff.mpr ⟨half hx h j, half hy h.symm j⟩
  rw [text hx, text hy]
  by_cases h1 : (names x).isEmpty = true <;> by_cases h2 : (names y).isEmpty = true
  · rw [if_pos h1, if_pos h2]
    intro r s _ _ e
    exact ⟨done (by rw [List.isEmpty_iff.mp h1, List.isEmpty_iff.mp h2]), List.append_cancel_left e⟩
  · rw [if_pos h1, if_neg h2]
    intro r s hr hs e
    exact (empty_clash (words y) (by simpa using h2) hs e.symm).elim
  · rw [if_neg h1, if_pos h2]
    intro r s hr hs e
    exact (empty_clash (words x) (by simpa using h1) hr e).elim
  · rw [if_neg h1, if_neg h2]
    exact (alternatives_sync (words x) (words y) (by simpa using h1) (by simpa using h2)).mono done

theorem linkLayerFeature_sound : SoundTable linkLayerFeature := by unfold SoundTable; decide +kernel
theorem lmpFeatures_sound : SoundTable lmpFeatures := by unfold SoundTable; decide +kernel
theorem leFeatures_sound : SoundTable leFeatures := by unfold SoundTable; decide +kernel
theorem leStates_sound : SoundTable leStates := by unfold SoundTable; decide +kernel

end Bt
