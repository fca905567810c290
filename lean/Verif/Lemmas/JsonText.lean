import Verif.Model.Json
import Mathlib.Tactic.SplitIfs
import Mathlib.Tactic.IntervalCases
/-
What encoding/json writes, encoding/json reads.
-/
namespace Sadl

/-! ### String literals -/

theorem jUnhex_hexChar {n : Nat} (h : n < 16) : jUnhex (jHexChar n) = some n := by
  interval_cases n <;> decide

theorem jUnhex4_hex4 {n : Nat} (h : n < 65536) :
    jUnhex4 (jHexChar (n / 4096 % 16)) (jHexChar (n / 256 % 16)) (jHexChar (n / 16 % 16)) (jHexChar (n % 16)) = some n := by
  unfold jUnhex4
  rw [jUnhex_hexChar (by omega), jUnhex_hexChar (by omega), jUnhex_hexChar (by omega), jUnhex_hexChar (by omega)]
  simp only [Option.some.injEq]
  omega

theorem ofNat_toNat (c : Char) : Char.ofNat c.toNat = c := Char.ofNat_toNat c

theorem jUnits_close (r : List Char) : jUnits ('"' :: r) = some ([], r) := by
  rw [jUnits.eq_def]; simp

theorem jUnits_short {e ch : Char} (r : List Char) (hu : e ≠ 'u') (he : jUnescape e = some ch) :
    jUnits ('\\' :: e :: r) = (jUnits r).map (fun p => (.chr ch :: p.1, p.2)) := by
  rw [jUnits.eq_def]; simp [hu, he]

theorem jUnits_long {a b c d : Char} {n : Nat} (r : List Char) (h : jUnhex4 a b c d = some n) :
    jUnits ('\\' :: 'u' :: a :: b :: c :: d :: r) = (jUnits r).map (fun p => (.unit n :: p.1, p.2)) := by
  rw [jUnits.eq_def]; simp [h]

theorem jUnits_plain {c : Char} (r : List Char) (h1 : c ≠ '"') (h2 : c ≠ '\\') (h3 : ¬ c.toNat < 32) :
    jUnits (c :: r) = (jUnits r).map (fun p => (.chr c :: p.1, p.2)) := by
  rw [jUnits.eq_def]; simp [h1, h2, h3]

/-- One escaped character is read as one unit that stands for that character. -/
theorem jUnits_escape (html : Bool) (c : Char) (r : List Char) : ∃ u : JUnit,
    jUnits (jEscape html c ++ r) = (jUnits r).map (fun p => (u :: p.1, p.2)) ∧
    ∀ us, jJoin none (u :: us) = c :: jJoin none us := by
  unfold jEscape
  split_ifs with h1 h2 h3 h4 h5 h6 h7 h8
  · subst h1; exact ⟨.chr '"', jUnits_short r (by decide) (by decide), fun us => by simp [jJoin]⟩
  · subst h2; exact ⟨.chr '\\', jUnits_short r (by decide) (by decide), fun us => by simp [jJoin]⟩
  · refine ⟨.chr (Char.ofNat 8), jUnits_short r (by decide) (by decide), fun us => ?_⟩
    rw [jJoin, ← h3, ofNat_toNat]
  · refine ⟨.chr (Char.ofNat 12), jUnits_short r (by decide) (by decide), fun us => ?_⟩
    rw [jJoin, ← h4, ofNat_toNat]
  · subst h5; exact ⟨.chr '\n', jUnits_short r (by decide) (by decide), fun us => by simp [jJoin]⟩
  · subst h6; exact ⟨.chr '\r', jUnits_short r (by decide) (by decide), fun us => by simp [jJoin]⟩
  · subst h7; exact ⟨.chr '\t', jUnits_short r (by decide) (by decide), fun us => by simp [jJoin]⟩
  · have hb : c.toNat < 0xD800 := by
      rcases h8 with h | h | h | ⟨_, h | h | h⟩
      · omega
      · omega
      · omega
      all_goals (subst h; decide)
    refine ⟨.unit c.toNat, ?_, fun us => ?_⟩
    · exact jUnits_long r (jUnhex4_hex4 (by omega))
    · have hh : jHigh c.toNat = false := by simp only [jHigh, decide_eq_false_iff_not]; omega
      have hl : jLow c.toNat = false := by simp only [jLow, decide_eq_false_iff_not]; omega
      simp [jJoin, hh, hl, ofNat_toNat]
  · refine ⟨.chr c, ?_, fun us => by simp [jJoin]⟩
    have : ¬ c.toNat < 32 := fun h => h8 (Or.inl h)
    exact jUnits_plain r h1 h2 this

/-- What was quoted is read back. -/
theorem jUnits_quoted (html : Bool) (s r : List Char) : ∃ us,
    jUnits (s.flatMap (jEscape html) ++ '"' :: r) = some (us, r) ∧ jJoin none us = s := by
  induction s with
  | nil => exact ⟨[], by simp [jUnits_close], rfl⟩
  | cons c s ih =>
    obtain ⟨us, h1, h2⟩ := ih
    obtain ⟨u, e1, e2⟩ := jUnits_escape html c (s.flatMap (jEscape html) ++ '"' :: r)
    refine ⟨u :: us, ?_, by rw [e2, h2]⟩
    rw [List.flatMap_cons, List.append_assoc, e1, h1]
    rfl

theorem jString_quoted (html : Bool) (s r : List Char) :
    jString (s.flatMap (jEscape html) ++ '"' :: r) = some (String.ofList s, r) := by
  obtain ⟨us, h1, h2⟩ := jUnits_quoted html s r
  rw [jString, h1, Option.map_some, h2]

/-! ### Numbers -/

/-- A text that cannot continue a number. -/
def NumStop (r : List Char) : Prop :=
  ∀ c r', r = c :: r' → isDigitC c = false ∧ c ≠ '.' ∧ c ≠ 'e' ∧ c ≠ 'E'

theorem jDigits_append (t : List Char) {r : List Char} (h : NumStop r) :
    jDigits (t ++ r) = ((jDigits t).1, (jDigits t).2 ++ r) := by
  induction t with
  | nil =>
    cases r with
    | nil => rfl
    | cons c r => simp [jDigits, (h c r rfl).1]
  | cons c t ih =>
    simp only [List.cons_append, jDigits]
    split
    · rw [ih]
    · rfl

theorem jInt_append {t a b : List Char} {r : List Char} (h : NumStop r) (ht : jInt t = some (a, b)) :
    jInt (t ++ r) = some (a, b ++ r) := by
  cases t with
  | nil => simp [jInt] at ht
  | cons c t =>
    simp only [jInt, List.cons_append] at ht ⊢
    split_ifs at ht ⊢
    · simp at ht; obtain ⟨rfl, rfl⟩ := ht; rfl
    · simp at ht; obtain ⟨rfl, rfl⟩ := ht; rw [jDigits_append t h]

theorem jFrac_append {t a b : List Char} {r : List Char} (h : NumStop r) (ht : jFrac t = some (a, b)) :
    jFrac (t ++ r) = some (a, b ++ r) := by
  cases t with
  | nil =>
    simp [jFrac] at ht
    obtain ⟨rfl, rfl⟩ := ht
    cases r with
    | nil => rfl
    | cons c r => simp [jFrac, (h c r rfl).2.1]
  | cons c t =>
    simp only [jFrac, List.cons_append] at ht ⊢
    split_ifs at ht ⊢
    · rw [jDigits_append t h]
      cases hd : jDigits t with
      | mk ds r' =>
        rw [hd] at ht
        cases ds with
        | nil => simp at ht
        | cons d ds => simp at ht ⊢; obtain ⟨rfl, rfl⟩ := ht; simp
    · simp at ht; obtain ⟨rfl, rfl⟩ := ht; rfl

theorem jExp_append {t a b : List Char} {r : List Char} (h : NumStop r) (ht : jExp t = some (a, b)) :
    jExp (t ++ r) = some (a, b ++ r) := by
  cases t with
  | nil =>
    simp [jExp] at ht
    obtain ⟨rfl, rfl⟩ := ht
    cases r with
    | nil => rfl
    | cons c r => simp [jExp, (h c r rfl).2.2.1, (h c r rfl).2.2.2]
  | cons c t =>
    simp only [jExp, List.cons_append] at ht ⊢
    split_ifs at ht ⊢
    · cases t with
      | nil => simp [jSign, jDigits] at ht
      | cons x t =>
        have hs : jSign (x :: t ++ r) = ((jSign (x :: t)).1, (jSign (x :: t)).2 ++ r) := by
          simp only [jSign, List.cons_append]; split <;> rfl
        rw [hs]
        simp only
        rw [jDigits_append _ h]
        cases hd : jDigits (jSign (x :: t)).2 with
        | mk ds r' =>
          rw [hd] at ht
          cases ds with
          | nil => simp at ht
          | cons d ds => simp at ht ⊢; obtain ⟨rfl, rfl⟩ := ht; simp
    · simp at ht; obtain ⟨rfl, rfl⟩ := ht; rfl

/-- The parts of a number after its sign. -/
def jUnsigned (m s : List Char) : Option (List Char × List Char) :=
  match jInt s with
  | none => none
  | some (i, s) =>
    match jFrac s with
    | none => none
    | some (f, s) =>
      match jExp s with
      | none => none
      | some (e, s) => some (m ++ i ++ f ++ e, s)

theorem jNumber_neg (s : List Char) : jNumber ('-' :: s) = jUnsigned ['-'] s := rfl
theorem jNumber_pos {c : Char} (s : List Char) (h : c ≠ '-') : jNumber (c :: s) = jUnsigned [] (c :: s) := by
  unfold jNumber
  split
  rename_i m t heq
  split at heq
  · rename_i h'; simp at h'; exact absurd h'.1 h
  · simp at heq; obtain ⟨rfl, rfl⟩ := heq; rfl

theorem jNumber_append {t a b : List Char} {r : List Char} (h : NumStop r) (ht : jNumber t = some (a, b)) :
    jNumber (t ++ r) = some (a, b ++ r) := by
  have key : ∀ m s a b, jUnsigned m s = some (a, b) → jUnsigned m (s ++ r) = some (a, b ++ r) := by
    intro m s a b hs
    unfold jUnsigned at hs ⊢
    cases h1 : jInt s with
    | none => simp [h1] at hs
    | some p =>
      obtain ⟨i, s1⟩ := p
      rw [jInt_append h h1]
      simp only [h1] at hs ⊢
      cases h2 : jFrac s1 with
      | none => simp [h2] at hs
      | some p =>
        obtain ⟨f, s2⟩ := p
        rw [jFrac_append h h2]
        simp only [h2] at hs ⊢
        cases h3 : jExp s2 with
        | none => simp [h3] at hs
        | some p =>
          obtain ⟨e, s3⟩ := p
          rw [jExp_append h h3]
          simp only [h3, Option.some.injEq, Prod.mk.injEq] at hs ⊢
          obtain ⟨rfl, rfl⟩ := hs
          exact ⟨rfl, rfl⟩
  cases t with
  | nil => simp [jNumber, jInt] at ht
  | cons c t =>
    by_cases hc : c = '-'
    · subst hc
      rw [jNumber_neg] at ht
      rw [List.cons_append, jNumber_neg]
      exact key _ _ _ _ ht
    · rw [jNumber_pos _ hc] at ht
      rw [List.cons_append, jNumber_pos _ hc]
      exact key _ _ _ _ ht

/-- The first character of a number. -/
theorem jNumber_head {t a b : List Char} (ht : jNumber t = some (a, b)) :
    ∃ c t', t = c :: t' ∧ (c = '-' ∨ isDigitC c = true) := by
  cases t with
  | nil => simp [jNumber, jInt] at ht
  | cons c t =>
    refine ⟨c, t, rfl, ?_⟩
    by_contra hc
    push Not at hc
    rw [jNumber_pos _ hc.1] at ht
    have h0 : c ≠ '0' := by rintro rfl; exact hc.2 (by decide)
    simp [jUnsigned, jInt, h0, hc.2] at ht

end Sadl
