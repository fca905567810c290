import Verif.Lemmas.JsonValue
/-
String literals written without escaping.
-/
namespace Sadl
open Spec

theorem not_control {c : Char} (h : PlainChar c) : ¬ c.toNat < 32 := by
  have := h.2.2
  have h2 : (' ' : Char).toNat ≤ c.toNat := this
  have h3 : (' ' : Char).toNat = 32 := by decide
  omega

theorem plain_of_not {c : Char} (h1 : c ≠ '"') (h2 : c ≠ '\\') (h3 : ¬ c.toNat < 32) : PlainChar c := by
  refine ⟨h1, h2, ?_⟩
  have h4 : (' ' : Char).toNat = 32 := by decide
  show (' ' : Char).toNat ≤ c.toNat
  omega

theorem jUnits_plains (p r : List Char) (h : ∀ c ∈ p, PlainChar c) :
    jUnits (p ++ r) = (jUnits r).map fun q => (p.map JUnit.chr ++ q.1, q.2) := by
  induction p with
  | nil => simp
  | cons c p ih =>
    have hc := h c (by simp)
    rw [List.cons_append, jUnits_plain _ hc.1 hc.2.1 (not_control hc), ih (fun x hx => h x (List.mem_cons_of_mem _ hx))]
    cases jUnits r <;> rfl

theorem jJoin_plains (p : List Char) (us : List JUnit) : jJoin none (p.map JUnit.chr ++ us) = p ++ jJoin none us := by
  induction p with
  | nil => rfl
  | cons c p ih => simp [jJoin, ih]

theorem jJoin_length (us : List JUnit) :
    (jJoin none us).length ≤ us.length ∧ ∀ h, (jJoin (some h) us).length ≤ us.length + 1 := by
  induction us with
  | nil => simp [jJoin]
  | cons u us ih =>
    cases u with
    | chr c =>
      refine ⟨?_, fun h => ?_⟩
      · simp only [jJoin, List.length_cons]; omega
      · simp only [jJoin, List.length_cons]; omega
    | unit n =>
      refine ⟨?_, fun h => ?_⟩
      · simp only [jJoin]
        split_ifs
        · have := ih.2 n; simp only [List.length_cons]; omega
        · simp only [List.length_cons]; omega
        · simp only [List.length_cons]; omega
      · simp only [jJoin]
        split_ifs
        · simp only [List.length_cons]; omega
        · have := ih.2 n; simp only [List.length_cons]; omega
        · simp only [List.length_cons]; omega

/-- Escapes make a literal longer than what it stands for. -/
theorem jUnits_length : ∀ (n : Nat) (t : List Char), t.length ≤ n → ∀ us r, jUnits t = some (us, r) →
    us.length + 1 + r.length ≤ t.length ∧
    (us.length + 1 + r.length = t.length → ∃ p, t = p ++ '"' :: r ∧ us = p.map JUnit.chr ∧ ∀ c ∈ p, PlainChar c) := by
  intro n
  induction n with
  | zero =>
    intro t ht us r h
    have : t = [] := List.length_eq_zero_iff.1 (by omega)
    subst this
    rw [jUnits.eq_def] at h
    cases h
  | succ n ih =>
    intro t ht us r h
    rw [jUnits.eq_def] at h
    cases t with
    | nil => cases h
    | cons c t =>
      simp only at h
      split_ifs at h with h1 h2 h3
      · simp only [Option.some.injEq, Prod.mk.injEq] at h
        obtain ⟨rfl, rfl⟩ := h
        refine ⟨by simp [Nat.add_comm], fun _ => ⟨[], by simp [h1], rfl, by simp⟩⟩
      · cases t with
        | nil => cases h
        | cons e t =>
          simp only at h
          split_ifs at h with h4
          · match t, h with
            | a :: b :: c' :: d :: t, h =>
              simp only at h
              split at h
              · cases hj : jUnits t with
                | none => rw [hj] at h; cases h
                | some q =>
                  rw [hj] at h
                  simp only [Option.map_some, Option.some.injEq, Prod.mk.injEq] at h
                  obtain ⟨rfl, rfl⟩ := h
                  have := (ih t (by simp only [List.length_cons] at ht; omega) q.1 q.2 hj).1
                  simp only [List.length_cons]
                  exact ⟨by omega, fun hh => by omega⟩
              · cases h
          · split at h
            · cases hj : jUnits t with
              | none => rw [hj] at h; cases h
              | some q =>
                rw [hj] at h
                simp only [Option.map_some, Option.some.injEq, Prod.mk.injEq] at h
                obtain ⟨rfl, rfl⟩ := h
                have := (ih t (by simp only [List.length_cons] at ht; omega) q.1 q.2 hj).1
                simp only [List.length_cons]
                exact ⟨by omega, fun hh => by omega⟩
            · cases h
      · cases hj : jUnits t with
        | none => rw [hj] at h; cases h
        | some q =>
          rw [hj] at h
          simp only [Option.map_some, Option.some.injEq, Prod.mk.injEq] at h
          obtain ⟨rfl, rfl⟩ := h
          obtain ⟨e1, e2⟩ := ih t (by simp only [List.length_cons] at ht; omega) q.1 q.2 hj
          simp only [List.length_cons]
          refine ⟨by omega, fun hh => ?_⟩
          obtain ⟨p, hp1, hp2, hp3⟩ := e2 (by omega)
          refine ⟨c :: p, by rw [hp1]; rfl, by rw [hp2]; rfl, ?_⟩
          intro x hx
          rcases List.mem_cons.1 hx with rfl | hx
          · exact plain_of_not h1 h2 h3
          · exact hp3 x hx

/-- Reading a text that starts with a quote as a string. -/
theorem jToString_open (t : List Char) : jToString ('"' :: t) =
    match jUnits t with
    | some (us, r) => if jSkip r = [] then some (String.ofList (jJoin none us)) else none
    | none => none := by
  unfold jToString jRead
  simp only [List.length_cons]
  rw [show 2 * (t.length + 1) + 2 = (2 * t.length + 3) + 1 from by omega, jValue, jSkip_of_head _ (by decide)]
  simp only [if_true, jString]
  cases jUnits t with
  | none => rfl
  | some p =>
    simp only [Option.map_some]
    by_cases h : jSkip p.2 = []
    · simp [h]
    · simp [h]

/-- A text of plain characters between quotes is a literal for itself. -/
theorem jToString_plain (s : List Char) (h : ∀ c ∈ s, PlainChar c) :
    jToString ('"' :: s ++ ['"']) = some (String.ofList s) := by
  rw [List.cons_append, jToString_open, jUnits_plains s ['"'] h, jUnits_close]
  have := jJoin_plains s []
  rw [jJoin, List.append_nil, List.append_nil] at this
  simp [jSkip, this]

/-- A text between quotes is a literal for itself only if all characters are plain. -/
theorem plain_of_jToString (p s : List Char) (hp : ∀ c ∈ p, PlainChar c)
    (h : jToString ('"' :: (p ++ s) ++ ['"']) = some (String.ofList (p ++ s))) : ∀ c ∈ s, PlainChar c := by
  rw [List.cons_append, jToString_open] at h
  cases hj : jUnits (p ++ s ++ ['"']) with
  | none => rw [hj] at h; cases h
  | some q =>
    obtain ⟨us, r⟩ := q
    rw [hj] at h
    simp only at h
    split_ifs at h with h1
    simp only [Option.some.injEq] at h
    have h2 : jJoin none us = p ++ s := String.ofList_injective h
    obtain ⟨e1, e2⟩ := jUnits_length _ _ (le_refl _) us r hj
    have e3 := (jJoin_length us).1
    rw [h2] at e3
    simp only [List.length_append, List.length_cons, List.length_nil] at e1 e2 e3
    obtain ⟨p', hp1, _, hp3⟩ := e2 (by omega)
    have hr : r = [] := List.length_eq_zero_iff.1 (by omega)
    subst hr
    have : p ++ s = p' := List.append_inj_left' (t₁ := ['"']) (t₂ := ['"']) hp1 rfl
    intro c hc
    exact hp3 c (this ▸ List.mem_append_right _ hc)

/-- What a text that starts with plain characters stands for starts with them. -/
theorem jToString_prefix (p s : List Char) (hp : ∀ c ∈ p, PlainChar c) (w : String)
    (h : jToString ('"' :: (p ++ s) ++ ['"']) = some w) : ∃ s', w = String.ofList (p ++ s') ∧
      (s' = s → jToString ('"' :: (p ++ s) ++ ['"']) = some (String.ofList (p ++ s))) := by
  have h0 := h
  rw [List.cons_append, jToString_open, List.append_assoc, jUnits_plains p _ hp] at h
  cases hj : jUnits (s ++ ['"']) with
  | none => rw [hj] at h; cases h
  | some q =>
    rw [hj] at h
    simp only [Option.map_some] at h
    split_ifs at h with h1
    simp only [Option.some.injEq] at h
    rw [jJoin_plains] at h
    refine ⟨jJoin none q.1, h.symm, fun e => ?_⟩
    rw [h0, ← h, e]

theorem showNat_digits (n : Nat) : ∀ c ∈ showNat n, isDigitC c = true := by
  have : ∀ k n, ∀ c ∈ decAux k n, isDigitC c = true := by
    intro k
    induction k with
    | zero => intro n c hc; simp [decAux] at hc
    | succ k ih =>
      intro n c hc
      rw [decAux] at hc
      have hdig : ∀ d, d < 10 → isDigitC (digitChar d) = true := by decide
      split at hc
      · rename_i h
        simp at hc; subst hc; exact hdig n h
      · rcases List.mem_append.1 hc with h | h
        · exact ih _ c h
        · simp at h; subst h; exact hdig _ (by omega)
  exact this _ n

theorem plain_digit {c : Char} (h : isDigitC c = true) : PlainChar c := by
  simp only [isDigitC, decide_eq_true_eq] at h
  refine plain_of_not ?_ ?_ (by omega)
  · rintro rfl; revert h; decide
  · rintro rfl; revert h; decide

theorem showPad_digits (w n : Nat) : ∀ c ∈ showPad w n, isDigitC c = true := by
  intro c hc
  rcases List.mem_append.1 hc with h | h
  · rw [List.mem_replicate] at h; rw [h.2]; decide
  · exact showNat_digits n c h

theorem showTimestamp_plain (isZero : Civil → Bool) (t : Civil) : ∀ c ∈ showTimestamp isZero t, PlainChar c := by
  have hlit : ∀ c ∈ ['-', 'T', ':', '.', 'Z'], PlainChar c := by
    intro c hc
    simp only [List.mem_cons, List.not_mem_nil, or_false] at hc
    rcases hc with rfl | rfl | rfl | rfl | rfl <;> exact ⟨by decide, by decide, by decide⟩
  have hint : ∀ c ∈ showInt t.year, PlainChar c := by
    intro c hc
    unfold showInt at hc
    split at hc
    · rcases List.mem_cons.1 hc with rfl | hc
      · exact hlit _ (by simp)
      · exact plain_digit (showNat_digits _ c hc)
    · exact plain_digit (showNat_digits _ c hc)
  intro c hc
  unfold showTimestamp at hc
  split at hc
  · cases hc
  · simp only [List.mem_append, List.mem_cons, List.not_mem_nil, or_false] at hc
    have : c ∈ showInt t.year ∨ c ∈ ['-', 'T', ':', '.', 'Z'] ∨ isDigitC c = true := by
      simp only [List.mem_cons, List.not_mem_nil, or_false]
      have hp := fun w n => showPad_digits w n c
      rcases hc with (((((((h | h | h) | h | h) | h | h) | h | h) | h | h) | h | h) | h)
      all_goals first
        | exact Or.inl h
        | (subst h; simp)
        | exact Or.inr (Or.inr (hp _ _ h))
    rcases this with h | h | h
    · exact hint c h
    · exact hlit c h
    · exact plain_digit h

end Sadl
