import Verif.Model.Text
import Verif.Lemmas.Tactics
namespace Sadl

theorem splitFirst_some {c : Char} {s a b : List Char} :
    splitFirst c s = some (a, b) ↔ s = a ++ c :: b ∧ c ∉ a := by
  induction s generalizing a b with
  | nil => simp [splitFirst]
  | cons x r ih =>
    unfold splitFirst
    by_cases h : x = c
    · subst h
      simp only [if_true, Option.some.injEq, Prod.mk.injEq]
      constructor
      · rintro ⟨rfl, rfl⟩; simp
      · rintro ⟨h1, h2⟩
        cases a with
        | nil => simp at h1; exact ⟨rfl, h1⟩
        | cons y a' => simp at h1 h2; exact absurd h1.1 h2.1
    · simp only [h, if_false]
      cases hr : splitFirst c r with
      | none =>
        simp only [reduceCtorEq, false_iff]
        rintro ⟨h1, h2⟩
        cases a with
        | nil => simp at h1; exact h h1.1
        | cons y a' =>
          simp at h1 h2
          have := (ih (a := a') (b := b)).2 ⟨h1.2, h2.2⟩
          rw [hr] at this; cases this
      | some p =>
        obtain ⟨a0, b0⟩ := p
        have h0 := (ih (a := a0) (b := b0)).1 hr
        simp only [Option.some.injEq, Prod.mk.injEq]
        constructor
        · rintro ⟨rfl, rfl⟩
          refine ⟨by simp [h0.1], ?_⟩
          simp only [List.mem_cons, not_or]
          exact ⟨fun e => h e.symm, h0.2⟩
        · rintro ⟨h1, h2⟩
          cases a with
          | nil => simp at h1; exact absurd h1.1 h
          | cons y a' =>
            simp only [List.cons_append, List.cons.injEq, List.mem_cons, not_or] at h1 h2
            have := (ih (a := a') (b := b)).2 ⟨h1.2, h2.2⟩
            rw [hr] at this
            cases this
            exact ⟨by rw [h1.1], rfl⟩

theorem mem_split_first {c : Char} {s : List Char} (hc : c ∈ s) : ∃ a b, s = a ++ c :: b ∧ c ∉ a := by
  induction s with
  | nil => simp at hc
  | cons x r ih =>
    by_cases hx : x = c
    · exact ⟨[], r, by simp [hx], by simp⟩
    · have hr : c ∈ r := by
        rcases List.mem_cons.1 hc with h | h
        · exact absurd h.symm hx
        · exact h
      obtain ⟨a, b, e, hn⟩ := ih hr
      refine ⟨x :: a, b, by simp [e], ?_⟩
      simp only [List.mem_cons, not_or]
      exact ⟨fun e => hx e.symm, hn⟩

theorem splitFirst_none {c : Char} {s : List Char} : splitFirst c s = none ↔ c ∉ s := by
  constructor
  · intro h hc
    obtain ⟨a, b, rfl, hn⟩ := mem_split_first hc
    rw [(splitFirst_some).2 ⟨rfl, hn⟩] at h; cases h
  · intro h
    cases hs : splitFirst c s with
    | none => rfl
    | some p =>
      obtain ⟨a, b⟩ := p
      have := (splitFirst_some.1 hs).1
      rw [this] at h; simp at h

theorem byteLen_eq (s : String) : byteLen s.toList = s.utf8ByteSize := by
  unfold byteLen bytesOf
  rw [String.utf8ByteSize, ← String.utf8Encode_toList, List.utf8Encode, List.size_toByteArray]

end Sadl

namespace Sadl

theorem joinWith_eq (c : Char) (ws : List (List Char)) : joinWith c ws = List.intercalate [c] ws := by
  induction ws with
  | nil => rfl
  | cons w r ih =>
    cases r with
    | nil => simp [joinWith, List.intercalate]
    | cons w' r' =>
      simp only [joinWith, ih]
      simp [List.intercalate, List.intersperse]

theorem splitAll_ne_nil (c : Char) (s : List Char) : splitAll c s ≠ [] := by
  cases s with
  | nil => simp [splitAll]
  | cons x r =>
    unfold splitAll
    split_ifs
    · simp
    · split <;> simp

theorem joinWith_splitAll (c : Char) (s : List Char) : joinWith c (splitAll c s) = s := by
  induction s with
  | nil => rfl
  | cons x r ih =>
    unfold splitAll
    split_ifs with h
    · subst h
      have := splitAll_ne_nil x r
      cases hs : splitAll x r with
      | nil => exact absurd hs this
      | cons w ws => rw [hs] at ih; simp [joinWith, ih]
    · cases hs : splitAll c r with
      | nil => exact absurd hs (splitAll_ne_nil c r)
      | cons w ws =>
        rw [hs] at ih
        cases ws with
        | nil => simpa [joinWith] using ih
        | cons w' ws' => simp only [joinWith, List.cons_append] at ih ⊢; rw [ih]

theorem not_mem_splitAll (c : Char) (s : List Char) : ∀ w ∈ splitAll c s, c ∉ w := by
  induction s with
  | nil => simp [splitAll]
  | cons x r ih =>
    unfold splitAll
    split_ifs with h
    · simpa using ih
    · cases hs : splitAll c r with
      | nil => exact absurd hs (splitAll_ne_nil c r)
      | cons w ws =>
        rw [hs] at ih
        simp only [List.mem_cons, forall_eq_or_imp] at ih ⊢
        refine ⟨?_, ih.2⟩
        rintro (e | e)
        · exact h e.symm
        · exact ih.1 e

theorem splitAll_not_mem {c : Char} {w : List Char} (h : c ∉ w) : splitAll c w = [w] := by
  induction w with
  | nil => rfl
  | cons x r ih =>
    simp only [List.mem_cons, not_or] at h
    rw [splitAll, if_neg (fun e => h.1 e.symm), ih h.2]

theorem splitAll_append {c : Char} {w : List Char} (h : c ∉ w) (r : List Char) :
    splitAll c (w ++ c :: r) = w :: splitAll c r := by
  induction w with
  | nil => simp [splitAll]
  | cons x w' ih =>
    simp only [List.mem_cons, not_or] at h
    rw [List.cons_append, splitAll, if_neg (fun e => h.1 e.symm), ih h.2]

theorem splitAll_joinWith {c : Char} {ws : List (List Char)} (hne : ws ≠ []) (h : ∀ w ∈ ws, c ∉ w) :
    splitAll c (joinWith c ws) = ws := by
  induction ws with
  | nil => exact absurd rfl hne
  | cons w r ih =>
    cases r with
    | nil => exact splitAll_not_mem (h w (by simp))
    | cons w' r' =>
      rw [joinWith, splitAll_append (h w (by simp)), ih (by simp) (fun x hx => h x (by simp [hx]))]
      simp

end Sadl
