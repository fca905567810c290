import Verif.Lemmas.TraceExport
import Verif.Props.Helpers
/-
The messages of a trace.
-/
namespace Sadl
open Spec

theorem intercalate_flat {α : Type} (c : α) (x : List α) (l : List (List α)) :
    List.intercalate [c] (x :: l) = x ++ l.flatMap (c :: ·) := by
  induction l generalizing x with
  | nil => simp [List.intercalate]
  | cons y r ih =>
    have := ih y
    simp only [List.intercalate, List.intersperse, List.flatten_cons] at this ⊢
    simp only [List.flatMap_cons]
    rw [this]
    simp

/-- The query part of a template as pieces. -/
def queryPieces : List (List Char × String) → List Piece
  | [] => []
  | q :: r => .lit ('?' :: q.1 ++ ['=']) :: .var q.2 :: r.flatMap fun q => [.lit ('&' :: q.1 ++ ['=']), .var q.2]

theorem queryPieces_text (g : Piece → List Char) (hg : ∀ s, g (.lit s) = s) (qs : List (List Char × String)) :
    (queryPieces qs).flatMap g =
      if qs = [] then [] else '?' :: List.intercalate ['&'] (qs.map fun q => q.1 ++ '=' :: g (.var q.2)) := by
  cases qs with
  | nil => rfl
  | cons q r =>
    simp only [queryPieces, List.flatMap_cons, hg, List.map_cons, List.cons_ne_nil, if_false, intercalate_flat]
    have : (r.flatMap fun q => [Piece.lit ('&' :: q.1 ++ ['=']), .var q.2]).flatMap g =
        (r.map fun q => q.1 ++ '=' :: g (.var q.2)).flatMap ('&' :: ·) := by
      induction r with
      | nil => rfl
      | cons y t ih =>
        simp only [List.cons_append] at ih
        simp [List.flatMap_cons, hg, ih]
    rw [this]
    simp

theorem mem_queryPieces_lit {qs : List (List Char × String)} {s : List Char} (h : Piece.lit s ∈ queryPieces qs) :
    ∃ q ∈ qs, s = '?' :: q.1 ++ ['='] ∨ s = '&' :: q.1 ++ ['='] := by
  cases qs with
  | nil => simp [queryPieces] at h
  | cons q r =>
    simp only [queryPieces, List.mem_cons, Piece.lit.injEq, reduceCtorEq, false_or, List.mem_flatMap, List.not_mem_nil, or_false] at h
    rcases h with h | ⟨q', hq, h⟩
    · exact ⟨q, List.mem_cons_self, .inl h⟩
    · exact ⟨q', List.mem_cons_of_mem _ hq, .inr h⟩

theorem mem_queryPieces_var {qs : List (List Char × String)} {n : String} (h : Piece.var n ∈ queryPieces qs) :
    ∃ k, (k, n) ∈ qs := by
  cases qs with
  | nil => simp [queryPieces] at h
  | cons q r =>
    simp only [queryPieces, List.mem_cons, Piece.var.injEq, reduceCtorEq, false_or, List.mem_flatMap, List.not_mem_nil, or_false] at h
    rcases h with h | ⟨q', hq, h⟩
    · exact ⟨q.1, by simp [h]⟩
    · exact ⟨q'.1, by simp [h, hq]⟩

/-- The path of the request with the values of the example, before the missing parameters are
removed. -/
theorem request_path {L : TLib} {req : GoMap Value} {h : HttpDef} {ps : List Piece} {qs : List (List Char × String)}
    {value : String → List Char} (ht : IsTemplate h.path.toList ps qs)
    (hin : ∀ n, Piece.var n ∈ ps ∨ (∃ k, (k, n) ∈ qs) → ∃ p ∈ h.inputs, InUri p ∧ p.field.name = n)
    (hnames : ∀ p ∈ h.inputs, InUri p → '}' ∉ p.field.name.toList)
    (hval : ∀ n, Piece.var n ∈ ps ∨ (∃ k, (k, n) ∈ qs) → (stringExample L (mget req n)).toList = value n)
    (hbr : ∀ n, Piece.var n ∈ ps ∨ (∃ k, (k, n) ∈ qs) → '{' ∉ value n) :
    (traceInputs L req h.inputs { path := h.path.toList }).path =
      ps.flatMap (Piece.filled value) ++
        (if qs = [] then [] else '?' :: List.intercalate ['&'] (qs.map fun q => q.1 ++ '=' :: value q.2)) := by
  have mem : ∀ {n}, Piece.var n ∈ ps ++ queryPieces qs → Piece.var n ∈ ps ∨ (∃ k, (k, n) ∈ qs) := by
    intro n hn
    rcases List.mem_append.1 hn with hn | hn
    · exact .inl hn
    · exact .inr (mem_queryPieces_var hn)
  rw [traceInputs_path L req (ps ++ queryPieces qs) ?_ ?_ ?_ h.inputs hnames { path := h.path.toList } (fun _ => none)
    (by simp) ?_]
  · have e : (ps ++ queryPieces qs).flatMap (showPiece fun x => if ((fun _ => none : String → Option (List Char)) x).isSome ∨
        ∃ p ∈ h.inputs, InUri p ∧ p.field.name = x then some (stringExample L (mget req x)).toList else none) =
        (ps ++ queryPieces qs).flatMap (Piece.filled value) := by
      rw [List.flatMap_def, List.flatMap_def]
      congr 1
      apply List.map_congr_left
      intro p hp
      cases p with
      | lit s => rfl
      | var n =>
        have hm := mem hp
        rw [showPiece, if_pos (.inr (hin n hm)), hval n hm]
        rfl
    rw [e, List.flatMap_append, queryPieces_text (Piece.filled value) (fun _ => rfl)]
    rfl
  · intro s hs
    rcases List.mem_append.1 hs with hs | hs
    · exact (ht.lits s hs).1
    · obtain ⟨q, hq, rfl | rfl⟩ := mem_queryPieces_lit hs
      · simp [(ht.keys q hq).1]
      · simp [(ht.keys q hq).1]
  · intro n hn; exact ht.vars n (mem hn)
  · intro n hn
    rw [hval n (mem hn)]
    exact hbr n (mem hn)
  · have : showPiece (fun _ => none) = Piece.text := by
      funext p; cases p <;> rfl
    rw [this, List.flatMap_append, queryPieces_text Piece.text (fun _ => rfl)]
    exact ht.text

theorem unreserved_not {c : Char} (h : Unreserved c) : c ≠ '{' ∧ c ≠ '?' ∧ c ≠ '&' ∧ c ≠ '=' ∧ c ≠ '\n' := by
  refine ⟨?_, ?_, ?_, ?_, ?_⟩ <;> (rintro rfl; revert h; unfold Unreserved; decide)

/-- The missing parameters are removed. -/
theorem strip_target {ps : List Piece} {qs : List (List Char × String)} {value : String → List Char}
    (hl : ∀ s, Piece.lit s ∈ ps → '?' ∉ s) (hk : ∀ q ∈ qs, '&' ∉ q.1)
    (hu : ∀ n, Piece.var n ∈ ps ∨ (∃ k, (k, n) ∈ qs) → ∀ c ∈ value n, Unreserved c) :
    stripMissing (ps.flatMap (Piece.filled value) ++
        (if qs = [] then [] else '?' :: List.intercalate ['&'] (qs.map fun q => q.1 ++ '=' :: value q.2))) =
      targetOf value ps qs := by
  have hq : '?' ∉ ps.flatMap (Piece.filled value) := by
    intro hc
    obtain ⟨p, hp, hm⟩ := List.mem_flatMap.1 hc
    cases p with
    | lit s => exact hl s hp hm
    | var n => exact (unreserved_not (hu n (.inl hp) _ hm)).2.1 rfl
  unfold targetOf
  by_cases hqs : qs = []
  · subst hqs
    simp only [if_true, List.append_nil, List.filter_nil]
    exact Props.C43_no_query _ hq
  · rw [if_neg hqs]
    have key := Props.C43_strip_partial (ps.flatMap (Piece.filled value)) (qs.map fun q => (q.1, value q.2)) hq
      (by simpa using hqs) ?_ ?_
    · simp only [List.map_map] at key
      rw [show (fun q : List Char × String => q.1 ++ '=' :: value q.2) =
        ((fun p : List Char × List Char => p.1 ++ '=' :: p.2) ∘ fun q => (q.1, value q.2)) from rfl, key]
      rw [List.filter_map]
      have e1 : qs.filter ((fun p : List Char × List Char => decide (p.2 ≠ [])) ∘ fun q => (q.1, value q.2)) =
          qs.filter (fun q => decide (value q.2 ≠ [])) := rfl
      rw [e1]
      by_cases hf : qs.filter (fun q => decide (value q.2 ≠ [])) = []
      · rw [if_pos (by rw [hf]; rfl), if_pos hf, List.append_nil]
      · rw [if_neg (by simpa using hf), if_neg hf]
        simp [Function.comp_def]
    · intro p hp
      obtain ⟨q, hq', rfl⟩ := List.mem_map.1 hp
      exact ⟨hk q hq', fun hc => (unreserved_not (hu q.2 (.inr ⟨q.1, hq'⟩) _ hc)).2.2.1 rfl⟩
    · intro p hp hc
      obtain ⟨q, hq', rfl⟩ := List.mem_map.1 hp
      exact (unreserved_not (hu q.2 (.inr ⟨q.1, hq'⟩) _ (List.mem_of_getLast? hc))).2.2.2.1 rfl

/-- The target has no newline. -/
theorem target_no_newline {ps : List Piece} {qs : List (List Char × String)} {value : String → List Char}
    (hl : ∀ s, Piece.lit s ∈ ps → '\n' ∉ s) (hk : ∀ q ∈ qs, '\n' ∉ q.1)
    (hu : ∀ n, Piece.var n ∈ ps ∨ (∃ k, (k, n) ∈ qs) → ∀ c ∈ value n, Unreserved c) :
    '\n' ∉ targetOf value ps qs := by
  unfold targetOf
  intro hc
  rcases List.mem_append.1 hc with hc | hc
  · obtain ⟨p, hp, hm⟩ := List.mem_flatMap.1 hc
    cases p with
    | lit s => exact hl s hp hm
    | var n => exact (unreserved_not (hu n (.inl hp) _ hm)).2.2.2.2 rfl
  · split at hc
    · simp at hc
    · simp only [List.mem_cons] at hc
      rcases hc with hc | hc
      · exact absurd hc (by decide)
      · generalize hr : qs.filter (fun q => decide (value q.2 ≠ [])) = r at hc
        have hsub : ∀ q ∈ r, q ∈ qs := by
          intro q hq; rw [← hr] at hq; exact (List.mem_filter.1 hq).1
        have item : ∀ q ∈ r, '\n' ∉ q.1 ++ '=' :: value q.2 := by
          intro q hq hm
          simp only [List.mem_append, List.mem_cons] at hm
          rcases hm with hm | hm | hm
          · exact hk q (hsub q hq) hm
          · exact absurd hm (by decide)
          · exact (unreserved_not (hu q.2 (.inr ⟨q.1, hsub q hq⟩) _ hm)).2.2.2.2 rfl
        cases r with
        | nil => simp [List.intercalate] at hc
        | cons q t =>
          rw [List.map_cons, intercalate_flat] at hc
          rcases List.mem_append.1 hc with hc | hc
          · exact item q List.mem_cons_self hc
          · obtain ⟨w, hw, hm⟩ := List.mem_flatMap.1 hc
            obtain ⟨q', hq', rfl⟩ := List.mem_map.1 hw
            simp only [List.mem_cons] at hm
            rcases hm with hm | hm
            · exact absurd hm (by decide)
            · exact item q' (List.mem_cons_of_mem _ hq') hm

theorem find_eq_getLast {α : Type} {p : α → Bool} {l : List α} (h : (l.filter p).length ≤ 1) :
    (l.filter p).getLast? = l.find? p := by
  rw [← List.head?_filter]
  rcases hf : l.filter p with _ | ⟨x, _ | ⟨y, t⟩⟩
  · rfl
  · rfl
  · rw [hf] at h; simp at h

end Sadl
