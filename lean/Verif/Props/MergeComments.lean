import Verif.Model.Literal
import Verif.Lemmas.Tactics
/-
C29: merging of comments.
-/
namespace Sadl.Props
open Sadl

/-- The characters that are not blank. -/
def inked (s : String) : List Char := s.toList.filter (fun c => !isSpaceCh c)

/-- No blank at either end. -/
def Trimmed (s : String) : Prop :=
  (∀ c ∈ s.toList.head?, isSpaceCh c = false) ∧ (∀ c ∈ s.toList.getLast?, isSpaceCh c = false)

/-- The comment has a character that is not blank, or is empty. -/
def NotBlank (s : String) : Prop := s = "" ∨ ∃ c ∈ s.toList, isSpaceCh c = false

theorem filter_dropWhile (l : List Char) :
    (l.dropWhile isSpaceCh).filter (fun c => !isSpaceCh c) = l.filter (fun c => !isSpaceCh c) := by
  induction l with
  | nil => rfl
  | cons a r ih =>
    rw [List.dropWhile_cons]
    split_ifs with h
    · rw [ih, List.filter_cons_of_neg (by simp [h])]
    · rfl

theorem inked_trimL (l : List Char) :
    (trimSpaceL l).filter (fun c => !isSpaceCh c) = l.filter (fun c => !isSpaceCh c) := by
  unfold trimSpaceL
  rw [List.filter_reverse, filter_dropWhile, ← List.filter_reverse, List.reverse_reverse, filter_dropWhile]

theorem inked_trim (s : String) : inked (trimSpace s) = inked s := by
  unfold inked trimSpace; rw [String.toList_ofList, inked_trimL]

theorem head_dropWhile (l : List Char) : ∀ c ∈ (l.dropWhile isSpaceCh).head?, isSpaceCh c = false := by
  induction l with
  | nil => simp
  | cons a r ih =>
    rw [List.dropWhile_cons]
    split_ifs with h
    · exact ih
    · simpa using h

theorem dropWhile_id {l : List Char} (h : ∀ c ∈ l.head?, isSpaceCh c = false) : l.dropWhile isSpaceCh = l := by
  cases l with
  | nil => rfl
  | cons a r => rw [List.dropWhile_cons, if_neg (by simpa using h)]

theorem trimmed_trimL (l : List Char) :
    (∀ c ∈ (trimSpaceL l).head?, isSpaceCh c = false) ∧ (∀ c ∈ (trimSpaceL l).getLast?, isSpaceCh c = false) := by
  unfold trimSpaceL
  refine ⟨?_, ?_⟩
  · -- trimming at the end keeps the first character
    intro c hc
    rw [List.head?_reverse] at hc
    have hsuf : (l.dropWhile isSpaceCh).reverse.dropWhile isSpaceCh <:+ (l.dropWhile isSpaceCh).reverse :=
      List.dropWhile_suffix _
    obtain ⟨pre, hpre⟩ := hsuf
    have : c ∈ (l.dropWhile isSpaceCh).reverse.getLast? := by
      rw [← hpre]
      cases hd : (l.dropWhile isSpaceCh).reverse.dropWhile isSpaceCh with
      | nil => rw [hd] at hc; simp at hc
      | cons x xs => rw [hd] at hc; rw [List.getLast?_append]; simp only [Option.mem_def] at hc; rw [hc]; rfl
    rw [List.getLast?_reverse] at this
    exact head_dropWhile l c this
  · intro c hc
    rw [List.getLast?_reverse] at hc
    exact head_dropWhile _ c hc

theorem trimmed_trim (s : String) : Trimmed (trimSpace s) := by
  unfold Trimmed trimSpace; rw [String.toList_ofList]; exact trimmed_trimL _

theorem trimL_of_trimmed {l : List Char} (h1 : ∀ c ∈ l.head?, isSpaceCh c = false)
    (h2 : ∀ c ∈ l.getLast?, isSpaceCh c = false) : trimSpaceL l = l := by
  unfold trimSpaceL
  rw [dropWhile_id h1, dropWhile_id (by rwa [List.head?_reverse]), List.reverse_reverse]

theorem trim_of_trimmed {s : String} (h : Trimmed s) : trimSpace s = s := by
  unfold trimSpace; rw [trimL_of_trimmed h.1 h.2, String.ofList_toList]

theorem merge_both {a b : String} (ha : a ≠ "") (hb : b ≠ "") :
    mergeComment a b = trimSpace a ++ " " ++ trimSpace b := by
  unfold mergeComment; rw [if_neg ha, if_neg hb]

theorem ofList_ne_empty {l : List Char} : String.ofList l ≠ "" ↔ l ≠ [] := by
  constructor
  · rintro h rfl; exact h rfl
  · intro h e
    have := congrArg String.toList e
    rw [String.toList_ofList] at this; exact h this

theorem trim_ne_empty {s : String} (h : ∃ c ∈ s.toList, isSpaceCh c = false) : trimSpace s ≠ "" := by
  unfold trimSpace
  rw [ofList_ne_empty]
  intro e
  obtain ⟨c, hc, hs⟩ := h
  have := inked_trimL s.toList
  rw [e] at this
  have hm : c ∈ s.toList.filter (fun c => !isSpaceCh c) := by simp [hc, hs]
  rw [← this] at hm
  simp at hm

/-- C29: an empty comment is ignored. -/
theorem C29_empty_ignored (c : String) : mergeComment "" c = trimSpace c ∧ mergeComment c "" = trimSpace c := by
  unfold mergeComment
  refine ⟨by simp, ?_⟩
  by_cases h : c = ""
  · simp [h]
  · simp [h]

/-- C29: every character that is not blank is kept, in order. -/
theorem C29_keeps_text (c1 c2 : String) : inked (mergeComment c1 c2) = inked c1 ++ inked c2 := by
  have hsp : isSpaceCh ' ' = true := by decide
  unfold mergeComment
  split_ifs with h1 h2
  · rw [h1, inked_trim]; rfl
  · rw [h2, inked_trim]; simp [inked]
  · unfold inked
    rw [String.toList_append, String.toList_append, List.filter_append, List.filter_append]
    have e1 := inked_trim c1
    have e2 := inked_trim c2
    unfold inked at e1 e2
    rw [e1, e2]
    simp [hsp]

/-- C29: the same for any number of comments merged one after the other. -/
theorem C29_keeps_text_all (cs : List String) (c : String) : inked (cs.foldl mergeComment c) = inked c ++ cs.flatMap inked := by
  induction cs generalizing c with
  | nil => simp
  | cons d r ih => rw [List.foldl_cons, ih, C29_keeps_text, List.flatMap_cons, List.append_assoc]

/-- C29: surrounding blanks are removed. -/
theorem C29_trimmed_partial (c1 c2 : String) (h1 : NotBlank c1) (h2 : NotBlank c2) : Trimmed (mergeComment c1 c2) := by
  unfold mergeComment
  split_ifs with e1 e2
  · exact trimmed_trim _
  · exact trimmed_trim _
  · have n1 : trimSpace c1 ≠ "" := trim_ne_empty (h1.resolve_left e1)
    have n2 : trimSpace c2 ≠ "" := trim_ne_empty (h2.resolve_left e2)
    have t1 := (trimmed_trim c1).1
    have t2 := (trimmed_trim c2).2
    have n1' : (trimSpace c1).toList ≠ [] := by
      intro h; exact n1 (String.toList_inj.1 (by simpa using h))
    have n2' : (trimSpace c2).toList ≠ [] := by
      intro h; exact n2 (String.toList_inj.1 (by simpa using h))
    unfold Trimmed
    rw [String.toList_append, String.toList_append]
    refine ⟨?_, ?_⟩
    · intro c hc
      apply t1 c
      cases hl : (trimSpace c1).toList with
      | nil => exact absurd hl n1'
      | cons a r => rw [hl] at hc; simpa using hc
    · intro c hc
      apply t2 c
      rw [List.getLast?_append] at hc
      cases hl : (trimSpace c2).toList.getLast? with
      | none => exact absurd (List.getLast?_eq_none_iff.1 hl) n2'
      | some a => rw [hl] at hc; simpa using hc

/-- C29 (part): merging is associative on comments that are empty or have some text.
Missing: comments made of blanks only, for which it is false. -/
theorem C29_associative_partial (c1 c2 c3 : String) (h1 : NotBlank c1) (h2 : NotBlank c2) (h3 : NotBlank c3) :
    mergeComment (mergeComment c1 c2) c3 = mergeComment c1 (mergeComment c2 c3) := by
  have tt : ∀ s, trimSpace (trimSpace s) = trimSpace s := fun s => trim_of_trimmed (trimmed_trim s)
  have hm12 := trim_of_trimmed (C29_trimmed_partial c1 c2 h1 h2)
  have hm23 := trim_of_trimmed (C29_trimmed_partial c2 c3 h2 h3)
  have app_ne : ∀ a b : String, a ++ " " ++ b ≠ "" := by
    intro a b h
    have := congrArg String.toList h
    simp at this
  by_cases e1 : c1 = ""
  · subst e1
    rw [(C29_empty_ignored _).1, (C29_empty_ignored _).1, hm23]
    unfold mergeComment
    rcases h2 with e2 | h2
    · subst e2; simp [trimSpace, trimSpaceL]
    · have n2 := trim_ne_empty h2
      have n2' : c2 ≠ "" := by rintro rfl; simp at h2
      simp [n2, n2', tt]
  · by_cases e2 : c2 = ""
    · subst e2
      rw [(C29_empty_ignored _).2, (C29_empty_ignored _).1]
      unfold mergeComment
      have n1 := trim_ne_empty (h1.resolve_left e1)
      rcases h3 with e3 | h3
      · subst e3
        have e0 : trimSpace "" = "" := by decide +kernel
        simp [e1, n1, e0, tt]
      · have n3 := trim_ne_empty h3
        have n3' : c3 ≠ "" := by rintro rfl; simp at h3
        simp [e1, n1, n3, n3', tt]
    · by_cases e3 : c3 = ""
      · subst e3
        rw [(C29_empty_ignored _).2, (C29_empty_ignored _).2, hm12]
        unfold mergeComment
        have n2 := trim_ne_empty (h2.resolve_left e2)
        simp [e1, e2, n2, tt]
      · have k12 := merge_both e1 e2
        have k23 := merge_both e2 e3
        have n12 : mergeComment c1 c2 ≠ "" := by rw [k12]; exact app_ne _ _
        have n23 : mergeComment c2 c3 ≠ "" := by rw [k23]; exact app_ne _ _
        rw [merge_both n12 e3, hm12, merge_both e1 n23, hm23, k12, k23]
        simp only [String.append_assoc]

/-- C29 is false for comments made of blanks: a blank is left in front, and merging is not
associative. -/
theorem C29_refuted :
    mergeComment " " "x" = " x" ∧
    mergeComment (mergeComment " " "x") "y" ≠ mergeComment " " (mergeComment "x" "y") := by
  constructor <;> decide +kernel

example : NotBlank " a b " ∧ mergeComment " a b " " c" = "a b c" := by
  refine ⟨.inr ⟨'a', by decide, by decide⟩, by decide +kernel⟩

end Sadl.Props
