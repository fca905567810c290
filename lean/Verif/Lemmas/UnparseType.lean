import Verif.Lemmas.UnparseJson
/-
Reading back the types printed by the unparser.
-/
namespace Sadl.Props
open Sadl Sadl.Spec

/-! ### The end of a line -/

def trail (c : String) : List Token := if c = "" then [] else [⟨.lineComment, " " ++ c⟩]

theorem line_ends {c : String} (h : IsLine c) : (∀ x ∈ c.toList.head?, isSpaceCh x = false) ∧ (∀ x ∈ c.toList.getLast?, isSpaceCh x = false) :=
  trimmed_of_line h

theorem endLine_eq {pl : PrintLib} {c : String} (h : IsLine c) : endLineToks pl c = trail c ++ [tNl] := by
  unfold endLineToks trail
  by_cases hc : c = ""
  · rw [if_pos hc, if_pos hc]; rfl
  · rw [if_neg hc, if_neg hc]
    have e : " // ".toList ++ c.toList ++ ['\n'] = (List.replicate 1 ' ' ++ '/' :: '/' :: (' ' :: c.toList)) ++ '\n' :: [] := by simp
    rw [e, textToks_append, lineToks_comment, textToks_nil]
    · have : String.ofList (' ' :: c.toList) = " " ++ c := by apply String.toList_injective; simp
      rw [this]; rfl
    · simp only [List.mem_append, List.mem_cons, not_or]
      exact ⟨by decide, by decide, by decide, by decide, h.2⟩

theorem merge_trail {c0 c : String} (h0 : IsLine c0) (h : IsLine c) (hc : c ≠ "") :
    mergeComment c0 (" " ++ c) = if c0 = "" then c else c0 ++ " " ++ c := by
  have e1 : String.ofList c0.toList = c0 := String.ofList_toList
  have e2 : String.ofList (' ' :: c.toList) = " " ++ c := by apply String.toList_injective; simp
  have hc' : c.toList ≠ [] := fun h => hc (toList_nil h)
  have := merge_line (c := c0.toList) (l := c.toList) (.inr (by rw [e1]; exact trimmed_of_line h0)) hc' (line_ends h).1 (line_ends h).2
  rw [e1, e2] at this
  rw [this]
  by_cases h0' : c0 = ""
  · subst h0'; simp
  · have : c0.toList ≠ [] := fun h => h0' (toList_nil h)
    rw [if_neg this, if_neg h0']
    apply String.toList_injective; simp

theorem line_empty : IsLine "" := by constructor <;> decide

theorem merge_empty {c : String} (h : IsLine c) : mergeComment c "" = c := by
  have := (C29_empty_ignored c).2
  rw [this, h.1]

theorem merge_empty' {c : String} (h : IsLine c) : mergeComment "" c = c := by
  have := (C29_empty_ignored c).1
  rw [this, h.1]

theorem merge_first {c : String} (h : IsLine c) (hc : c ≠ "") : mergeComment "" (" " ++ c) = c := by
  rw [merge_trail line_empty h hc, if_pos rfl]

theorem words_line {c : String} (h : IsWords c) : IsLine c := by
  by_cases hne : c = ""
  · subst hne; exact line_empty
  · have hcl := isWords_clean h hne
    have hn := clean_not_nl hcl
    obtain ⟨_, d2, d3⟩ := intercalate_head_last (splitAll_ne_nil _ _) hcl
    rw [← joinWith_eq, joinWith_splitAll] at hn d2 d3
    exact ⟨trim_of_trimmed ⟨d2, d3⟩, hn⟩

/-- The end of a statement, after an optional comment. -/
theorem run_endOfStatement {s : TState} {c c0 : String} {rest : List Token} (hA : At s (trail c ++ tNl :: rest)) :
    Run (endOfStatement c0) s (fun r s' => r = (if c = "" then c0 else mergeComment c0 (" " ++ c), true) ∧ Got s' tNl rest) := by
  have last : ∀ (s : TState) (c0 : String), At s (tNl :: rest) → Run (endOfStatement c0) s (fun r s' => r = (c0, true) ∧ Got s' tNl rest) := by
    intro s c0 hA
    unfold endOfStatement
    refine run_loop_done ?_
    unfold endStep
    refine run_bind (run_get hA (fun s' hs' => ?_))
    simp only [tNl, reduceCtorEq, if_false, if_true]
    exact run_pure ⟨_, rfl, rfl, hs'⟩
  unfold trail at hA
  by_cases hc : c = ""
  · rw [if_pos hc] at hA
    rw [if_pos hc]
    exact last s c0 hA
  · rw [if_neg hc] at hA
    rw [if_neg hc]
    unfold endOfStatement
    refine run_loop_again hA ?_
    unfold endStep
    refine run_bind (run_get hA (fun s' hs' => ?_))
    simp only [reduceCtorEq, if_false, if_true]
    refine run_pure ⟨_, _, rfl, hs'.at', by simp, ?_⟩
    exact last s' _ hs'.at'

theorem run_trailingComment {s : TState} {c : String} {rest : List Token} (hA : At s (trail c ++ tNl :: rest)) (c0 : String) :
    Run (parseTrailingComment c0) s (fun r s' => r = (if c = "" then c0 else mergeComment c0 (" " ++ c)) ∧ At s' (tNl :: rest)) := by
  unfold parseTrailingComment
  unfold trail at hA
  by_cases hc : c = ""
  · rw [if_pos hc] at hA ⊢
    refine run_bind (run_get hA (fun s' hs' => ?_))
    simp only [tNl, reduceCtorEq, if_false]
    exact run_bind (run_unget hs' (fun s2 h2 => run_pure ⟨rfl, h2⟩))
  · rw [if_neg hc] at hA ⊢
    refine run_bind (run_get hA (fun s' hs' => ?_))
    simp only [if_true]
    exact run_pure ⟨rfl, hs'.at'⟩

theorem run_optNewline {s : TState} {rest : List Token} (hA : At s (tNl :: rest)) : Run optNewline s (fun _ s' => At s' rest) := by
  unfold optNewline
  refine run_bind (run_get hA (fun s' hs' => ?_))
  simp only [tNl, ne_eq, not_true, if_false]
  exact run_pure hs'.at'

/-- At most one newline. -/
def Nl1 (l : List Token) : Prop := l = [] ∨ l = [tNl]

theorem trail_head (c : String) (rest : List Token) : ∃ t r, trail c ++ tNl :: rest = t :: r ∧ t.type ≠ .openParen ∧ t.type ≠ .openAngle ∧
    t.type ≠ .openBrace := by
  unfold trail
  by_cases hc : c = ""
  · rw [if_pos hc]; exact ⟨_, _, rfl, by decide, by decide, by decide⟩
  · rw [if_neg hc]; exact ⟨_, _, rfl, by simp, by simp, by simp⟩

theorem optToks_head (o : List (List Token)) (rest : List Token) : optToks o = [] ∨ ∃ r, optToks o ++ rest = ⟨.openParen, ""⟩ :: r := by
  unfold optToks
  by_cases h : o = []
  · exact .inl (by rw [if_pos h])
  · rw [if_neg h]; exact .inr ⟨_, rfl⟩

/-- What follows a type: options, a comment, the end of the line. -/
theorem after_type (o : List (List Token)) (c : String) (rest : List Token) : ∃ t r, optToks o ++ (trail c ++ tNl :: rest) = t :: r ∧
    t.type ≠ .openAngle ∧ t.type ≠ .openBrace := by
  rcases optToks_head o (trail c ++ tNl :: rest) with e | ⟨r, e⟩
  · obtain ⟨t, r, e', h⟩ := trail_head c rest
    exact ⟨t, r, by rw [e, List.nil_append, e'], h.2⟩
  · exact ⟨_, r, e, by simp, by simp⟩

/-! ### Enumerations -/

theorem run_element {lib : PLib} {pl : PrintLib} {el : EnumElementDef} (h : ElementOk el) {pre rest : List Token} (hp : Nl1 pre) {s : TState}
    (hA : At s (pre ++ elementToks pl el ++ rest)) :
    Run (parseEnumElementDef lib) s (fun r s' => r = some el ∧ At s' (tNl :: rest)) := by
  obtain ⟨h1, h2, h3⟩ := h
  unfold elementToks at hA
  rw [bare_name h1, endLine_eq h2] at hA
  unfold parseEnumElementDef
  have sk : ∀ (s : TState) (r : List Token), At s (tSym el.symbol :: r) →
      Run (P.loop enumSkipStep "") s (fun x s' => x = some (el.symbol, "") ∧ At s' r) := by
    intro s r hA
    refine run_loop_done ?_
    unfold enumSkipStep
    refine run_bind (run_next hA (fun s' hs' => ?_))
    simp only [tSym, reduceCtorEq, if_false, or_self, if_true]
    exact run_pure ⟨_, rfl, rfl, hs'.at'⟩
  have hloop : Run (P.loop enumSkipStep "") s (fun x s' => x = some (el.symbol, "") ∧
      At s' (annotationsToks pl el.annotations ++ (trail el.comment ++ tNl :: rest))) := by
    rcases hp with rfl | rfl
    · exact sk s _ (by simpa using hA)
    · have hA' : At s (tNl :: (tSym el.symbol :: (annotationsToks pl el.annotations ++ (trail el.comment ++ tNl :: rest)))) := by
        simpa using hA
      refine run_loop_again hA' ?_
      unfold enumSkipStep
      refine run_bind (run_next hA' (fun s' hs' => ?_))
      simp only [tNl, reduceCtorEq, if_false, or_true, true_or, if_true]
      exact run_pure ⟨_, _, rfl, hs'.at', by simp, sk s' _ hs'.at'⟩
  refine run_bind (run_mono hloop ?_)
  rintro _ s1 ⟨rfl, h4⟩
  simp only
  obtain ⟨t, r, e, ht⟩ := trail_head el.comment rest
  refine run_bind (run_mono (run_options (annotations_list h3) (fun _ => by rw [e]; simpa using ht.1) h4) ?_)
  rintro _ s2 ⟨rfl, h5⟩
  refine run_bind (run_mono (run_trailingComment h5 "") ?_)
  rintro _ s3 ⟨rfl, h6⟩
  refine run_pure ⟨?_, h6⟩
  by_cases hc : el.comment = ""
  · rw [if_pos hc]; cases el; simp_all
  · rw [if_neg hc, merge_first h2 hc]

theorem run_elements {lib : PLib} {pl : PrintLib} : ∀ (els : List EnumElementDef), (∀ el ∈ els, ElementOk el) → ∀ (acc : List EnumElementDef)
    (pre rest : List Token) (s : TState), Nl1 pre → At s (pre ++ (els.flatMap (elementToks pl) ++ tPunct .closeBrace :: rest)) →
    Run (P.loop (elementsStep lib) acc) s (fun r s' => r = acc ++ els ∧ At s' rest)
  | [], _, acc, pre, rest, s, hp, hA => by
    have base : ∀ (s : TState), At s (tPunct .closeBrace :: rest) →
        Run (P.loop enumSkipStep "") s (fun x s' => x = none ∧ At s' rest) := by
      intro s hA
      refine run_loop_done ?_
      unfold enumSkipStep
      refine run_bind (run_next hA (fun s' hs' => ?_))
      simp only [tPunct, if_true]
      exact run_pure ⟨_, rfl, rfl, hs'.at'⟩
    have hloop : Run (P.loop enumSkipStep "") s (fun x s' => x = none ∧ At s' rest) := by
      rcases hp with rfl | rfl
      · exact base s (by simpa using hA)
      · have hA' : At s (tNl :: (tPunct .closeBrace :: rest)) := by simpa using hA
        refine run_loop_again hA' ?_
        unfold enumSkipStep
        refine run_bind (run_next hA' (fun s' hs' => ?_))
        simp only [tNl, reduceCtorEq, if_false, or_true, true_or, if_true]
        exact run_pure ⟨_, _, rfl, hs'.at', by simp, base s' hs'.at'⟩
    refine run_loop_done ?_
    unfold elementsStep parseEnumElementDef
    refine run_bind (run_bind (run_mono hloop ?_))
    rintro _ s1 ⟨rfl, h1⟩
    exact run_pure (run_pure ⟨_, rfl, by simp, h1⟩)
  | el :: r, h, acc, pre, rest, s, hp, hA => by
    have hA' : At s (pre ++ elementToks pl el ++ (r.flatMap (elementToks pl) ++ tPunct .closeBrace :: rest)) := by simpa using hA
    refine run_loop_again hA' ?_
    unfold elementsStep
    refine run_bind (run_mono (run_element (h el (by simp)) hp hA') ?_)
    rintro _ s1 ⟨rfl, h1⟩
    refine run_pure ⟨_, _, rfl, h1, ?_, ?_⟩
    · have := (h el (by simp))
      unfold elementToks
      rw [bare_name this.name, endLine_eq this.comment]
      simp; omega
    · refine run_mono (run_elements r (fun x hx => h x (by simp [hx])) (acc ++ [el]) [tNl] rest s1 (.inr rfl) h1) ?_
      rintro a s2 ⟨rfl, h2⟩
      exact ⟨by simp, h2⟩

end Sadl.Props
