import Verif.Model.Misc
import Verif.Lemmas.Text
/-
C40: formatting of comments in generated code.
-/
namespace Sadl.Props
open Sadl

/-- blanks put before each following word of a line -/
def tailWords (ws : List (List Char)) : List Char := ws.flatMap (fun w => ' ' :: w)

theorem intercalate_tail (w : List Char) (ws : List (List Char)) :
    List.intercalate [' '] (w :: ws) = w ++ tailWords ws := by
  rw [← joinWith_eq]
  induction ws generalizing w with
  | nil => simp [joinWith, tailWords]
  | cons x r ih =>
    rw [joinWith, ih]
    · simp [tailWords]
    · simp

theorem byteLen_append (a b : List Char) : byteLen (a ++ b) = byteLen a + byteLen b := by
  simp [byteLen, bytesOf]

theorem byteLen_blank_cons (w : List Char) : byteLen (' ' :: w) = 1 + byteLen w := by
  have : byteLen [' '] = 1 := by decide
  rw [show ' ' :: w = [' '] ++ w from rfl, byteLen_append, this]

/-- one line of the output -/
def renderLine (tab pre : List Char) (ws : List (List Char)) : List Char :=
  tab ++ pre ++ List.intercalate [' '] ws ++ ['\n']

theorem renderLine_fun (tab pre : List Char) :
    renderLine tab pre = fun ws => tab ++ pre ++ List.intercalate [' '] ws ++ ['\n'] := rfl

theorem fcLoop_spec (tab pre : List Char) (maxcol : Int) (hpos : 0 < tab.length + byteLen pre)
    (toks : List (List Char)) : ∀ col : Int, 0 < col →
    ∃ (cur : List (List Char)) (lines : List (List (List Char))),
      fcLoop tab pre maxcol col toks = tailWords cur ++ '\n' :: lines.flatMap (renderLine tab pre) ∧
      toks = cur ++ lines.flatten ∧ (∀ ws ∈ lines, ws ≠ []) ∧
      (∀ ws ∈ lines, ws.length = 1 ∨
        (tab.length + byteLen pre + byteLen (List.intercalate [' '] ws) : Int) ≤ maxcol) ∧
      (cur = [] ∨ col + byteLen (tailWords cur) ≤ maxcol) := by
  induction toks with
  | nil => intro col _; exact ⟨[], [], by simp [fcLoop, tailWords], rfl, by simp, by simp, Or.inl rfl⟩
  | cons tok rest ih =>
    intro col hcol
    by_cases hb : maxcol ≤ col + byteLen tok
    · obtain ⟨cur, lines, h1, h2, h3, h4, h5⟩ := ih (tab.length + byteLen pre + byteLen tok) (by omega)
      refine ⟨[], (tok :: cur) :: lines, ?_, ?_, ?_, ?_, Or.inl rfl⟩
      · simp only [fcLoop, hb, decide_true, if_true, h1]
        simp [tailWords, renderLine, intercalate_tail]
      · simp [h2]
      · simpa using h3
      · intro ws hws
        rcases List.mem_cons.1 hws with rfl | hws
        · rcases h5 with rfl | h5
          · exact Or.inl rfl
          · right
            rw [intercalate_tail, byteLen_append]
            push_cast at h5 ⊢
            omega
        · exact h4 ws hws
    · obtain ⟨cur, lines, h1, h2, h3, h4, h5⟩ := ih (col + byteLen tok + 1) (by omega)
      refine ⟨tok :: cur, lines, ?_, ?_, h3, h4, Or.inr ?_⟩
      · have hc : ¬ col = 0 := by omega
        simp only [fcLoop, hb, decide_false, Bool.false_eq_true, if_false, hc, h1]
        simp [tailWords]
      · simp [h2]
      · have e : byteLen (tailWords (tok :: cur)) = 1 + byteLen tok + byteLen (tailWords cur) := by
          rw [show tailWords (tok :: cur) = (' ' :: tok) ++ tailWords cur by simp [tailWords], byteLen_append,
            byteLen_blank_cons]
        rw [e]
        rcases h5 with rfl | h5
        · have : byteLen (tailWords []) = 0 := by decide
          rw [this]; push_cast; omega
        · push_cast; omega

/-- C40, for a one-line comment and a width beyond the indent, with a non-empty indent or
prefix: the words of the comment are kept in order, every line is the indent (as blanks)
followed by the prefix and some words separated by single blanks, and a line longer than
the limit holds one word only; with `extraPad` a line with just the prefix comes first
and last.  Missing: comments with line breaks, which are not wrapped
(`C40_multiline`, `C40_refuted_width`); indents with tabs, printed as blanks
(`C40_refuted_indent`); and a blank line without prefix before an overlong first word. -/
theorem C40_wrap_partial (indent pre comment : List Char) (maxcol : Int) (extraPad : Bool)
    (hnl : '\n' ∉ comment) (hw : (byteLen indent : Int) < maxcol) (hpos : 0 < byteLen indent + byteLen pre) :
    ∃ (blank : List Char) (lines : List (List (List Char))),
      formatComment indent pre comment maxcol extraPad =
        (if extraPad then List.replicate (byteLen indent) ' ' ++ trimBlanks pre ++ ['\n'] else []) ++ blank ++
        lines.flatMap (fun ws => List.replicate (byteLen indent) ' ' ++ pre ++ List.intercalate [' '] ws ++ ['\n']) ++
        (if extraPad then List.replicate (byteLen indent) ' ' ++ trimBlanks pre ++ ['\n'] else []) ∧
      List.intercalate [' '] lines.flatten = comment ∧
      (∀ ws ∈ lines, ws ≠ [] ∧ ∀ w ∈ ws, ' ' ∉ w) ∧
      (∀ ws ∈ lines, ws.length = 1 ∨
        (byteLen indent + byteLen pre + byteLen (List.intercalate [' '] ws) : Int) ≤ maxcol) ∧
      (blank = [] ∨ (blank = ['\n'] ∧ ∃ w ws, lines.flatten = w :: ws ∧ maxcol ≤ byteLen w)) := by
  have hsplit := joinWith_splitAll ' ' comment
  have hnot := not_mem_splitAll ' ' comment
  cases hs : splitAll ' ' comment with
  | nil => exact absurd hs (splitAll_ne_nil _ _)
  | cons tok rest =>
    rw [hs] at hsplit hnot
    rw [joinWith_eq] at hsplit
    have hlen : (List.replicate (byteLen indent) ' ').length = byteLen indent := by simp
    obtain ⟨cur, lines, h1, h2, h3, h4, h5⟩ :=
      fcLoop_spec (List.replicate (byteLen indent) ' ') pre maxcol (by rw [hlen]; exact hpos) rest
        ((List.replicate (byteLen indent) ' ').length + byteLen pre + byteLen tok) (by rw [hlen]; omega)
    refine ⟨if maxcol ≤ byteLen tok then ['\n'] else [], (tok :: cur) :: lines, ?_, ?_, ?_, ?_, ?_⟩
    · have c1 : ¬ (maxcol ≤ (byteLen indent : Int) ∧ '\n' ∉ comment) := by rintro ⟨h, _⟩; omega
      simp only [formatComment, if_neg c1, if_neg hnl, hs, fcLoop, zero_add]
      rw [h1]
      by_cases hb : maxcol ≤ byteLen tok
      · simp [hb, tailWords, renderLine, intercalate_tail]
        simp only [renderLine_fun, List.append_assoc]
      · simp [hb, tailWords, renderLine, intercalate_tail]
        simp only [renderLine_fun, List.append_assoc]
    · rw [← hsplit]; simp [h2]
    · intro ws hws
      rcases List.mem_cons.1 hws with rfl | hws
      · refine ⟨by simp, fun w hw => hnot w ?_⟩
        rw [h2]
        rcases List.mem_cons.1 hw with rfl | hw
        · simp
        · simp [hw]
      · refine ⟨h3 ws hws, fun w hw => hnot w ?_⟩
        rw [h2]
        have : w ∈ lines.flatten := List.mem_flatten.2 ⟨ws, hws, hw⟩
        simp [this]
    · intro ws hws
      rw [hlen] at h4 h5
      rcases List.mem_cons.1 hws with rfl | hws
      · rcases h5 with rfl | h5
        · exact Or.inl rfl
        · right
          rw [intercalate_tail, byteLen_append]
          push_cast
          omega
      · exact h4 ws hws
    · by_cases hb : maxcol ≤ byteLen tok
      · right
        exact ⟨by simp [hb], tok, cur ++ lines.flatten, by simp, hb⟩
      · left; simp [hb]

/-- C40, comments with line breaks: every line is kept whole, after blanks and the prefix. -/
theorem C40_multiline (indent pre : List Char) (lines : List (List Char)) (maxcol : Int) (extraPad : Bool)
    (hlen : 2 ≤ lines.length) (hnl : ∀ l ∈ lines, '\n' ∉ l) :
    formatComment indent pre (List.intercalate ['\n'] lines) maxcol extraPad =
      lines.flatMap (fun l => List.replicate (byteLen indent) ' ' ++ pre ++ l ++ ['\n']) := by
  rw [← joinWith_eq]
  have hmem : '\n' ∈ joinWith '\n' lines := by
    cases lines with
    | nil => simp at hlen
    | cons a r =>
      cases r with
      | nil => simp at hlen
      | cons b r => simp [joinWith]
  have hne : lines ≠ [] := by rintro rfl; simp at hlen
  have c1 : ¬ (maxcol ≤ (byteLen indent : Int) ∧ '\n' ∉ joinWith '\n' lines) := by rintro ⟨_, h⟩; exact h hmem
  simp only [formatComment, if_neg c1, if_pos hmem, splitAll_joinWith hne hnl]

/-- C40 refuted: a long line of a comment with a line break exceeds the width. -/
theorem C40_refuted_width :
    formatComment [] "// ".toList "aaaa bbbb cccc\nd".toList 10 false = "// aaaa bbbb cccc\n// d\n".toList := by
  decide

/-- C40 refuted: an indent of one tab is printed as one blank. -/
theorem C40_refuted_indent :
    formatComment ['\t'] "// ".toList "note".toList 80 false = " // note\n".toList := by decide

/-- C40 refuted: an overlong first word is preceded by a line without prefix. -/
theorem C40_refuted_blank_line :
    formatComment [] "// ".toList "abcdefghij k".toList 10 false = "\n// abcdefghij\n// k\n".toList := by decide

example : formatComment [] "// ".toList "one two three".toList 10 true =
    "//\n// one two\n// three\n//\n".toList := by decide

end Sadl.Props
