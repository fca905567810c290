import Verif.Spec.Printable
import Verif.Props.Comments
import Verif.Props.MergeComments
import Verif.Props.Options
/-
The texts printed by the unparser: comments, names, numbers, option lists.
-/
namespace Sadl.Props
open Sadl Sadl.Spec

/-! ### Comments -/

theorem toList_nil {s : String} (h : s.toList = []) : s = "" := by
  rw [← String.ofList_toList (s := s), h]

theorem trimmed_of_line {c : String} (h : IsLine c) : Trimmed c := by
  rw [← h.1]; exact trimmed_trim c

theorem trimSpace_blank {l : List Char} (h1 : ∀ c ∈ l.head?, isSpaceCh c = false) (h2 : ∀ c ∈ l.getLast?, isSpaceCh c = false) :
    trimSpaceL (' ' :: l) = l := by
  have e : trimSpaceL (' ' :: l) = trimSpaceL l := by
    unfold trimSpaceL
    rw [List.dropWhile_cons, if_pos (by decide)]
  rw [e]
  have := trim_of_trimmed (s := String.ofList l) ⟨by simpa using h1, by simpa using h2⟩
  unfold trimSpace at this
  rw [String.toList_ofList] at this
  exact String.ofList_injective this

/-- What the parser makes of the comment and newline tokens before a directive. -/
def gather (c : String) (ts : List Token) : String :=
  ts.foldl (fun c t => if t.type = .lineComment then mergeComment c t.text else c) c

def AllComments (ts : List Token) : Prop := ∀ t ∈ ts, t.type = .lineComment ∨ t.type = .newline

theorem gather_append (c : String) (ts us : List Token) : gather c (ts ++ us) = gather (gather c ts) us := by
  unfold gather; rw [List.foldl_append]

theorem textToks_append {pl : PrintLib} {line : List Char} (h : '\n' ∉ line) (rest : List Char) :
    textToks pl (line ++ '\n' :: rest) = lineToks pl line ++ textToks pl rest := by
  unfold textToks
  rw [splitAll_append h, List.dropLast_cons_of_ne_nil (splitAll_ne_nil _ _), List.flatMap_cons]

theorem textToks_nil (pl : PrintLib) : textToks pl [] = [] := rfl

theorem lineToks_comment {pl : PrintLib} (n : Nat) (r : List Char) :
    lineToks pl (List.replicate n ' ' ++ '/' :: '/' :: r) = [⟨.lineComment, String.ofList r⟩, tNl] := by
  have e : (List.replicate n ' ' ++ '/' :: '/' :: r).dropWhile (· == ' ') = '/' :: '/' :: r := by
    rw [List.dropWhile_append_of_pos (by simp)]; rfl
  unfold lineToks
  rw [e]
  rfl

theorem intercalate_head_last {ws : List (List Char)} (hne : ws ≠ []) (h : ∀ w ∈ ws, w ≠ [] ∧ ∀ ch ∈ w, isSpaceCh ch = false) :
    List.intercalate [' '] ws ≠ [] ∧ (∀ c ∈ (List.intercalate [' '] ws).head?, isSpaceCh c = false) ∧
      (∀ c ∈ (List.intercalate [' '] ws).getLast?, isSpaceCh c = false) := by
  induction ws with
  | nil => exact absurd rfl hne
  | cons w r ih =>
    obtain ⟨hw, hs⟩ := h w (by simp)
    have hh : ∀ c ∈ w.head?, isSpaceCh c = false := fun c hc => hs c (List.mem_of_mem_head? hc)
    cases r with
    | nil =>
      have e : List.intercalate [' '] [w] = w := by simp [List.intercalate]
      rw [e]
      exact ⟨hw, hh, fun c hc => hs c (List.mem_of_getLast? hc)⟩
    | cons w2 r2 =>
      obtain ⟨i1, i2, i3⟩ := ih (by simp) (fun x hx => h x (by simp [hx]))
      have e : List.intercalate [' '] (w :: w2 :: r2) = w ++ ' ' :: List.intercalate [' '] (w2 :: r2) := by
        simp [List.intercalate]
      rw [e]
      refine ⟨by simp [hw], ?_, ?_⟩
      · obtain ⟨a, w', rfl⟩ := List.exists_cons_of_ne_nil hw
        simpa using hs a (by simp)
      · rw [List.getLast?_append, List.getLast?_cons]
        rw [List.getLast?_eq_some_getLast i1]
        rw [List.getLast?_eq_some_getLast i1] at i3
        simpa using i3

theorem clean_not_nl {ws : List (List Char)} (h : ∀ w ∈ ws, w ≠ [] ∧ ∀ ch ∈ w, isSpaceCh ch = false) :
    '\n' ∉ List.intercalate [' '] ws := by
  induction ws with
  | nil => simp [List.intercalate]
  | cons w r ih =>
    have hw : '\n' ∉ w := fun hc => absurd ((h w (by simp)).2 _ hc) (by decide)
    cases r with
    | nil => simpa [List.intercalate] using hw
    | cons w2 r2 =>
      have e : List.intercalate [' '] (w :: w2 :: r2) = w ++ ' ' :: List.intercalate [' '] (w2 :: r2) := by
        simp [List.intercalate]
      rw [e]
      simp only [List.mem_append, List.mem_cons, not_or]
      exact ⟨hw, by decide, ih (fun x hx => h x (by simp [hx]))⟩

theorem intercalate_append {ws vs : List (List Char)} (h1 : ws ≠ []) (h2 : vs ≠ []) :
    List.intercalate [' '] (ws ++ vs) = List.intercalate [' '] ws ++ ' ' :: List.intercalate [' '] vs := by
  induction ws with
  | nil => exact absurd rfl h1
  | cons w r ih =>
    cases r with
    | nil =>
      obtain ⟨v, vs', rfl⟩ := List.exists_cons_of_ne_nil h2
      simp [List.intercalate]
    | cons w2 r2 =>
      have e1 : List.intercalate [' '] (w :: w2 :: r2) = w ++ ' ' :: List.intercalate [' '] (w2 :: r2) := by
        simp [List.intercalate]
      have e2 : List.intercalate [' '] ((w :: w2 :: r2) ++ vs) = w ++ ' ' :: List.intercalate [' '] ((w2 :: r2) ++ vs) := by
        simp [List.intercalate]
      rw [e1, e2, ih (by simp)]
      simp

theorem merge_line {c : List Char} {l : List Char} (hc : c = [] ∨ Trimmed (String.ofList c)) (hne : l ≠ [])
    (h1 : ∀ x ∈ l.head?, isSpaceCh x = false) (h2 : ∀ x ∈ l.getLast?, isSpaceCh x = false) :
    mergeComment (String.ofList c) (String.ofList (' ' :: l)) = String.ofList (if c = [] then l else c ++ ' ' :: l) := by
  unfold mergeComment
  have hl : String.ofList (' ' :: l) ≠ "" := by
    intro e; have := congrArg String.toList e; simp at this
  have ht : trimSpace (String.ofList (' ' :: l)) = String.ofList l := by
    unfold trimSpace; rw [String.toList_ofList, trimSpace_blank h1 h2]
  by_cases he : c = []
  · subst he
    simp only [if_true]
    exact ht
  · have hs : String.ofList c ≠ "" := by
      intro e; have := congrArg String.toList e; simp at this; exact he this
    rw [if_neg hs, if_neg hl, if_neg he, ht]
    rcases hc with hc | hc
    · exact absurd hc he
    · rw [trim_of_trimmed hc]
      apply String.toList_injective
      simp

/-- The comment made of whole lines of words. -/
theorem gather_lines {lines : List (List (List Char))} : ∀ (done : List (List Char)),
    (∀ ws ∈ lines, ws ≠ [] ∧ ∀ w ∈ ws, w ≠ [] ∧ ∀ ch ∈ w, isSpaceCh ch = false) →
    (∀ w ∈ done, w ≠ [] ∧ ∀ ch ∈ w, isSpaceCh ch = false) →
    gather (String.ofList (List.intercalate [' '] done))
      (lines.flatMap (fun ws => [⟨.lineComment, String.ofList (' ' :: List.intercalate [' '] ws)⟩, tNl])) =
      String.ofList (List.intercalate [' '] (done ++ lines.flatten)) := by
  induction lines with
  | nil => intro done _ _; simp [gather]
  | cons ws r ih =>
    intro done h hd
    obtain ⟨hne, hw⟩ := h ws (by simp)
    obtain ⟨g1, g2, g3⟩ := intercalate_head_last hne hw
    have key : gather (String.ofList (List.intercalate [' '] done))
        [⟨.lineComment, String.ofList (' ' :: List.intercalate [' '] ws)⟩, tNl] =
        String.ofList (List.intercalate [' '] (done ++ ws)) := by
      unfold gather
      simp only [List.foldl_cons, List.foldl_nil, if_true, tNl, reduceCtorEq, if_false]
      by_cases hdn : done = []
      · subst hdn
        have := merge_line (c := []) (Or.inl rfl) g1 g2 g3
        simpa [List.intercalate] using this
      · obtain ⟨d1, d2, d3⟩ := intercalate_head_last hdn hd
        have := merge_line (c := List.intercalate [' '] done) (Or.inr ⟨by simpa using d2, by simpa using d3⟩) g1 g2 g3
        rw [if_neg d1] at this
        rw [this, intercalate_append hdn hne]
    rw [List.flatMap_cons, gather_append, key, ih (done ++ ws) (fun x hx => h x (by simp [hx]))]
    · rw [List.flatten_cons, List.append_assoc]
    · intro w hw'
      rcases List.mem_append.1 hw' with h' | h'
      · exact hd w h'
      · exact hw w h'

theorem textToks_lines {pl : PrintLib} (n : Nat) (rest : List Char) : ∀ {lines : List (List (List Char))},
    (∀ ws ∈ lines, ∀ w ∈ ws, w ≠ [] ∧ ∀ ch ∈ w, isSpaceCh ch = false) →
    textToks pl (lines.flatMap (fun ws => List.replicate n ' ' ++ "// ".toList ++ List.intercalate [' '] ws ++ ['\n']) ++ rest) =
      lines.flatMap (fun ws => [⟨.lineComment, String.ofList (' ' :: List.intercalate [' '] ws)⟩, tNl]) ++ textToks pl rest
  | [], _ => by simp
  | ws :: r, h => by
    have e : ((ws :: r).flatMap (fun ws => List.replicate n ' ' ++ "// ".toList ++ List.intercalate [' '] ws ++ ['\n']) ++ rest) =
        (List.replicate n ' ' ++ '/' :: '/' :: ' ' :: List.intercalate [' '] ws) ++
          '\n' :: (r.flatMap (fun ws => List.replicate n ' ' ++ "// ".toList ++ List.intercalate [' '] ws ++ ['\n']) ++ rest) := by
      simp
    rw [e, textToks_append, lineToks_comment, textToks_lines n rest (fun x hx => h x (by simp [hx]))]
    · simp
    · intro hc
      rcases List.mem_append.1 hc with hc | hc
      · have := List.eq_of_mem_replicate hc; exact absurd this (by decide)
      · simp only [List.mem_cons] at hc
        rcases hc with hc | hc | hc | hc
        · exact absurd hc (by decide)
        · exact absurd hc (by decide)
        · exact absurd hc (by decide)
        · exact clean_not_nl (h ws (by simp)) hc

theorem isWords_clean {c : String} (h : IsWords c) (hne : c ≠ "") : ∀ w ∈ splitAll ' ' c.toList, w ≠ [] ∧ ∀ ch ∈ w, isSpaceCh ch = false := by
  rcases h with h | h
  · exact absurd h hne
  · exact h

/-- A formatted comment reads back. -/
theorem commentToks_gather {pl : PrintLib} (n : Nat) (hn : n < 100) {c : String} (h : IsWords c) (hne : c ≠ "") (extraPad : Bool) :
    AllComments (commentToks pl (String.ofList (List.replicate n ' ')) c extraPad) ∧
      gather "" (commentToks pl (String.ofList (List.replicate n ' ')) c extraPad) = c := by
  have hcl := isWords_clean h hne
  have hnl : '\n' ∉ c.toList := by
    have := clean_not_nl hcl
    rwa [← joinWith_eq, joinWith_splitAll] at this
  have hb : byteLen (List.replicate n ' ') = n := by
    unfold byteLen bytesOf
    induction n with
    | zero => rfl
    | succ k ih =>
      rw [List.replicate_succ, List.flatMap_cons, List.length_append, ih (by omega)]
      have : (String.utf8EncodeChar ' ').length = 1 := by decide
      omega
  have hb2 : byteLen "// ".toList = 3 := by decide
  obtain ⟨blank, lines, h1, h2, h3, _, h5⟩ := C40_wrap_partial (List.replicate n ' ') "// ".toList c.toList 100 extraPad hnl
    (by rw [hb]; omega) (by rw [hb2]; omega)
  -- the lines consist of the words of the comment
  have hflat : lines.flatten = splitAll ' ' c.toList := by
    have hne' : lines.flatten ≠ [] := by
      intro e; rw [e] at h2
      have : c.toList = [] := by rw [← h2]; rfl
      exact hne (toList_nil this)
    have : splitAll ' ' (joinWith ' ' lines.flatten) = lines.flatten :=
      splitAll_joinWith hne' (fun w hw => by
        obtain ⟨ws, hws, hw⟩ := List.mem_flatten.1 hw
        exact (h3 ws hws).2 w hw)
    rw [← this, joinWith_eq, h2]
  have hw : ∀ ws ∈ lines, ws ≠ [] ∧ ∀ w ∈ ws, w ≠ [] ∧ ∀ ch ∈ w, isSpaceCh ch = false := by
    intro ws hws
    refine ⟨(h3 ws hws).1, fun w hw => hcl w ?_⟩
    rw [← hflat]
    exact List.mem_flatten.2 ⟨ws, hws, hw⟩
  have htrim : trimBlanks "// ".toList = "//".toList := by decide
  set pad : List Char := if extraPad then List.replicate n ' ' ++ "//".toList ++ ['\n'] else [] with hpad
  set padT : List Token := if extraPad then [⟨.lineComment, ""⟩, tNl] else [] with hpadT
  have hpadtoks : ∀ rest, textToks pl (pad ++ rest) = padT ++ textToks pl rest := by
    intro rest
    cases extraPad with
    | false => simp [hpad, hpadT]
    | true =>
      have e : pad ++ rest = (List.replicate n ' ' ++ '/' :: '/' :: []) ++ '\n' :: rest := by simp [hpad]
      rw [e, textToks_append, lineToks_comment]
      · rfl
      · intro hc
        rcases List.mem_append.1 hc with hc | hc
        · have := List.eq_of_mem_replicate hc; exact absurd this (by decide)
        · exact absurd hc (by decide)
  have hblank : ∀ rest, ∃ bt : List Token, (bt = [] ∨ bt = [tNl]) ∧ textToks pl (blank ++ rest) = bt ++ textToks pl rest := by
    intro rest
    rcases h5 with rfl | ⟨rfl, _⟩
    · exact ⟨[], .inl rfl, rfl⟩
    · refine ⟨[tNl], .inr rfl, ?_⟩
      have := textToks_append (pl := pl) (line := []) (by simp) rest
      simpa [lineToks] using this
  have htoks : ∃ bt : List Token, (bt = [] ∨ bt = [tNl]) ∧
      commentToks pl (String.ofList (List.replicate n ' ')) c extraPad =
      padT ++ (bt ++ (lines.flatMap (fun ws => [⟨.lineComment, String.ofList (' ' :: List.intercalate [' '] ws)⟩, tNl]) ++ padT)) := by
    unfold commentToks
    rw [String.toList_ofList, h1, hb, htrim]
    rw [← hpad]
    obtain ⟨bt, hbt, e⟩ := hblank (lines.flatMap (fun ws => List.replicate n ' ' ++ "// ".toList ++ List.intercalate [' '] ws ++ ['\n']) ++ pad)
    refine ⟨bt, hbt, ?_⟩
    have e2 : textToks pl pad = padT := by
      have := hpadtoks []
      rwa [List.append_nil, textToks_nil, List.append_nil] at this
    rw [List.append_assoc, List.append_assoc, hpadtoks, e, textToks_lines n pad (fun ws hws => (hw ws hws).2), e2]
  obtain ⟨bt, hbt, e⟩ := htoks
  rw [e]
  have hpc : AllComments padT := by
    intro t ht
    cases extraPad with
    | false => simp [hpadT] at ht
    | true => simp [hpadT, tNl] at ht; rcases ht with rfl | rfl <;> simp
  refine ⟨?_, ?_⟩
  · intro t ht
    simp only [List.mem_append] at ht
    rcases ht with ht | ht | ht | ht
    · exact hpc t ht
    · rcases hbt with rfl | rfl
      · simp at ht
      · simp [tNl] at ht; subst ht; simp
    · obtain ⟨ws, _, ht⟩ := List.mem_flatMap.1 ht
      simp [tNl] at ht
      rcases ht with rfl | rfl <;> simp
    · exact hpc t ht
  · have hct : Trimmed c := by
      have hne' : splitAll ' ' c.toList ≠ [] := splitAll_ne_nil _ _
      obtain ⟨_, d2, d3⟩ := intercalate_head_last hne' hcl
      rw [← joinWith_eq, joinWith_splitAll] at d2 d3
      exact ⟨d2, d3⟩
    have g1 : gather "" padT = "" := by
      cases extraPad with
      | false => rfl
      | true => simp [hpadT, gather, tNl, mergeComment, trimSpace, trimSpaceL]
    have g2 : gather "" bt = "" := by rcases hbt with rfl | rfl <;> simp [gather, tNl]
    have g3 := gather_lines (lines := lines) [] hw (by simp)
    have g4 : gather c padT = c := by
      cases extraPad with
      | false => rfl
      | true => simp [hpadT, gather, tNl, mergeComment, trim_of_trimmed hct, hne]
    have e0 : String.ofList (List.intercalate [' '] []) = "" := rfl
    rw [e0, List.nil_append, h2, String.ofList_toList] at g3
    rw [gather_append, g1, gather_append, g2, gather_append, g3, g4]

end Sadl.Props
