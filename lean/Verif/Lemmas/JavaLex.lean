import Verif.Spec.JavaLex
/-
Scanning Java text piece by piece.
-/
namespace Sadl
open Sadl.Spec

/-- A text as a piece. -/
def jrun (st : JLex × List Char) (t : String) : Option (JLex × List Char) := jscan st.1 st.2 t.toList

theorem jscan_append (st : JLex) (o a b : List Char) : jscan st o (a ++ b) = (jscan st o a).bind fun r => jscan r.1 r.2 b := by
  induction a generalizing st o with
  | nil => rfl
  | cons c cs ih =>
    simp only [List.cons_append, jscan]
    cases jstep st o c with
    | none => rfl
    | some r => exact ih r.1 r.2

theorem jrun_append (st : JLex × List Char) (a b : String) : jrun st (a ++ b) = (jrun st a).bind fun r => jrun r b := by
  unfold jrun
  rw [String.toList_append, jscan_append]

theorem jcode_lift {o : List Char} {c : Char} {r : JLex × List Char} (h : jcode o c = some r) (s : List Char) : jcode (o ++ s) c = some (r.1, r.2 ++ s) := by
  unfold jcode at h ⊢
  split_ifs at h ⊢
  · cases h; rfl
  · cases o with
    | nil => cases h
    | cons x xs =>
      simp only [List.cons_append] at h ⊢
      split_ifs at h ⊢
      cases h; rfl
  all_goals cases h; rfl

theorem jstep_lift {st : JLex} {o : List Char} {c : Char} {r : JLex × List Char} (h : jstep st o c = some r) (s : List Char) :
    jstep st (o ++ s) c = some (r.1, r.2 ++ s) := by
  cases st
  · exact jcode_lift h s
  · simp only [jstep] at h ⊢
    split_ifs at h ⊢
    · cases h; rfl
    · cases h; rfl
    · exact jcode_lift h s
  all_goals
    simp only [jstep] at h ⊢
    split_ifs at h ⊢
    all_goals cases h; rfl

theorem jscan_lift {st : JLex} {o t : List Char} {r : JLex × List Char} (h : jscan st o t = some r) (s : List Char) :
    jscan st (o ++ s) t = some (r.1, r.2 ++ s) := by
  induction t generalizing st o with
  | nil => cases h; rfl
  | cons c cs ih =>
    simp only [jscan] at h ⊢
    cases hs : jstep st o c with
    | none => rw [hs] at h; cases h
    | some x =>
      rw [hs] at h
      rw [jstep_lift hs s]
      exact ih h

theorem jrun_lift {st st' : JLex} {o o' : List Char} {t : String} (h : jrun (st, o) t = some (st', o')) (s : List Char) :
    jrun (st, o ++ s) t = some (st', o' ++ s) := jscan_lift h s

theorem jrun_list {st : JLex} {o o' : List Char} {st' : JLex} {t : String} {l : List Char} (ht : t = String.ofList l)
    (h : jscan st o l = some (st', o')) (s : List Char) : jrun (st, o ++ s) t = some (st', o' ++ s) := by
  subst ht
  refine jrun_lift ?_ s
  unfold jrun
  rw [String.toList_ofList]
  exact h

/-- A text that does not change anything, wherever it stands. -/
theorem jscan_still {st : JLex} {o t : List Char} (h : ∀ c ∈ t, jstep st o c = some (st, o)) : jscan st o t = some (st, o) := by
  induction t with
  | nil => rfl
  | cons c cs ih =>
    simp only [jscan]
    rw [h c (by simp)]
    exact ih fun x hx => h x (List.mem_cons_of_mem _ hx)

theorem plain_code {t : String} (h : PlainText t) (s : List Char) : jrun (.code, s) t = some (.code, s) := by
  refine jscan_still fun c hc => ?_
  have := h c hc
  simp only [List.mem_cons, List.not_mem_nil, or_false, not_or] at this
  simp [jstep, jcode, this]

theorem Spec.PlainText.raw {t : String} (h : PlainText t) : RawText t := fun c hc hr => by
  refine h c hc ?_
  simp only [List.mem_cons, List.not_mem_nil, or_false] at hr ⊢
  tauto

theorem raw_str {t : String} (h : RawText t) (s : List Char) : jrun (.str, s) t = some (.str, s) := by
  refine jscan_still fun c hc => ?_
  have := h c hc
  simp only [List.mem_cons, List.not_mem_nil, or_false, not_or] at this
  simp [jstep, this]

theorem quote_scan {c : Char} (h : 32 ≤ c.toNat ∧ c.toNat ≠ 127 ∨ c ∈ ['\n', '\r', '\t', '\x08', '\x0c']) (s : List Char) :
    jscan .str s (quoteCh c) = some (.str, s) := by
  have e : ∀ x ∈ JavaEscapes, jscan .str s ['\\', x] = some (.str, s) := fun x hx => by
    have h1 : jstep .str s '\\' = some (.esc, s) := rfl
    have h2 : jstep .esc s x = some (.str, s) := if_pos hx
    simp only [jscan, h1, Option.bind_some, h2]
  by_cases h1 : c = '"'
  · subst h1; exact e '"' (by decide)
  by_cases h2 : c = '\\'
  · subst h2; exact e '\\' (by decide)
  by_cases h3 : c = '\n'
  · subst h3; exact e 'n' (by decide)
  by_cases h4 : c = '\r'
  · subst h4; exact e 'r' (by decide)
  by_cases h5 : c = '\t'
  · subst h5; exact e 't' (by decide)
  by_cases h6 : c = '\x08'
  · subst h6; exact e 'b' (by decide)
  by_cases h7 : c = '\x0c'
  · subst h7; exact e 'f' (by decide)
  have h8 : 32 ≤ c.toNat ∧ c.toNat ≠ 127 := by
    rcases h with h | h
    · exact h
    · simp [h3, h4, h5, h6, h7] at h
  have hq : quoteCh c = [c] := by
    unfold quoteCh
    rw [if_neg h1, if_neg h2, if_neg h3, if_neg h4, if_neg h5, if_neg (by omega), if_neg (by omega), if_neg (by omega), if_neg (by omega),
      if_neg (by omega)]
  rw [hq]
  simp [jscan, jstep, h1, h2, h3, h4]

theorem quote_str {t : String} (h : QuotableText t) (s : List Char) : jrun (.str, s) (goQuote t) = some (.str, s) := by
  unfold jrun goQuote
  rw [String.toList_ofList]
  have : ∀ l : List Char, (∀ c ∈ l, 32 ≤ c.toNat ∧ c.toNat ≠ 127 ∨ c ∈ ['\n', '\r', '\t', '\x08', '\x0c']) →
      jscan .str s (l.flatMap quoteCh) = some (.str, s) := by
    intro l hl
    induction l with
    | nil => rfl
    | cons c cs ih =>
      rw [List.flatMap_cons, jscan_append, quote_scan (hl c (by simp))]
      exact ih fun x hx => hl x (List.mem_cons_of_mem _ hx)
  exact this _ h

theorem Spec.PlainText.append {a b : String} (ha : PlainText a) (hb : PlainText b) : PlainText (a ++ b) := fun c hc => by
  rw [String.toList_append] at hc
  exact (List.mem_append.1 hc).elim (ha c) (hb c)

theorem plainText_of {t : String} (h : t.toList.all (fun c => decide (c ∉ ['{', '}', '(', ')', '[', ']', '"', '\'', '/', '\\', '\n', '\r'])) = true) :
    PlainText t := fun c hc => of_decide_eq_true (List.all_eq_true.1 h c hc)

theorem toUpper_plain {c : Char} (hl : c.toNat < 128) (h : c ∉ ['{', '}', '(', ')', '[', ']', '"', '\'', '/', '\\', '\n', '\r']) :
    c.toUpper ∉ ['{', '}', '(', ')', '[', ']', '"', '\'', '/', '\\', '\n', '\r'] ∧
    c.toLower ∉ ['{', '}', '(', ')', '[', ']', '"', '\'', '/', '\\', '\n', '\r'] := by
  have key : ∀ n : Fin 128, Char.ofNat n ∉ ['{', '}', '(', ')', '[', ']', '"', '\'', '/', '\\', '\n', '\r'] →
      (Char.ofNat n).toUpper ∉ ['{', '}', '(', ')', '[', ']', '"', '\'', '/', '\\', '\n', '\r'] ∧
      (Char.ofNat n).toLower ∉ ['{', '}', '(', ')', '[', ']', '"', '\'', '/', '\\', '\n', '\r'] := by decide +kernel
  have := key ⟨c.toNat, hl⟩
  rw [Char.ofNat_toNat] at this
  exact this h

/-- `Option.bind_some`, in a form that does not make Lean compute the text. -/
theorem jrun_some {α β : Type} (a : α) (f : α → Option β) : (some a).bind f = f a := by rw [Option.bind_some]

attribute [irreducible] jrun

end Sadl
