import Verif.Spec.GoLex
import Verif.Lemmas.JavaLexText
/-
Scanning Go text piece by piece.
-/
namespace Sadl
open Sadl.Spec

/-- A text as a piece. -/
def grun (st : GLex × List Char) (t : String) : Option (GLex × List Char) := gscan st.1 st.2 t.toList

theorem gscan_append (st : GLex) (o a b : List Char) : gscan st o (a ++ b) = (gscan st o a).bind fun r => gscan r.1 r.2 b := by
  induction a generalizing st o with
  | nil => rfl
  | cons c cs ih =>
    simp only [List.cons_append, gscan]
    cases gstep st o c with
    | none => rfl
    | some r => exact ih r.1 r.2

theorem grun_append (st : GLex × List Char) (a b : String) : grun st (a ++ b) = (grun st a).bind fun r => grun r b := by
  unfold grun
  rw [String.toList_append, gscan_append]

theorem gcode_lift {o : List Char} {c : Char} {r : GLex × List Char} (h : gcode o c = some r) (s : List Char) : gcode (o ++ s) c = some (r.1, r.2 ++ s) := by
  unfold gcode at h ⊢
  split_ifs at h ⊢
  · cases h; rfl
  · cases o with
    | nil => cases h
    | cons x xs =>
      simp only [List.cons_append] at h ⊢
      split_ifs at h ⊢
      cases h; rfl
  all_goals cases h; rfl

theorem gstep_lift {st : GLex} {o : List Char} {c : Char} {r : GLex × List Char} (h : gstep st o c = some r) (s : List Char) :
    gstep st (o ++ s) c = some (r.1, r.2 ++ s) := by
  cases st
  · exact gcode_lift h s
  · simp only [gstep] at h ⊢
    split_ifs at h ⊢
    · cases h; rfl
    · cases h; rfl
    · exact gcode_lift h s
  all_goals
    simp only [gstep] at h ⊢
    split_ifs at h ⊢
    all_goals cases h; rfl

theorem gscan_lift {st : GLex} {o t : List Char} {r : GLex × List Char} (h : gscan st o t = some r) (s : List Char) :
    gscan st (o ++ s) t = some (r.1, r.2 ++ s) := by
  induction t generalizing st o with
  | nil => cases h; rfl
  | cons c cs ih =>
    simp only [gscan] at h ⊢
    cases hs : gstep st o c with
    | none => rw [hs] at h; cases h
    | some x =>
      rw [hs] at h
      rw [gstep_lift hs s]
      exact ih h

theorem grun_lift {st st' : GLex} {o o' : List Char} {t : String} (h : grun (st, o) t = some (st', o')) (s : List Char) :
    grun (st, o ++ s) t = some (st', o' ++ s) := gscan_lift h s

theorem grun_list {st : GLex} {o o' : List Char} {st' : GLex} {t : String} {l : List Char} (ht : t = String.ofList l)
    (h : gscan st o l = some (st', o')) (s : List Char) : grun (st, o ++ s) t = some (st', o' ++ s) := by
  subst ht
  refine grun_lift ?_ s
  unfold grun
  rw [String.toList_ofList]
  exact h

/-- A text that does not change anything, wherever it stands. -/
theorem gscan_still {st : GLex} {o t : List Char} (h : ∀ c ∈ t, gstep st o c = some (st, o)) : gscan st o t = some (st, o) := by
  induction t with
  | nil => rfl
  | cons c cs ih =>
    simp only [gscan]
    rw [h c (by simp)]
    exact ih fun x hx => h x (List.mem_cons_of_mem _ hx)

theorem Spec.GoName.code {t : String} (h : GoName t) (s : List Char) : grun (.code, s) t = some (.code, s) := by
  refine gscan_still fun c hc => ?_
  have h1 := h.1 c hc
  have h2 : c ≠ '`' := fun e => h.2 (e ▸ hc)
  simp only [List.mem_cons, List.not_mem_nil, or_false, not_or] at h1
  simp [gstep, gcode, h1, h2]

theorem Spec.GoName.line {t : String} (h : GoName t) (s : List Char) : grun (.line, s) t = some (.line, s) := by
  refine gscan_still fun c hc => ?_
  have h1 := h.1 c hc
  simp only [List.mem_cons, List.not_mem_nil, or_false, not_or] at h1
  simp [gstep, h1]

theorem Spec.GoName.inRaw {t : String} (h : GoName t) (s : List Char) : grun (.raw, s) t = some (.raw, s) := by
  refine gscan_still fun c hc => ?_
  have h2 : c ≠ '`' := fun e => h.2 (e ▸ hc)
  simp [gstep, h2]

theorem Spec.GoName.raw {t : String} (h : GoName t) : GoQuotable t := fun c hc => by
  have := h.1 c hc
  simp only [List.mem_cons, List.not_mem_nil, or_false, not_or] at this
  tauto

theorem Spec.GoQuotable.str {t : String} (h : GoQuotable t) (s : List Char) : grun (.str, s) t = some (.str, s) := by
  refine gscan_still fun c hc => ?_
  have := h c hc
  simp [gstep, this]

theorem Spec.GoName.str {t : String} (h : GoName t) (s : List Char) : grun (.str, s) t = some (.str, s) := GoQuotable.str (GoName.raw h) s

theorem gquote_scan (c : Char) (s : List Char) : gscan .str s (quoteCh c) = some (.str, s) := by
  have e : ∀ x, (x = '"' ∨ x ∈ GoEscapes) → gscan .str s ['\\', x] = some (.str, s) := fun x hx => by
    have h1 : gstep .str s '\\' = some (.esc, s) := rfl
    have h2 : gstep .esc s x = some (.str, s) := if_pos hx
    simp only [gscan, h1, Option.bind_some, h2]
  unfold quoteCh
  split_ifs with h1 h2 h3 h4 h5 h6 h7 h8 h9 h10
  · exact e _ (by decide)
  · exact e _ (by decide)
  · exact e _ (by decide)
  · exact e _ (by decide)
  · exact e _ (by decide)
  · exact e _ (by decide)
  · exact e _ (by decide)
  · exact e _ (by decide)
  · exact e _ (by decide)
  · have hd : ∀ n : Nat, n < 16 → gstep .str s (Nat.digitChar n) = some (.str, s) := by
      intro n hn
      have key : ∀ k : Fin 16, Nat.digitChar k ≠ '"' ∧ Nat.digitChar k ≠ '\\' ∧ Nat.digitChar k ≠ '\n' := by decide
      obtain ⟨a, b, c⟩ := key ⟨n, hn⟩
      simp only at a b c
      simp [gstep, a, b, c]
    have hlt : c.toNat < 128 := by omega
    have a := hd (c.toNat / 16) (by omega)
    have b := hd (c.toNat % 16) (by omega)
    have h1 : gstep .str s '\\' = some (.esc, s) := rfl
    have h2 : gstep .esc s 'x' = some (.str, s) := rfl
    simp only [gscan, h1, h2, a, b, Option.bind_some]
  · simp [gscan, gstep, h1, h2, h3]

theorem gquote_str (t : String) (s : List Char) : grun (.str, s) (goQuote t) = some (.str, s) := by
  unfold grun goQuote
  rw [String.toList_ofList]
  induction t.toList with
  | nil => rfl
  | cons c cs ih =>
    rw [List.flatMap_cons, gscan_append, gquote_scan c]
    exact ih

theorem Spec.GoName.append {a b : String} (ha : GoName a) (hb : GoName b) : GoName (a ++ b) :=
  ⟨ha.1.append hb.1, fun hc => by
    rw [String.toList_append] at hc
    exact (List.mem_append.1 hc).elim ha.2 hb.2⟩

theorem goName_of {t : String} (h : t.toList.all (fun c => decide (c ∉ ['{', '}', '(', ')', '[', ']', '"', '\'', '/', '\\', '\n', '\r', '`'])) = true) :
    GoName t := by
  have h : ∀ c ∈ t.toList, c ∉ ['{', '}', '(', ')', '[', ']', '"', '\'', '/', '\\', '\n', '\r', '`'] :=
    fun c hc => of_decide_eq_true (List.all_eq_true.1 h c hc)
  refine ⟨fun c hc hm => h c hc ?_, fun hc => h _ hc (by simp)⟩
  simp only [List.mem_cons, List.not_mem_nil, or_false] at hm ⊢
  tauto

theorem grave_case {c : Char} (hl : c.toNat < 128) : (c.toUpper = '`' → c = '`') ∧ (c.toLower = '`' → c = '`') := by
  have key : ∀ n : Fin 128, ((Char.ofNat n).toUpper = '`' → Char.ofNat n = '`') ∧ ((Char.ofNat n).toLower = '`' → Char.ofNat n = '`') := by
    decide +kernel
  have := key ⟨c.toNat, hl⟩
  rwa [Char.ofNat_toNat] at this

theorem Spec.GoName.capitalize {t : String} (h : GoName t) : GoName (capitalize t) := ⟨h.1.capitalize, fun hc => by
  refine h.2 ?_
  unfold Sadl.capitalize at hc
  rw [String.toList_ofList] at hc
  revert hc
  cases t.toList with
  | nil => exact id
  | cons a r =>
    intro hc
    simp only [capitalizeL] at hc
    rcases List.mem_cons.1 hc with hc | hc
    · split at hc
      · next hl => rw [(grave_case hl).1 hc.symm]; simp
      · rw [hc]; simp
    · exact List.mem_cons_of_mem _ hc⟩

theorem Spec.GoName.uncapitalize {t : String} (h : GoName t) : GoName (uncapitalize t) := ⟨h.1.uncapitalize, fun hc => by
  refine h.2 ?_
  unfold Sadl.uncapitalize at hc
  rw [String.toList_ofList] at hc
  revert hc
  cases t.toList with
  | nil => exact id
  | cons a r =>
    intro hc
    simp only [uncapitalizeL] at hc
    rcases List.mem_cons.1 hc with hc | hc
    · split at hc
      · next hl => rw [(grave_case hl).2 hc.symm]; simp
      · rw [hc]; simp
    · exact List.mem_cons_of_mem _ hc⟩

theorem goName_nat (n : Nat) : GoName (toString n) := ⟨plain_nat n, fun hc => by
  have hc : '`' ∈ Nat.toDigits 10 n := by simpa [toString, Nat.repr] using hc
  exact absurd (Nat.isDigit_of_mem_toDigits (by decide) (by decide) hc) (by decide)⟩

theorem goName_int (n : Int) : GoName (toString n) := by
  cases n with
  | ofNat n => exact goName_nat n
  | negSucc n =>
    have : toString (Int.negSucc n) = "-" ++ toString (n + 1) := rfl
    rw [this]
    exact GoName.append (goName_of (by decide)) (goName_nat _)

/-! ### Pieces -/

theorem grun_empty (st : GLex × List Char) : grun st "" = some st := by unfold grun; rfl

/-- Outside of strings and comments, the text leaves everything as it is. -/
def GNeutral (t : String) : Prop := ∀ s, grun (.code, s) t = some (.code, s)

theorem GNeutral.empty : GNeutral "" := fun _ => grun_empty _
theorem GNeutral.run {t : String} (h : GNeutral t) (s : List Char) : grun (.code, s) t = some (.code, s) := h s
theorem GNeutral.append {a b : String} (ha : GNeutral a) (hb : GNeutral b) : GNeutral (a ++ b) := fun s => by
  rw [grun_append, ha s, Option.bind_some, hb s]

theorem GNeutral.ite {p : Prop} [Decidable p] {a b : String} (ha : p → GNeutral a) (hb : ¬ p → GNeutral b) : GNeutral (if p then a else b) := by
  split
  · next h => exact ha h
  · next h => exact hb h

theorem string_join_cons (x : String) (xs : List String) : String.join (x :: xs) = x ++ String.join xs := by
  simp [String.join_cons]

theorem GNeutral.join {α : Type} {xs : List α} {f : α → String} (h : ∀ x ∈ xs, GNeutral (f x)) : GNeutral (String.join (xs.map f)) := by
  induction xs with
  | nil => exact .empty
  | cons x xs ih =>
    rw [List.map_cons, string_join_cons]
    exact (h x (by simp)).append (ih fun y hy => h y (List.mem_cons_of_mem _ hy))

/-- `Option.bind_some`, in a form that does not make Lean compute the text. -/
theorem grun_some {α β : Type} (a : α) (f : α → Option β) : (some a).bind f = f a := by rw [Option.bind_some]

attribute [irreducible] grun

end Sadl
