import Verif.Lemmas.JavaLits
import Verif.Props.HttpTrace
import Verif.Lemmas.Path
/-
Generated Java text is well formed, piece by piece.
-/
namespace Sadl
open Sadl.Spec Sadl.JavaLits

/-- Outside of strings and comments, the text leaves everything as it is. -/
def Neutral (t : String) : Prop := ∀ s, jrun (.code, s) t = some (.code, s)

theorem jrun_empty (st : JLex × List Char) : jrun st "" = some st := by unfold jrun; rfl

theorem Neutral.empty : Neutral "" := fun _ => jrun_empty _
theorem Neutral.append {a b : String} (ha : Neutral a) (hb : Neutral b) : Neutral (a ++ b) := fun s => by
  rw [jrun_append, ha s, Option.bind_some, hb s]

theorem Neutral.ite {p : Prop} [Decidable p] {a b : String} (ha : p → Neutral a) (hb : ¬ p → Neutral b) : Neutral (if p then a else b) := by
  split
  · next h => exact ha h
  · next h => exact hb h

theorem Spec.PlainText.neutral {t : String} (h : PlainText t) : Neutral t := plain_code h

theorem catAll_cons (x : String) (xs : List String) : catAll (x :: xs) = x ++ catAll xs := by
  have : ∀ (l : List String) (a : String), l.foldl (· ++ ·) a = a ++ l.foldl (· ++ ·) "" := by
    intro l
    induction l with
    | nil => intro a; simp
    | cons y ys ih => intro a; rw [List.foldl_cons, List.foldl_cons, ih (a ++ y), ih ("" ++ y), String.empty_append, String.append_assoc]
  unfold catAll
  rw [List.foldl_cons, this, String.empty_append]

theorem Neutral.catAll {xs : List String} (h : ∀ x ∈ xs, Neutral x) : Neutral (catAll xs) := by
  induction xs with
  | nil => exact .empty
  | cons x xs ih =>
    rw [catAll_cons]
    exact (h x (by simp)).append (ih fun y hy => h y (List.mem_cons_of_mem _ hy))

theorem Neutral.catMap {α : Type} {xs : List α} {f : α → String} (h : ∀ x ∈ xs, Neutral (f x)) : Neutral (Sadl.catAll (xs.map f)) :=
  .catAll fun _ hy => by obtain ⟨x, hx, rfl⟩ := List.mem_map.1 hy; exact h x hx

theorem Neutral.join {sep : String} (hs : Neutral sep) {α : Type} {xs : List α} {f : α → String} (h : ∀ x ∈ xs, Neutral (f x)) :
    Neutral (String.intercalate sep (xs.map f)) := by
  induction xs with
  | nil => exact .empty
  | cons x xs ih =>
    cases xs with
    | nil => simpa using h x (by simp)
    | cons y ys =>
      rw [List.map_cons, List.map_cons, String.intercalate_cons_cons]
      exact ((h x (by simp)).append hs).append (ih fun z hz => h z (List.mem_cons_of_mem _ hz))

/-! ### Names -/

theorem Spec.PlainText.capitalize {t : String} (h : PlainText t) : PlainText (capitalize t) := fun c hc => by
  unfold Sadl.capitalize at hc
  rw [String.toList_ofList] at hc
  revert h hc
  unfold PlainText
  cases t.toList with
  | nil => intro _ hc; cases hc
  | cons a r =>
    intro h hc
    simp only [capitalizeL] at hc
    rcases List.mem_cons.1 hc with rfl | hc
    · split
      · next hl => exact (toUpper_plain hl (h a (by simp))).1
      · exact h a (by simp)
    · exact h c (List.mem_cons_of_mem _ hc)

theorem Spec.PlainText.uncapitalize {t : String} (h : PlainText t) : PlainText (uncapitalize t) := fun c hc => by
  unfold Sadl.uncapitalize at hc
  rw [String.toList_ofList] at hc
  revert h hc
  unfold PlainText
  cases t.toList with
  | nil => intro _ hc; cases hc
  | cons a r =>
    intro h hc
    simp only [uncapitalizeL] at hc
    rcases List.mem_cons.1 hc with rfl | hc
    · split
      · next hl => exact (toUpper_plain hl (h a (by simp))).2
      · exact h a (by simp)
    · exact h c (List.mem_cons_of_mem _ hc)

theorem toLower_high {c : Char} (h : ¬ c.toNat < 128) : c.toLower = c := by
  unfold Char.toLower
  rw [dif_neg]
  intro hc
  have : c.val.toNat ≤ 90 := by
    have := hc.2
    exact UInt32.le_iff_toNat_le.1 this
  exact h (by show c.val.toNat < 128; omega)

theorem Spec.PlainText.lower {t : String} (h : PlainText t) : PlainText (lowerAscii t) := fun c hc => by
  unfold lowerAscii at hc
  rw [String.toList_ofList] at hc
  obtain ⟨a, ha, rfl⟩ := List.mem_map.1 hc
  by_cases hl : a.toNat < 128
  · exact (toUpper_plain hl (h a ha)).2
  · rw [toLower_high hl]; exact h a ha

theorem plain_nat (n : Nat) : PlainText (toString n) := fun c hc hm => by
  have hc : c ∈ Nat.toDigits 10 n := by simpa [toString, Nat.repr] using hc
  have := Nat.isDigit_of_mem_toDigits (by decide) (by decide) hc
  exact absurd this ((by decide : ∀ c ∈ ['{', '}', '(', ')', '[', ']', '"', '\'', '/', '\\', '\n', '\r'], ¬ c.isDigit = true) c hm)

theorem plain_int (n : Int) : PlainText (toString n) := by
  cases n with
  | ofNat n => exact plain_nat n
  | negSucc n =>
    have : toString (Int.negSucc n) = "-" ++ toString (n + 1) := rfl
    rw [this]
    exact PlainText.append (plainText_of (by decide)) (plain_nat _)

/-! ### Comments -/

theorem line_still {t : List Char} (hn : '\n' ∉ t) (hr : '\r' ∉ t) (s : List Char) : jscan .line s t = some (.line, s) :=
  jscan_still fun c hc => by
    have h1 : c ≠ '\n' := fun h => hn (h ▸ hc)
    have h2 : c ≠ '\r' := fun h => hr (h ▸ hc)
    simp [jstep, h1, h2]

/-- The indentation of a comment. -/
def Blank (t : List Char) : Prop := ∀ c ∈ t, c = ' '

theorem blank_still {t : List Char} (h : Blank t) (s : List Char) : jscan .code s t = some (.code, s) :=
  jscan_still fun c hc => by rw [h c hc]; rfl

theorem line_start {t body : List Char} (h : Blank t) (hn : '\n' ∉ body) (hr : '\r' ∉ body) (s : List Char) :
    jscan .code s (t ++ "// ".toList ++ body) = some (.line, s) := by
  rw [jscan_append, jscan_append, blank_still h]
  exact line_still hn hr s

theorem fcLoop_neutral {tab : List Char} (ht : Blank tab) (maxcol : Int) (words : List (List Char))
    (hw : ∀ w ∈ words, '\n' ∉ w ∧ '\r' ∉ w) (s : List Char) : ∀ col : Int, 0 ≤ col →
    jscan (if col = 0 then .code else .line) s (fcLoop tab "// ".toList maxcol col words) = some (.code, s) := by
  induction words with
  | nil =>
    intro col _
    split <;> rfl
  | cons w ws ih =>
    intro col hc
    obtain ⟨hn, hr⟩ := hw w (by simp)
    have ih := ih fun v hv => hw v (List.mem_cons_of_mem _ hv)
    have begin_ : jscan .code s (tab ++ "// ".toList ++ w ++ fcLoop tab "// ".toList maxcol (tab.length + byteLen "// ".toList + byteLen w) ws) =
        some (.code, s) := by
      rw [jscan_append, line_start ht hn hr]
      have h3 : (byteLen "// ".toList) = 3 := by decide
      have h4 := ih (tab.length + byteLen "// ".toList + byteLen w) (by omega)
      rw [if_neg (by omega)] at h4
      exact h4
    unfold fcLoop
    by_cases hb : maxcol ≤ col + byteLen w
    · simp only [hb, decide_true, if_true]
      rw [jscan_append]
      have : jscan (if col = 0 then .code else .line) s ['\n'] = some (.code, s) := by split <;> rfl
      rw [this]
      exact begin_
    · simp only [hb, decide_false, Bool.false_eq_true, if_false, List.nil_append]
      by_cases h0 : col = 0
      · rw [if_pos h0, if_pos h0]
        exact begin_
      · rw [if_neg h0, if_neg h0]
        rw [jscan_append, line_still (by simp [hn]) (by simp [hr])]
        have h4 := ih (col + byteLen w + 1) (by omega)
        rw [if_neg (by omega)] at h4
        exact h4

theorem mem_joinWith {c : Char} {ws : List (List Char)} {w : List Char} (h : w ∈ ws) {x : Char} (hx : x ∈ w) : x ∈ joinWith c ws := by
  induction ws with
  | nil => cases h
  | cons v vs ih =>
    cases vs with
    | nil =>
      rcases List.mem_cons.1 h with rfl | h
      · simpa [joinWith] using hx
      · cases h
    | cons u us =>
      simp only [joinWith, List.mem_append, List.mem_cons]
      rcases List.mem_cons.1 h with rfl | h
      · exact Or.inl hx
      · exact Or.inr (Or.inr (ih h))

theorem splitAll_part {c : Char} {l : List Char} : ∀ part ∈ splitAll c l, c ∉ part ∧ ∀ x ∈ part, x ∈ l := by
  intro part h
  refine ⟨splitAll_mem _ h, fun x hx => ?_⟩
  rw [← joinWith_splitAll c l]
  exact mem_joinWith h hx

theorem javaComment_neutral {indent comment : String} (hi : Blank indent.toList) (hc : CommentText comment) (maxcol : Int) :
    Neutral (javaComment indent comment maxcol) := fun s => by
  unfold jrun javaComment
  rw [String.toList_ofList]
  unfold formatComment
  have hb : Blank (List.replicate (byteLen indent.toList) ' ') := fun c h => (List.mem_replicate.1 h).2
  simp only
  split
  · next h =>
    rw [jscan_append, line_start hi h.2 hc]
    rfl
  · split
    · have key : ∀ parts : List (List Char), (∀ p ∈ parts, '\n' ∉ p ∧ '\r' ∉ p) →
          jscan .code s (parts.flatMap fun line => List.replicate (byteLen indent.toList) ' ' ++ "// ".toList ++ line ++ ['\n']) = some (.code, s) := by
        intro parts hp
        induction parts with
        | nil => rfl
        | cons p ps ih =>
          rw [List.flatMap_cons, jscan_append, jscan_append, line_start hb (hp p (by simp)).1 (hp p (by simp)).2]
          exact ih fun q hq => hp q (List.mem_cons_of_mem _ hq)
      exact key _ fun p hp => ⟨(splitAll_part _ hp).1, fun h => hc ((splitAll_part _ hp).2 _ h)⟩
    · next hn =>
      simp only [Bool.false_eq_true, if_false, List.nil_append, List.append_nil]
      exact fcLoop_neutral hb maxcol _ (fun w hw => ⟨fun h => hn ((splitAll_part _ hw).2 _ h), fun h => hc ((splitAll_part _ hw).2 _ h)⟩) s 0 (by omega)

/-! ### Types and annotations -/

/-- The names in a Java type are plain. -/
inductive PlainTy : JTy → Prop
  | name {n} : PlainText n → PlainTy (.name n)
  | list {t} : PlainTy t → PlainTy (.list t)
  | map {k t} : PlainTy k → PlainTy t → PlainTy (.map k t)

theorem PlainTy.plain {t : JTy} (h : PlainTy t) : PlainText t.text := by
  induction h with
  | name h => exact h
  | list _ ih => exact PlainText.append (PlainText.append (a := "List<") (plainText_of (by decide)) ih) (b := ">") (plainText_of (by decide))
  | map _ _ ih1 ih2 =>
    exact PlainText.append (PlainText.append (PlainText.append (PlainText.append (a := "Map<") (plainText_of (by decide)) ih1)
      (b := ",") (plainText_of (by decide))) ih2) (b := ">") (plainText_of (by decide))

/-- The texts of an annotation can be written. -/
def PlainAnno : JAnno → Prop
  | .pattern re => QuotableText re
  | .min d | .max d => PlainText d
  | .decimalMin d | .decimalMax d => QuotableText d
  | _ => True

theorem PlainAnno.neutral {a : JAnno} (h : PlainAnno a) : Neutral a.text := fun s => by
  cases a with
  | notNull => exact (by jlex [] : jrun (.code, s) "@NotNull" = some (.code, s))
  | pattern re => exact (by jlex [quote_str (t := re) h] : jrun (.code, s) ("@Pattern(regexp=\"" ++ goQuote re ++ "\")") = some (.code, s))
  | size lo hi =>
    cases lo with
    | none =>
      cases hi with
      | none => exact (by jlex [jrun_empty] : jrun (.code, s) ("@Size(" ++ "" ++ "" ++ ")") = some (.code, s))
      | some b =>
        refine Eq.trans ?_ (by jlex [jrun_empty, plain_code (plain_int _)] : jrun (.code, s) ("@Size(" ++ "" ++ ("max=" ++ toString b) ++ ")") = some (.code, s))
        unfold JAnno.text
        simp only [ne_eq, not_true_eq_false, if_false]
    | some a =>
      cases hi with
      | none => exact (by jlex [jrun_empty, plain_code (plain_int _)] : jrun (.code, s) ("@Size(" ++ ("min=" ++ toString a) ++ "" ++ ")") = some (.code, s))
      | some b =>
        refine Eq.trans ?_ (by jlex [plain_code (plain_int _)] : jrun (.code, s) ("@Size(" ++ ("min=" ++ toString a) ++ (", max=" ++ toString b) ++ ")") = some (.code, s))
        have : ("min=" ++ toString a) ≠ "" := fun h => by
          have := congrArg String.length h
          rw [String.length_append] at this
          have h2 : "min=".length = 4 := rfl
          have h3 : "".length = 0 := rfl
          omega
        unfold JAnno.text
        simp only [if_pos this]
  | min d => exact (by jlex [plain_code (t := d) h] : jrun (.code, s) ("@Min(" ++ d ++ ")") = some (.code, s))
  | max d => exact (by jlex [plain_code (t := d) h] : jrun (.code, s) ("@Max(" ++ d ++ ")") = some (.code, s))
  | decimalMin d => exact (by jlex [quote_str (t := d) h] : jrun (.code, s) ("@DecimalMin(\"" ++ goQuote d ++ "\")") = some (.code, s))
  | decimalMax d => exact (by jlex [quote_str (t := d) h] : jrun (.code, s) ("@DecimalMax(\"" ++ goQuote d ++ "\")") = some (.code, s))
  | serialize => exact (by jlex [] : jrun (.code, s) "@JsonSerialize(using = Util.InstantSerializer.class)" = some (.code, s))
  | deserialize => exact (by jlex [] : jrun (.code, s) "@JsonDeserialize(using = Util.InstantDeserializer.class)" = some (.code, s))

end Sadl
