import Verif.Model.Http
import Verif.Spec.Paths
import Verif.Lemmas.Text
namespace Sadl
open Spec

theorem pathLoop_append (w r : List Char) (h : ∀ c ∈ w, c ≠ '{' ∧ c ≠ '}' ∧ c ≠ '/') :
    pathLoop true (w ++ '}' :: r) = pathLoop false r := by
  induction w with
  | nil => simp [pathLoop]
  | cons c w' ih =>
    have hc := h c (by simp)
    simp only [List.cons_append, pathLoop, hc.1, hc.2.1, hc.2.2, if_false]
    exact ih (fun x hx => h x (by simp [hx]))

theorem pathLoop_true_inv : ∀ (s : List Char), pathLoop true s = true →
    ∃ w r, s = w ++ '}' :: r ∧ (∀ c ∈ w, c ≠ '{' ∧ c ≠ '}' ∧ c ≠ '/') ∧ pathLoop false r = true := by
  intro s
  induction s with
  | nil => simp [pathLoop]
  | cons c r ih =>
    intro h
    simp only [pathLoop, if_true] at h
    split_ifs at h with h1 h2 h3
    · exact ⟨[], r, by simp [h2], by simp, h⟩
    · obtain ⟨w, r', e, hw, hr⟩ := ih h
      refine ⟨c :: w, r', by simp [e], ?_, hr⟩
      intro x hx
      rcases List.mem_cons.1 hx with rfl | hx
      · exact ⟨h1, h2, h3⟩
      · exact hw x hx

theorem pathLoop_iff (s : List Char) : pathLoop false s = true ↔ Template s := by
  constructor
  · intro h
    induction hn : s.length using Nat.strong_induction_on generalizing s with
    | _ n ih =>
      cases s with
      | nil => exact .nil
      | cons c r =>
        simp only [pathLoop, Bool.false_eq_true, if_false] at h
        split_ifs at h with h1 h2 h3
        · obtain ⟨w, r', e, hw, hr⟩ := pathLoop_true_inv r h
          subst h1 e
          exact .var hw (ih r'.length (by rw [← hn]; simp only [List.length_cons, List.length_append]; omega) r' hr rfl)
        · exact .char h1 h2 (ih r.length (by rw [← hn]; simp) r h rfl)
        · exact .char h1 h2 (ih r.length (by rw [← hn]; simp) r h rfl)
  · intro h
    induction h with
    | nil => rfl
    | char h1 h2 _ ih =>
      unfold pathLoop
      rw [if_neg h1, if_neg h2]
      simpa using ih
    | @var w r hw _ ih =>
      simp only [List.cons_append, pathLoop, if_true, Bool.false_eq_true, if_false]
      rw [pathLoop_append w r hw]; exact ih

theorem pathAndQuery (t : List Char) : PathAndQuery t (pathPart t) (queryPart t) := by
  unfold PathAndQuery pathPart queryPart
  cases h : splitFirst '?' t with
  | none => exact ⟨splitFirst_none.1 h, .inr ⟨rfl, rfl⟩⟩
  | some p => obtain ⟨a, b⟩ := p; have := splitFirst_some.1 h; exact ⟨this.2, .inl this.1⟩

theorem pathAndQuery_unique {t p q : List Char} (h : PathAndQuery t p q) : p = pathPart t ∧ q = queryPart t := by
  obtain ⟨h1, h2⟩ := h
  unfold pathPart queryPart
  rcases h2 with h2 | ⟨h2, h3⟩
  · rw [splitFirst_some.2 ⟨h2, h1⟩]; exact ⟨rfl, rfl⟩
  · subst h2; rw [splitFirst_none.2 h1]; exact ⟨rfl, h3⟩

theorem pieces_splitAll (c : Char) (s : List Char) : Pieces c s (splitAll c s) :=
  ⟨splitAll_ne_nil c s, not_mem_splitAll c s, by rw [← joinWith_eq, joinWith_splitAll]⟩

theorem pieces_unique {c : Char} {s : List Char} {ws : List (List Char)} (h : Pieces c s ws) : ws = splitAll c s := by
  obtain ⟨h1, h2, h3⟩ := h
  rw [← h3, ← joinWith_eq, splitAll_joinWith h1 h2]

theorem containsSub_iff (sub s : List Char) : containsSub sub s = true ↔ Occurs sub s := by
  induction s with
  | nil =>
    simp only [containsSub, List.isPrefixOf_iff_prefix, List.prefix_nil, Occurs]
    constructor
    · rintro rfl; exact ⟨[], [], rfl⟩
    · rintro ⟨a, b, h⟩
      have := congrArg List.length h
      simp only [List.length_nil, List.length_append] at this
      exact List.length_eq_zero_iff.1 (by omega)
  | cons x r ih =>
    simp only [containsSub, Bool.or_eq_true, ih, List.isPrefixOf_iff_prefix]
    constructor
    · rintro (⟨b, h⟩ | ⟨a, b, h⟩)
      · exact ⟨[], b, by simp [h]⟩
      · exact ⟨x :: a, b, by simp [h]⟩
    · rintro ⟨a, b, h⟩
      cases a with
      | nil => exact .inl ⟨b, by simpa using h.symm⟩
      | cons y a' =>
        simp only [List.cons_append, List.cons.injEq] at h
        exact .inr ⟨a', b, h.2⟩

theorem parameterSource_eq (pathTemplate name header : String) :
    parameterSource pathTemplate name header =
      if header ≠ "" then .header header
      else if containsSub (braced name) (pathPart pathTemplate.toList) then .path
      else match queryKey (braced name) (splitAll '&' (queryPart pathTemplate.toList)) with
        | some k => .query (String.ofList k)
        | none => .body := rfl

/-- The loop over the query items. -/
theorem queryKey_some (want : List Char) (items : List (List Char)) (k : List Char) :
    queryKey want items = some k ↔
      ∃ before item after, items = before ++ item :: after ∧ (∃ more, splitAll '=' item = k :: want :: more) ∧
        ∀ i ∈ before, ∀ k' more, splitAll '=' i ≠ k' :: want :: more := by
  induction items with
  | nil => simp [queryKey]
  | cons i r ih =>
    have hcase : (∃ k' more, splitAll '=' i = k' :: want :: more) ∨ (∀ k' more, splitAll '=' i ≠ k' :: want :: more) := by
      by_cases h : ∃ k' more, splitAll '=' i = k' :: want :: more
      · exact .inl h
      · exact .inr (by push Not at h; exact h)
    rcases hcase with ⟨k', more, hi⟩ | hi
    · have e : queryKey want (i :: r) = some k' := by simp [queryKey, hi]
      rw [e]
      constructor
      · intro h; injection h with h; subst h
        exact ⟨[], i, r, rfl, ⟨more, hi⟩, by simp⟩
      · rintro ⟨before, item, after, h1, ⟨m, h2⟩, h3⟩
        cases before with
        | nil =>
          simp only [List.nil_append, List.cons.injEq] at h1
          rw [h1.1, h2] at hi
          simp only [List.cons.injEq] at hi
          rw [hi.1]
        | cons b bs =>
          simp only [List.cons_append, List.cons.injEq] at h1
          exact absurd hi (h1.1 ▸ h3 b (by simp) k' more)
    · have e : queryKey want (i :: r) = queryKey want r := by
        rw [queryKey]
        split
        · next k v m hs =>
          rw [if_neg]
          rintro rfl
          exact hi _ _ hs
        · rfl
      rw [e, ih]
      constructor
      · rintro ⟨before, item, after, h1, h2, h3⟩
        refine ⟨i :: before, item, after, by simp [h1], h2, ?_⟩
        intro j hj
        rcases List.mem_cons.1 hj with rfl | hj
        · exact hi
        · exact h3 j hj
      · rintro ⟨before, item, after, h1, h2, h3⟩
        cases before with
        | nil =>
          simp only [List.nil_append, List.cons.injEq] at h1
          obtain ⟨m, h2⟩ := h2
          exact absurd (h1.1 ▸ h2) (hi k m)
        | cons b bs =>
          simp only [List.cons_append, List.cons.injEq] at h1
          exact ⟨bs, item, after, h1.2, h2, fun j hj => h3 j (by simp [hj])⟩

theorem resourceNameL_eq {segs before after : List (List Char)} {seg : List Char}
    (h : segs = before ++ seg :: after) (hs : '{' ∉ seg) (ha : ∀ a ∈ after, '{' ∈ a) :
    resourceNameL segs.reverse = seg := by
  subst h
  rw [List.reverse_append, List.reverse_cons, List.append_assoc, List.cons_append, List.nil_append]
  have : ∀ (l : List (List Char)) (r : List (List Char)), (∀ a ∈ l, '{' ∈ a) → resourceNameL (l ++ seg :: r) = seg := by
    intro l r hl
    induction l with
    | nil => simp [resourceNameL, hs]
    | cons x l' ih =>
      rw [List.cons_append, resourceNameL, if_pos (hl x (by simp))]
      exact ih (fun a ha => hl a (by simp [ha]))
  exact this _ _ (fun a h => ha a (by simpa using h))

theorem resourceNameL_none {segs : List (List Char)} (ha : ∀ a ∈ segs, '{' ∈ a) : resourceNameL segs.reverse = [] := by
  have : ∀ l : List (List Char), (∀ a ∈ l, '{' ∈ a) → resourceNameL l = [] := by
    intro l hl
    induction l with
    | nil => rfl
    | cons x l' ih => rw [resourceNameL, if_pos (hl x (by simp))]; exact ih (fun a ha => hl a (by simp [ha]))
  exact this _ (fun a h => ha a (by simpa using h))

end Sadl
