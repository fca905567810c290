import Verif.Lemmas.SmithyTypes
import Verif.Spec.SmithyAnnos
/-
The annotations made of the traits of Smithy.
-/
namespace Sadl
namespace Smithy
open Sadl.Spec

theorem mget_withAnnotation (annos : GoMap String) (k v a : String) : mget (withAnnotation annos k v) a = if a = k ∧ v ≠ "" then some v else mget annos a := by
  unfold withAnnotation
  by_cases c : v ≠ ""
  · rw [if_pos c, mget_mset]
    simp [c]
  · rw [if_neg c]
    simp [c]

/-- Which trait is the source of which annotation. -/
def annoTable : List (String × String × (Value → String)) :=
  [("smithy.api#error", "x_error", asString), ("smithy.api#tags", "x_tags", fun v => String.ofList (joinWith ',' ((asStringArray v).map String.toList))),
   ("smithy.api#timestampFormat", "x_timestampFormat", asString), ("smithy.api#enumValue", "x_enumValue", asString),
   ("smithy.api#deprecated", "x_deprecated", fun _ => "true"),
   ("smithy.api#deprecated", "x_deprecated_message", fun v => asString (getKey ((asMap v).getD []) "message")),
   ("smithy.api#deprecated", "x_deprecated_since", fun v => asString (getKey ((asMap v).getD []) "since")),
   ("smithy.api#paginated", "x_paginated", importPaginated)]

theorem importTrait_get {lib : SLib} {ast : Ast} {annos r : GoMap String} {k : String} {v : Value} (h : importTrait lib ast annos k v = .ok r)
    {trait anno : String} {f : Value → String} (ht : (trait, anno, f) ∈ annoTable) :
    mget r anno = if k = trait ∧ f v ≠ "" then some (f v) else mget annos anno := by
  simp only [annoTable, List.mem_cons, Prod.mk.injEq, List.not_mem_nil, or_false] at ht
  unfold importTrait at h
  have other : r = annos → k ∉ ["smithy.api#error", "smithy.api#tags", "smithy.api#timestampFormat", "smithy.api#enumValue", "smithy.api#deprecated", "smithy.api#paginated"] →
      mget r anno = if k = trait ∧ f v ≠ "" then some (f v) else mget annos anno := by
    intro e hk
    subst e
    rw [if_neg]
    rintro ⟨rfl, -⟩
    rcases ht with ⟨rfl, -⟩ | ⟨rfl, -⟩ | ⟨rfl, -⟩ | ⟨rfl, -⟩ | ⟨rfl, -⟩ | ⟨rfl, -⟩ | ⟨rfl, -⟩ | ⟨rfl, -⟩ <;> exact hk (by decide)
  by_cases c1 : k = "smithy.api#error"
  · rw [if_pos c1] at h; cases h; subst c1
    rw [mget_withAnnotation]
    rcases ht with ⟨rfl, rfl, rfl⟩ | ⟨rfl, rfl, rfl⟩ | ⟨rfl, rfl, rfl⟩ | ⟨rfl, rfl, rfl⟩ | ⟨rfl, rfl, rfl⟩ | ⟨rfl, rfl, rfl⟩ | ⟨rfl, rfl, rfl⟩ | ⟨rfl, rfl, rfl⟩ <;> simp
  rw [if_neg c1] at h
  by_cases c2 : k = "smithy.api#httpError"
  · rw [if_pos c2] at h; cases h; subst c2
    rw [mget_withAnnotation]
    rcases ht with ⟨rfl, rfl, rfl⟩ | ⟨rfl, rfl, rfl⟩ | ⟨rfl, rfl, rfl⟩ | ⟨rfl, rfl, rfl⟩ | ⟨rfl, rfl, rfl⟩ | ⟨rfl, rfl, rfl⟩ | ⟨rfl, rfl, rfl⟩ | ⟨rfl, rfl, rfl⟩ <;> simp
  rw [if_neg c2] at h
  by_cases c3 : k ∈ ignoredTraits
  · rw [if_pos c3] at h; cases h
    refine other rfl ?_
    have : ∀ x ∈ ignoredTraits, x ∉ ["smithy.api#error", "smithy.api#tags", "smithy.api#timestampFormat", "smithy.api#enumValue", "smithy.api#deprecated", "smithy.api#paginated"] := by decide
    exact this k c3
  rw [if_neg c3] at h
  by_cases c4 : k = "smithy.api#tags"
  · rw [if_pos c4] at h; cases h; subst c4
    rw [mget_withAnnotation]
    rcases ht with ⟨rfl, rfl, rfl⟩ | ⟨rfl, rfl, rfl⟩ | ⟨rfl, rfl, rfl⟩ | ⟨rfl, rfl, rfl⟩ | ⟨rfl, rfl, rfl⟩ | ⟨rfl, rfl, rfl⟩ | ⟨rfl, rfl, rfl⟩ | ⟨rfl, rfl, rfl⟩ <;> simp
  rw [if_neg c4] at h
  by_cases c5 : k = "smithy.api#timestampFormat"
  · rw [if_pos c5] at h; cases h; subst c5
    rw [mget_withAnnotation]
    rcases ht with ⟨rfl, rfl, rfl⟩ | ⟨rfl, rfl, rfl⟩ | ⟨rfl, rfl, rfl⟩ | ⟨rfl, rfl, rfl⟩ | ⟨rfl, rfl, rfl⟩ | ⟨rfl, rfl, rfl⟩ | ⟨rfl, rfl, rfl⟩ | ⟨rfl, rfl, rfl⟩ <;> simp
  rw [if_neg c5] at h
  by_cases c6 : k = "smithy.api#enumValue"
  · rw [if_pos c6] at h; cases h; subst c6
    rw [mget_withAnnotation]
    rcases ht with ⟨rfl, rfl, rfl⟩ | ⟨rfl, rfl, rfl⟩ | ⟨rfl, rfl, rfl⟩ | ⟨rfl, rfl, rfl⟩ | ⟨rfl, rfl, rfl⟩ | ⟨rfl, rfl, rfl⟩ | ⟨rfl, rfl, rfl⟩ | ⟨rfl, rfl, rfl⟩ <;> simp
  rw [if_neg c6] at h
  by_cases c7 : k = "smithy.api#deprecated"
  · rw [if_pos c7] at h; cases h; subst c7
    unfold importDeprecated
    dsimp only
    rw [mget_withAnnotation, mget_withAnnotation, mget_withAnnotation]
    rcases ht with ⟨rfl, rfl, rfl⟩ | ⟨rfl, rfl, rfl⟩ | ⟨rfl, rfl, rfl⟩ | ⟨rfl, rfl, rfl⟩ | ⟨rfl, rfl, rfl⟩ | ⟨rfl, rfl, rfl⟩ | ⟨rfl, rfl, rfl⟩ | ⟨rfl, rfl, rfl⟩ <;> simp
  rw [if_neg c7] at h
  by_cases c8 : k = "smithy.api#paginated"
  · rw [if_pos c8] at h; cases h; subst c8
    rw [mget_withAnnotation]
    rcases ht with ⟨rfl, rfl, rfl⟩ | ⟨rfl, rfl, rfl⟩ | ⟨rfl, rfl, rfl⟩ | ⟨rfl, rfl, rfl⟩ | ⟨rfl, rfl, rfl⟩ | ⟨rfl, rfl, rfl⟩ | ⟨rfl, rfl, rfl⟩ | ⟨rfl, rfl, rfl⟩ <;> simp
  rw [if_neg c8] at h
  refine other ?_ (by simp [c1, c4, c5, c6, c7, c8])
  cases hs : mget ast.shapes k with
  | none => rw [hs] at h; cases h; rfl
  | some s =>
    rw [hs] at h
    dsimp only at h
    cases ht : s.traits.map "smithy.api#trait" with
    | some ms => rw [ht] at h; cases h; rfl
    | none => rw [ht] at h; cases h

theorem importTraits_get {lib : SLib} {ast : Ast} {t : Traits} {annos r : GoMap String} (hd : GoMap.Distinct t) (h : importTraits lib ast t annos = .ok r)
    {trait anno : String} {f : Value → String} (ht : (trait, anno, f) ∈ annoTable) :
    mget r anno = match mget t trait with | some v => if f v ≠ "" then some (f v) else mget annos anno | none => mget annos anno := by
  induction t generalizing annos with
  | nil => cases h; rfl
  | cons kv rest ih =>
    obtain ⟨k, v⟩ := kv
    unfold importTraits at h
    obtain ⟨a, h1, h⟩ := Out.bind_eq_ok.1 h
    have hd' : GoMap.Distinct rest := (List.nodup_cons.1 hd).2
    have hk : k ∉ rest.map Prod.fst := (List.nodup_cons.1 hd).1
    rw [ih hd' h, importTrait_get h1 ht]
    by_cases c : k = trait
    · subst c
      have hn : mget rest k = none := by
        rw [mget_none_iff]
        exact hk
      rw [hn]
      simp [mget]
    · simp [mget, c]

theorem annosAre {lib : SLib} {ast : Ast} {t : Traits} {r : GoMap String} (hd : GoMap.Distinct t) (h : importTraits lib ast t [] = .ok r) : AnnosAre t r := by
  have get := @importTraits_get lib ast t [] r hd h
  have text : ∀ {trait anno : String}, (trait, anno, asString) ∈ annoTable → AnnoIs t r trait anno := by
    intro trait anno ht
    refine ⟨fun v hv hne => ?_, fun hv => ?_⟩
    · rw [get ht, hv]
      exact if_pos hne
    · rw [get ht, hv]
      rfl
  constructor
  · exact text (by simp [annoTable])
  · exact text (by simp [annoTable])
  · exact text (by simp [annoTable])
  · intro l hl hne
    rw [get (trait := "smithy.api#tags") (.tail _ (.head _)), hl]
    dsimp only
    rw [asStringArray_strs, if_pos]
    intro e
    exact hne (by simpa using congrArg String.toList e)
  · intro v hv
    rw [get (trait := "smithy.api#deprecated") (.tail _ (.tail _ (.tail _ (.tail _ (.head _))))), hv]
    rfl
  · intro hv
    refine ⟨?_, ?_, ?_⟩
    · rw [get (trait := "smithy.api#deprecated") (.tail _ (.tail _ (.tail _ (.tail _ (.head _))))), hv]; rfl
    · rw [get (trait := "smithy.api#deprecated") (.tail _ (.tail _ (.tail _ (.tail _ (.tail _ (.head _)))))), hv]; rfl
    · rw [get (trait := "smithy.api#deprecated") (.tail _ (.tail _ (.tail _ (.tail _ (.tail _ (.tail _ (.head _))))))), hv]; rfl
  · intro d v hd hv hne
    rw [get (trait := "smithy.api#deprecated") (.tail _ (.tail _ (.tail _ (.tail _ (.tail _ (.head _)))))), hd]
    simp [asMap, getKey, hv, asString, hne]
  · intro d v hd hv hne
    rw [get (trait := "smithy.api#deprecated") (.tail _ (.tail _ (.tail _ (.tail _ (.tail _ (.tail _ (.head _))))))), hd]
    simp [asMap, getKey, hv, asString, hne]
  · intro d i o p x hd hi ho hp hx
    rw [get (trait := "smithy.api#paginated") (.tail _ (.tail _ (.tail _ (.tail _ (.tail _ (.tail _ (.tail _ (.head _)))))))), hd]
    have : importPaginated (.obj d) = "inputToken=" ++ i ++ ",outputToken=" ++ o ++ ",pageSize=" ++ p ++ ",items=" ++ x := by
      simp [importPaginated, asMap, getKey, hi, ho, hp, hx, asString]
    dsimp only
    rw [this, if_pos]
    intro e
    have := congrArg String.toList e
    simp [String.toList_append] at this

theorem annosAre_integer {t : Traits} {a : GoMap String} (h : AnnosAre t a) : AnnosAre t (withAnnotation a "x_integer" "true") := by
  have e : ∀ k, k ≠ "x_integer" → mget (withAnnotation a "x_integer" "true") k = mget a k := by
    intro k hk
    rw [mget_withAnnotation, if_neg fun c => hk c.1]
  constructor
  · exact ⟨fun v h1 h2 => (e _ (by decide)).trans (h.error.set v h1 h2), fun h1 => (e _ (by decide)).trans (h.error.unset h1)⟩
  · exact ⟨fun v h1 h2 => (e _ (by decide)).trans (h.format.set v h1 h2), fun h1 => (e _ (by decide)).trans (h.format.unset h1)⟩
  · exact ⟨fun v h1 h2 => (e _ (by decide)).trans (h.enumValue.set v h1 h2), fun h1 => (e _ (by decide)).trans (h.enumValue.unset h1)⟩
  · exact fun l h1 h2 => (e _ (by decide)).trans (h.tag l h1 h2)
  · exact fun v h1 => (e _ (by decide)).trans (h.deprecated v h1)
  · exact fun h1 => ⟨(e _ (by decide)).trans (h.notDeprecated h1).1, (e _ (by decide)).trans (h.notDeprecated h1).2.1, (e _ (by decide)).trans (h.notDeprecated h1).2.2⟩
  · exact fun d v h1 h2 h3 => (e _ (by decide)).trans (h.message d v h1 h2 h3)
  · exact fun d v h1 h2 h3 => (e _ (by decide)).trans (h.since d v h1 h2 h3)
  · exact fun d i o p x h1 h2 h3 h4 h5 => (e _ (by decide)).trans (h.paginated d i o p x h1 h2 h3 h4 h5)

end Smithy
end Sadl
