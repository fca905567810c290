import Verif.Model.Smithy
import Verif.Lemmas.Text
/-
C48, C49: names and error categories in the Smithy exporter and importer.
-/
namespace Sadl
open Smithy

/-! ### C49: error categories -/

/-- The HTTP status classes (RFC 9110, section 15), as half-open ranges: the categories of
Smithy in the order of their statuses. -/
inductive ErrorClass : String → Int → Prop
  | informational (s : Int) (h : s < 200) : ErrorClass "informational" s
  | success (s : Int) (h1 : 200 ≤ s) (h2 : s < 300) : ErrorClass "success" s
  | redirect (s : Int) (h1 : 300 ≤ s) (h2 : s < 400) : ErrorClass "redirect" s
  | client (s : Int) (h1 : 400 ≤ s) (h2 : s < 500) : ErrorClass "client" s
  | server (s : Int) (h : 500 ≤ s) : ErrorClass "server" s

/-- Position of a category in the order of the status classes. -/
def classRank (c : String) : Nat :=
  if c = "informational" then 1 else if c = "success" then 2 else if c = "redirect" then 3
  else if c = "client" then 4 else 5

/-- C49: the category of a status is the one of its class, and no other. -/
theorem C49_category_iff (status : Int) (c : String) : httpErrorCategory status = c ↔ ErrorClass c status := by
  unfold httpErrorCategory
  constructor
  · intro h
    subst h
    split
    · exact .informational _ ‹_›
    · split
      · exact .success _ (by omega) ‹_›
      · split
        · exact .redirect _ (by omega) ‹_›
        · split
          · exact .server _ (by omega)
          · exact .client _ (by omega) (by omega)
  · intro h
    cases h <;> (repeat' split) <;> first | rfl | omega

/-- C49: a status has exactly one category. -/
theorem C49_exactly_one (status : Int) : ∃ c, ErrorClass c status ∧ ∀ c', ErrorClass c' status → c' = c :=
  ⟨_, (C49_category_iff status _).1 rfl, fun _ h => ((C49_category_iff status _).2 h).symm⟩

/-- C49: the category is monotone in the status. -/
theorem C49_monotone (a b : Int) (h : a ≤ b) : classRank (httpErrorCategory a) ≤ classRank (httpErrorCategory b) := by
  unfold httpErrorCategory
  (repeat' split) <;> first | decide | omega

example : httpErrorCategory 404 = "client" ∧ httpErrorCategory 503 = "server" ∧ httpErrorCategory 304 = "redirect" := by decide

/-! ### C48: type references -/

/-- The built-in types that have a Smithy type of their own. -/
def smithyBuiltins : List String :=
  ["Bool", "Int8", "Int16", "Int32", "Int64", "Float32", "Float64", "Decimal", "Timestamp", "Bytes", "String",
   "Map", "Struct"]

/-- The names of the Smithy prelude that stand for a SADL type of another name. -/
def smithyPrelude : List String :=
  ["Blob", "Boolean", "Byte", "Short", "Integer", "Long", "Float", "Double", "BigInteger", "BigDecimal", "Document"]

/-- The references that survive: the built-in types with a Smithy counterpart; and, with a
namespace free of `#`, all names but the lossy `UUID` and `Array` — except for prelude
names when exporting into the namespace of the prelude itself. -/
def Survives (ns name : String) : Prop :=
  name ∈ smithyBuiltins ∨
  (name ≠ "UUID" ∧ name ≠ "Array" ∧ '#' ∉ ns.toList ∧ ¬ (ns = "smithy.api" ∧ name ∈ smithyPrelude))

theorem splitFirst_append (a b : List Char) (h : '#' ∉ a) : splitFirst '#' (a ++ '#' :: b) = some (a, b) := by
  induction a with
  | nil => simp [splitFirst]
  | cons x r ih =>
    simp only [List.mem_cons, not_or] at h
    simp [splitFirst, Ne.symm h.1, ih h.2]

theorem splitFirst_append_mem (a b : List Char) (h : '#' ∈ a) :
    ∃ u v, splitFirst '#' (a ++ '#' :: b) = some (u, v ++ '#' :: b) := by
  induction a with
  | nil => simp at h
  | cons x r ih =>
    by_cases hx : x = '#'
    · exact ⟨[], r, by simp [splitFirst, hx]⟩
    · rcases List.mem_cons.1 h with h | h
      · exact absurd h.symm hx
      · obtain ⟨u, v, e⟩ := ih h
        exact ⟨x :: u, v, by simp [splitFirst, hx, e]⟩

theorem stripNamespace_qualified (ns name : String) (h : '#' ∉ ns.toList) : stripNamespace (ns ++ "#" ++ name) = name := by
  unfold stripNamespace
  have : (ns ++ "#" ++ name).toList = ns.toList ++ '#' :: name.toList := by simp [String.toList_append]
  rw [this, splitFirst_append _ _ h]
  simp

theorem stripNamespace_hash (ns name : String) (h : '#' ∈ ns.toList) : stripNamespace (ns ++ "#" ++ name) ≠ name := by
  unfold stripNamespace
  have : (ns ++ "#" ++ name).toList = ns.toList ++ '#' :: name.toList := by simp [String.toList_append]
  obtain ⟨u, v, e⟩ := splitFirst_append_mem ns.toList name.toList h
  rw [this, e]
  intro hc
  have := congrArg (fun s => s.toList.length) hc
  simp at this
  omega

theorem qualified_inj {a b n m : String} (ha : '#' ∉ a.toList) (hb : '#' ∉ b.toList) (h : a ++ "#" ++ n = b ++ "#" ++ m) :
    a = b ∧ n = m := by
  have h' := congrArg String.toList h
  simp only [String.toList_append] at h'
  have e1 := splitFirst_append a.toList n.toList ha
  have e2 := splitFirst_append b.toList m.toList hb
  have : "#".toList = ['#'] := by decide
  rw [this] at h'
  simp only [List.append_assoc, List.singleton_append] at h'
  rw [h', e2] at e1
  simp only [Option.some.injEq, Prod.mk.injEq] at e1
  exact ⟨String.toList_inj.1 e1.1.symm, String.toList_inj.1 e1.2.symm⟩

def preludeNames : List String :=
  ["Blob", "Boolean", "String", "Byte", "Short", "Integer", "Long", "Float", "Double", "BigInteger", "BigDecimal",
   "Timestamp", "Document"]

theorem shapeRef_other (ref : String) (h1 : ∀ x ∈ preludeNames, ref ≠ "smithy.api#" ++ x) (h2 : ref ∉ preludeNames) :
    shapeRefToTypeRef ref = stripNamespace ref := by
  unfold shapeRefToTypeRef
  split
  case h_27 => rfl
  all_goals first
    | exact absurd (by decide) h2
    | exact absurd (by decide) (h1 _ (by decide : "Blob" ∈ preludeNames))
    | exact absurd (by decide) (h1 _ (by decide : "Boolean" ∈ preludeNames))
    | exact absurd (by decide) (h1 _ (by decide : "String" ∈ preludeNames))
    | exact absurd (by decide) (h1 _ (by decide : "Byte" ∈ preludeNames))
    | exact absurd (by decide) (h1 _ (by decide : "Short" ∈ preludeNames))
    | exact absurd (by decide) (h1 _ (by decide : "Integer" ∈ preludeNames))
    | exact absurd (by decide) (h1 _ (by decide : "Long" ∈ preludeNames))
    | exact absurd (by decide) (h1 _ (by decide : "Float" ∈ preludeNames))
    | exact absurd (by decide) (h1 _ (by decide : "Double" ∈ preludeNames))
    | exact absurd (by decide) (h1 _ (by decide : "BigInteger" ∈ preludeNames))
    | exact absurd (by decide) (h1 _ (by decide : "BigDecimal" ∈ preludeNames))
    | exact absurd (by decide) (h1 _ (by decide : "Timestamp" ∈ preludeNames))
    | exact absurd (by decide) (h1 _ (by decide : "Document" ∈ preludeNames))

theorem hash_mem (ns name : String) : '#' ∈ (ns ++ "#" ++ name).toList := by simp [String.toList_append]

theorem shapeRef_qualified (ns name : String) (h : ns ≠ "smithy.api" ∨ name ∉ preludeNames) :
    shapeRefToTypeRef (ns ++ "#" ++ name) = stripNamespace (ns ++ "#" ++ name) := by
  refine shapeRef_other _ ?_ ?_
  · intro x hx he
    by_cases hns : '#' ∈ ns.toList
    · have hc := congrArg (fun s => s.toList.count '#') he
      have h1 : 0 < ns.toList.count '#' := List.count_pos_iff.2 hns
      have h2 : ∀ x ∈ preludeNames, ("smithy.api#" ++ x).toList.count '#' = 1 := by decide
      have h3 : ("#" : String).toList = ['#'] := by decide
      simp only [h2 x hx] at hc
      simp only [String.toList_append, List.count_append, h3, List.count_cons_self, List.count_nil] at hc
      omega
    · have := qualified_inj hns (by decide : '#' ∉ "smithy.api".toList) (he.trans (by
        rw [show ("smithy.api#" : String) = "smithy.api" ++ "#" by decide]) : _ = "smithy.api" ++ "#" ++ x)
      obtain ⟨rfl, rfl⟩ := this
      rcases h with h | h
      · exact h rfl
      · exact h hx
  · intro hx
    have h2 : ∀ x ∈ preludeNames, '#' ∉ x.toList := by decide
    exact h2 _ hx (hash_mem ns name)

theorem typeReference_user (ns name : String) (h : name ∉ smithyBuiltins) (hu : name ≠ "UUID") (ha : name ≠ "Array") :
    typeReferenceByName ns name = ns ++ "#" ++ name := by
  unfold typeReferenceByName
  split
  case h_16 => rfl
  all_goals first | exact absurd (by decide) h | exact absurd rfl hu | exact absurd rfl ha

/-- C48, exactly: a type reference survives the conversion to Smithy and back if and only
if it is one of those described by `Survives`.  The full property is false: `UUID` and
`Array` never survive (see `C48_refuted`). -/
theorem C48_exact (ns name : String) :
    shapeRefToTypeRef (typeReferenceByName ns name) = name ↔ Survives ns name := by
  by_cases hb : name ∈ smithyBuiltins
  · refine iff_of_true ?_ (.inl hb)
    have : name = "Bool" ∨ name = "Int8" ∨ name = "Int16" ∨ name = "Int32" ∨ name = "Int64" ∨ name = "Float32" ∨
        name = "Float64" ∨ name = "Decimal" ∨ name = "Timestamp" ∨ name = "Bytes" ∨ name = "String" ∨
        name = "Map" ∨ name = "Struct" := by simpa [smithyBuiltins] using hb
    have he : typeReferenceByName ns name = typeReferenceByName "" name := by
      rcases this with h | h | h | h | h | h | h | h | h | h | h | h | h <;> subst h <;> rfl
    rw [he]
    have h2 : ∀ n ∈ smithyBuiltins, shapeRefToTypeRef (typeReferenceByName "" n) = n := by decide
    exact h2 _ hb
  · by_cases hu : name = "UUID"
    · subst hu
      rw [show typeReferenceByName ns "UUID" = "smithy.api#String" from rfl]
      exact iff_of_false (by decide) (by unfold Survives; simp [smithyBuiltins])
    · by_cases ha : name = "Array"
      · subst ha
        rw [show typeReferenceByName ns "Array" = "smithy.api#List" from rfl]
        exact iff_of_false (by decide) (by unfold Survives; simp [smithyBuiltins])
      · rw [typeReference_user ns name hb hu ha]
        by_cases hc : ns = "smithy.api" ∧ name ∈ preludeNames
        · obtain ⟨rfl, hn⟩ := hc
          have : name = "Blob" ∨ name = "Boolean" ∨ name = "String" ∨ name = "Byte" ∨ name = "Short" ∨ name = "Integer" ∨
              name = "Long" ∨ name = "Float" ∨ name = "Double" ∨ name = "BigInteger" ∨ name = "BigDecimal" ∨
              name = "Timestamp" ∨ name = "Document" := by simpa [preludeNames] using hn
          rcases this with h | h | h | h | h | h | h | h | h | h | h | h | h <;> subst h <;>
            first
            | exact absurd (by decide) hb
            | exact iff_of_false (by decide) (by unfold Survives; decide)
        · rw [shapeRef_qualified ns name (by
            rcases Classical.em (ns = "smithy.api") with h | h
            · exact .inr fun hn => hc ⟨h, hn⟩
            · exact .inl h)]
          by_cases hns : '#' ∈ ns.toList
          · refine iff_of_false (stripNamespace_hash ns name hns) ?_
            rintro (h | ⟨_, _, h, _⟩)
            · exact hb h
            · exact h hns
          · refine iff_of_true (stripNamespace_qualified ns name hns) (.inr ⟨hu, ha, hns, ?_⟩)
            rintro ⟨h1, h2⟩
            have h3 : ∀ x ∈ smithyPrelude, x ∈ preludeNames := by decide
            exact hc ⟨h1, h3 _ h2⟩

/-- C48: every user-defined name survives in a namespace free of `#` other than the one of
the prelude. -/
theorem C48_user_types (ns name : String) (hu : name ≠ "UUID") (ha : name ≠ "Array") (hns : '#' ∉ ns.toList)
    (hp : ns ≠ "smithy.api") : shapeRefToTypeRef (typeReferenceByName ns name) = name :=
  (C48_exact ns name).2 (.inr ⟨hu, ha, hns, fun h => hp h.1⟩)

example : '#' ∉ "com.example".toList ∧ "com.example" ≠ "smithy.api" := by decide
example : Survives "com.example" "Pet" := .inr (by decide)

/-- C48 is false: UUIDs come back as strings, arrays as the undefined type `List`. -/
theorem C48_refuted : ∃ ns name, shapeRefToTypeRef (typeReferenceByName ns name) ≠ name ∧
    shapeRefToTypeRef (typeReferenceByName ns "Array") = "List" :=
  ⟨"example", "UUID", by decide, by decide⟩

/-- Two different references of the same exported model never become the same reference,
except for `UUID` and `String`. -/
theorem C48_injective (ns a b : String) (ha : Survives ns a) (hb : Survives ns b)
    (h : typeReferenceByName ns a = typeReferenceByName ns b) : a = b := by
  rw [← (C48_exact ns a).2 ha, ← (C48_exact ns b).2 hb, h]

end Sadl
