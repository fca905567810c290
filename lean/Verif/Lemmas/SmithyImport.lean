import Verif.Lemmas.SmithyLayout
import Verif.Spec.SmithyKept
import Verif.Props.Smithy
/-
Lemmas about the Smithy import: traits, and the import of the shapes of types.
-/
namespace Sadl
open Smithy Spec
namespace Smithy

/-! ### Traits -/

theorem mget_traits (T : Transport) (t : Traits) (k : String) : mget (T.traits t) k = (mget t k).map T.carry :=
  mget_map t (fun _ v => T.carry v) k

theorem traits_mset (T : Transport) (t : Traits) (k : String) (v : Value) :
    T.traits (mset t k v) = mset (T.traits t) k (T.carry v) := by
  induction t with
  | nil => rfl
  | cons p r ih =>
    obtain ⟨a, b⟩ := p
    by_cases h : a = k
    · simp [mset, h, Transport.traits]
    · simp only [Transport.traits] at ih
      simp [mset, h, Transport.traits, ih]

theorem keys_traits (T : Transport) (t : Traits) : List.map Prod.fst (T.traits t) = List.map Prod.fst t :=
  map_fst_map t (fun _ v => T.carry v)

theorem traits_str (T : Transport) (t : Traits) (k : String) (h : mget t k = none ∨ ∃ s, mget t k = some (.str s)) :
    (T.traits t).str k = t.str k := by
  unfold Traits.str
  rw [mget_traits]
  rcases h with h | ⟨s, h⟩ <;> simp [h, T.str]

theorem traits_bool (T : Transport) (lib : SLib) (t : Traits) (k : String)
    (h : mget t k = none ∨ (∃ s, mget t k = some (.str s)) ∨ ∃ b, mget t k = some (.bool b)) :
    (T.traits t).bool lib k = t.bool lib k := by
  unfold Traits.bool
  rw [mget_traits]
  rcases h with h | ⟨s, h⟩ | ⟨s, h⟩ <;> simp [h, T.str, T.bool]

/-! ### Traits as annotations -/

/-- The traits that are not ignored. -/
def seen (t : Traits) : Traits := List.filter (fun kv => !decide (kv.1 ∈ ignoredTraits)) t

/-- The traits that become annotations. -/
def annotating : List String :=
  ["smithy.api#error", "smithy.api#httpError", "smithy.api#tags", "smithy.api#timestampFormat", "smithy.api#enumValue",
   "smithy.api#deprecated", "smithy.api#paginated"]

theorem importTrait_ignored (lib : SLib) (ast : Ast) (a : GoMap String) (k : String) (v : Value) (h : k ∈ ignoredTraits) :
    importTrait lib ast a k v = .ok a := by
  unfold importTrait
  have h1 : ∀ x ∈ ignoredTraits, x ≠ "smithy.api#error" ∧ x ≠ "smithy.api#httpError" := by decide
  rw [if_neg (h1 k h).1, if_neg (h1 k h).2, if_pos h]

theorem importTrait_annotating (lib : SLib) (ast : Ast) (a : GoMap String) (k : String) (v : Value) (h : k ∈ annotating) :
    ∃ a', importTrait lib ast a k v = .ok a' := by
  unfold importTrait
  split_ifs
  all_goals first
    | exact ⟨_, rfl⟩
    | (exfalso; simp only [annotating, List.mem_cons, List.not_mem_nil, or_false] at h; tauto)

theorem importTraits_seen (lib : SLib) (ast : Ast) (t : Traits) (a : GoMap String) :
    importTraits lib ast t a = importTraits lib ast (seen t) a := by
  induction t generalizing a with
  | nil => rfl
  | cons p r ih =>
    obtain ⟨k, v⟩ := p
    by_cases h : k ∈ ignoredTraits
    · simp only [importTraits, importTrait_ignored lib ast a k v h, Out.bind_ok, ih]
      simp [seen, h]
    · have e : seen ((k, v) :: r) = (k, v) :: seen r := by simp [seen, h]
      rw [e]
      simp only [importTraits]
      congr 1
      funext x
      exact ih x

theorem importTraits_ok (lib : SLib) (ast : Ast) (t : Traits) (a : GoMap String)
    (h : ∀ kv ∈ t, kv.1 ∈ ignoredTraits ∨ kv.1 ∈ annotating) : ∃ a', importTraits lib ast t a = .ok a' := by
  induction t generalizing a with
  | nil => exact ⟨a, rfl⟩
  | cons p r ih =>
    obtain ⟨k, v⟩ := p
    have hr : ∀ kv ∈ r, kv.1 ∈ ignoredTraits ∨ kv.1 ∈ annotating := fun kv hkv => h kv (by simp [hkv])
    obtain ⟨a1, h1⟩ : ∃ a1, importTrait lib ast a k v = .ok a1 := by
      rcases h (k, v) (by simp) with h | h
      · exact ⟨a, importTrait_ignored lib ast a k v h⟩
      · exact importTrait_annotating lib ast a k v h
    obtain ⟨a2, h2⟩ := ih a1 hr
    exact ⟨a2, by simp [importTraits, h1, h2]⟩

theorem seen_mset_ignored (t : Traits) (k : String) (v : Value) (h : k ∈ ignoredTraits) : seen (mset t k v) = seen t := by
  induction t with
  | nil => simp [mset, seen, h]
  | cons p r ih =>
    obtain ⟨a, b⟩ := p
    by_cases hk : a = k
    · subst hk
      simp [mset, seen, h]
    · simp only [mset, hk, if_false]
      by_cases ha : a ∈ ignoredTraits
      · simp only [seen] at ih
        simp [seen, ha, ih]
      · simp only [seen] at ih
        simp [seen, ha, ih]

theorem seen_mset (t : Traits) (k : String) (v : Value) (h : k ∉ ignoredTraits) : seen (mset t k v) = mset (seen t) k v := by
  induction t with
  | nil => simp [mset, seen, h]
  | cons p r ih =>
    obtain ⟨a, b⟩ := p
    by_cases hk : a = k
    · subst hk
      simp [mset, seen, h]
    · simp only [mset, hk, if_false]
      by_cases ha : a ∈ ignoredTraits
      · simp only [seen] at ih
        simp [seen, ha, ih]
      · simp only [seen] at ih
        simp [seen, ha, ih, mset, hk]

theorem seen_traits (T : Transport) (t : Traits) : seen (T.traits t) = T.traits (seen t) := by
  induction t with
  | nil => rfl
  | cons p r ih =>
    obtain ⟨a, b⟩ := p
    simp only [seen, Transport.traits] at ih
    by_cases ha : a ∈ ignoredTraits
    · simp [seen, Transport.traits, ha, ih]
    · simp [seen, Transport.traits, ha, ih]

theorem mem_keys_put (t : Traits) (k : String) (v : Value) (kv : String × Value) (h : kv ∈ mset t k v) :
    kv.1 = k ∨ kv.1 ∈ List.map Prod.fst t := by
  have : kv.1 ∈ List.map Prod.fst (mset t k v) := List.mem_map.2 ⟨kv, h, rfl⟩
  rwa [mem_keys_mset] at this

/-! ### Comments -/

theorem trimBlanks_tidy (l : List Char) (h1 : l.head? ≠ some ' ') (h2 : l.getLast? ≠ some ' ') : trimBlanks l = l := by
  have key : ∀ l : List Char, l.head? ≠ some ' ' → l.dropWhile (· == ' ') = l := by
    intro l h
    cases l with
    | nil => rfl
    | cons c r =>
      have : c ≠ ' ' := fun e => h (by simp [e])
      rw [List.dropWhile_cons_of_neg (by simpa using this)]
  unfold trimBlanks
  rw [key l h1, key l.reverse (by rwa [List.head?_reverse])]
  simp

theorem escapeComment_tidy (c : String) (h : TidyComment c) : escapeComment c = c := by
  unfold escapeComment
  rcases h with h | h
  · simp [splitAll_not_mem h]
  · have : (splitAll '\n' c.toList).map trimBlanks = splitAll '\n' c.toList := by
      conv_rhs => rw [← List.map_id (splitAll '\n' c.toList)]
      exact List.map_congr_left fun l hl => trimBlanks_tidy l (h l hl).1 (h l hl).2
    simp [this, joinWith_splitAll]

/-! ### The traits of the shape of a type -/

theorem annotationTraits_other (annos : GoMap String) (s : Shape) (k : String)
    (h : k ∉ ["smithy.api#tags", "smithy.api#sensitive", "smithy.api#deprecated"]) :
    mget (annotationTraits annos s).traits k = mget s.traits k := by
  simp only [List.mem_cons, List.not_mem_nil, or_false, not_or] at h
  induction annos generalizing s with
  | nil => rfl
  | cons p r ih =>
    obtain ⟨a, b⟩ := p
    simp only [annotationTraits]
    rw [ih]
    split_ifs <;> simp only [Shape.put, mget_mset] <;> split_ifs <;> first | rfl | (subst_vars; tauto)

theorem annotationTraits_keys (annos : GoMap String) (s : Shape) (kv : String × Value)
    (h : kv ∈ (annotationTraits annos s).traits) :
    kv.1 ∈ List.map Prod.fst s.traits ∨ kv.1 ∈ ["smithy.api#tags", "smithy.api#sensitive", "smithy.api#deprecated"] := by
  induction annos generalizing s with
  | nil => exact .inl (List.mem_map.2 ⟨kv, h, rfl⟩)
  | cons p r ih =>
    obtain ⟨a, b⟩ := p
    simp only [annotationTraits] at h
    rcases ih _ h with h | h
    · split_ifs at h
      all_goals first
        | exact .inl h
        | (simp only [Shape.put, mem_keys_mset] at h
           rcases h with h | h
           · exact .inr (by simp [h])
           · exact .inl h)
    · exact .inr h

theorem annotationTraits_same (annos : GoMap String) (s : Shape) :
    (annotationTraits annos s).type = s.type ∧ (annotationTraits annos s).member = s.member ∧
    (annotationTraits annos s).key = s.key ∧ (annotationTraits annos s).value = s.value ∧
    (annotationTraits annos s).members = s.members := by
  induction annos generalizing s with
  | nil => simp [annotationTraits]
  | cons p r ih =>
    obtain ⟨a, b⟩ := p
    simp only [annotationTraits]
    obtain ⟨h1, h2, h3, h4, h5⟩ := ih (if a = "x_tags" then s.put "smithy.api#tags" (splitTags b)
       else if a = "x_sensitive" then s.put "smithy.api#sensitive" (.bool true)
       else if a = "x_deprecated" ∧ b ≠ "" then s.put "smithy.api#deprecated" (deprecatedTrait b)
       else s)
    rw [h1, h2, h3, h4, h5]
    split_ifs <;> simp [Shape.put]

/-- The shape of a type is the bare shape with further traits. -/
theorem typeShape_same (ns : String) (td : TypeDef) :
    (typeShape ns td).type = (bareShape ns td).type ∧ (typeShape ns td).member = (bareShape ns td).member ∧
    (typeShape ns td).key = (bareShape ns td).key ∧ (typeShape ns td).value = (bareShape ns td).value ∧
    (typeShape ns td).members = (bareShape ns td).members := by
  unfold typeShape
  obtain ⟨h1, h2, h3, h4, h5⟩ := annotationTraits_same td.annotations
    (if td.comment ≠ "" then (bareShape ns td).put "smithy.api#documentation" (.str td.comment) else bareShape ns td)
  rw [h1, h2, h3, h4, h5]
  split_ifs <;> simp [Shape.put]

theorem typeShape_trait (ns : String) (td : TypeDef) (k : String)
    (h : k ∉ ["smithy.api#tags", "smithy.api#sensitive", "smithy.api#deprecated", "smithy.api#documentation"]) :
    mget (typeShape ns td).traits k = mget (bareShape ns td).traits k := by
  simp only [List.mem_cons, List.not_mem_nil, or_false, not_or] at h
  unfold typeShape
  rw [annotationTraits_other _ _ _ (by simp [h])]
  split_ifs
  · simp only [Shape.put, mget_mset]
    rw [if_neg (fun e => h.2.2.2 e)]
  · rfl

theorem bare_number {ns : String} {td : TypeDef} (h : td.ts.type ∈ numberTypes) : bareShape ns td = shapeFromNumber td.ts := by
  simp only [bareShape, if_pos h]

theorem bare_string {ns : String} {td : TypeDef} (h : td.ts.type = "String") : bareShape ns td = shapeFromString td.ts := by
  simp [bareShape, h, numberTypes]

theorem bare_enum {ns : String} {td : TypeDef} (h : td.ts.type = "Enum") : bareShape ns td = shapeFromEnum td.ts := by
  simp [bareShape, h, numberTypes]

theorem bare_struct {ns : String} {td : TypeDef} (h : td.ts.type = "Struct") :
    bareShape ns td = { type := "structure", members := fieldMembers ns td.ts.fields [] } := by
  simp [bareShape, h, numberTypes]

theorem bare_array {ns : String} {td : TypeDef} (h : td.ts.type = "Array") : bareShape ns td = shapeFromArray ns td.ts td.annotations := by
  simp [bareShape, h, numberTypes]

theorem bare_union {ns : String} {td : TypeDef} (h : td.ts.type = "Union") : bareShape ns td = shapeFromUnion ns td.ts := by
  simp [bareShape, h, numberTypes]

theorem bare_map {ns : String} {td : TypeDef} (h : td.ts.type = "Map") : bareShape ns td = shapeFromMap ns td.ts := by
  simp [bareShape, h, numberTypes]

theorem bare_uuid {ns : String} {td : TypeDef} (h : td.ts.type = "UUID") : bareShape ns td = uuidShape := by
  simp [bareShape, h, numberTypes]

theorem typeShape_keys (ns : String) (td : TypeDef) (kv : String × Value) (h : kv ∈ (typeShape ns td).traits) :
    kv.1 ∈ List.map Prod.fst (bareShape ns td).traits ∨ kv.1 = "smithy.api#documentation" ∨
      kv.1 ∈ ["smithy.api#tags", "smithy.api#sensitive", "smithy.api#deprecated"] := by
  unfold typeShape at h
  rcases annotationTraits_keys _ _ _ h with h | h
  · split_ifs at h
    · simp only [Shape.put, mem_keys_mset] at h
      tauto
    · exact .inl h
  · exact .inr (.inr h)

theorem typeShape_doc (ns : String) (td : TypeDef) (hb : mget (bareShape ns td).traits "smithy.api#documentation" = none) :
    mget (typeShape ns td).traits "smithy.api#documentation" = if td.comment ≠ "" then some (.str td.comment) else none := by
  unfold typeShape
  rw [annotationTraits_other _ _ _ (by decide)]
  split_ifs
  · simp [Shape.put, mget_mset]
  · exact hb

/-! ### Shapes of exceptions -/

/-- The members differ in the trait for the body at most. -/
def MemberLike (a b : String × Member) : Prop :=
  b.1 = a.1 ∧ b.2.target = a.2.target ∧ seen b.2.traits = seen a.2.traits ∧
  ∀ k, k ≠ "smithy.api#httpPayload" → mget b.2.traits k = mget a.2.traits k

/-- The shapes differ in what exceptions add at most. -/
structure Marked (a b : Shape) : Prop where
  type : b.type = a.type
  member : b.member = a.member
  key : b.key = a.key
  value : b.value = a.value
  members : List.Forall₂ MemberLike a.members b.members
  traits : ∀ k, k ∉ ["smithy.api#error", "smithy.api#httpError"] → mget b.traits k = mget a.traits k
  keys : ∀ k, k ∈ List.map Prod.fst b.traits → k ∈ List.map Prod.fst a.traits ∨ k ∈ ["smithy.api#error", "smithy.api#httpError"]

theorem MemberLike.refl (a : String × Member) : MemberLike a a := ⟨rfl, rfl, rfl, fun _ _ => rfl⟩

theorem MemberLike.trans {a b c : String × Member} (h1 : MemberLike a b) (h2 : MemberLike b c) : MemberLike a c :=
  ⟨h2.1.trans h1.1, h2.2.1.trans h1.2.1, h2.2.2.1.trans h1.2.2.1, fun k hk => (h2.2.2.2 k hk).trans (h1.2.2.2 k hk)⟩

theorem Forall2_memberLike_trans {a b c : GoMap Member} (h1 : List.Forall₂ MemberLike a b) (h2 : List.Forall₂ MemberLike b c) :
    List.Forall₂ MemberLike a c := by
  induction h1 generalizing c with
  | nil => cases h2; exact .nil
  | cons h _ ih => cases h2 with
    | cons h' t => exact .cons (h.trans h') (ih t)

theorem Marked.refl (a : Shape) : Marked a a where
  type := rfl
  member := rfl
  key := rfl
  value := rfl
  members := List.forall₂_same.2 fun x _ => MemberLike.refl x
  traits _ _ := rfl
  keys _ h := .inl h

theorem Marked.trans {a b c : Shape} (h1 : Marked a b) (h2 : Marked b c) : Marked a c where
  type := h2.type.trans h1.type
  member := h2.member.trans h1.member
  key := h2.key.trans h1.key
  value := h2.value.trans h1.value
  members := Forall2_memberLike_trans h1.members h2.members
  traits k hk := (h2.traits k hk).trans (h1.traits k hk)
  keys k hk := by
    rcases h2.keys k hk with h | h
    · exact h1.keys k h
    · exact .inr h

theorem markError_marked (x : HttpExceptionSpec) (s : Shape) : Marked s (markError x s) := by
  have h0 : Marked s ((s.put "smithy.api#httpError" (.int x.status)).put "smithy.api#error" (.str (httpErrorCategory x.status))) := by
    refine ⟨rfl, rfl, rfl, rfl, List.forall₂_same.2 fun x _ => MemberLike.refl x, ?_, ?_⟩
    · intro k hk
      simp only [List.mem_cons, List.not_mem_nil, or_false, not_or] at hk
      simp [Shape.put, mget_mset, hk]
    · intro k hk
      simp only [Shape.put, mem_keys_mset] at hk
      rcases hk with h | h | h
      · exact .inr (by simp [h])
      · exact .inr (by simp [h])
      · exact .inl h
  refine h0.trans ?_
  unfold markError
  simp only []
  split
  · next k mem he =>
    refine ⟨rfl, rfl, rfl, rfl, ?_, fun _ _ => rfl, fun _ h => .inl h⟩
    rw [he]
    refine .cons ⟨rfl, rfl, ?_, ?_⟩ .nil
    · exact seen_mset_ignored _ _ _ (by decide)
    · intro k hk
      simp [Member.put, mget_mset, hk]
  · exact Marked.refl _

theorem marks_marked (ns : String) (xs : List HttpExceptionSpec) (k : String) (s : Shape) : Marked s (marks ns xs k s) := by
  induction xs generalizing s with
  | nil => exact Marked.refl s
  | cons x r ih =>
    have e : marks ns (x :: r) k s = marks ns r k (if k = q ns x.type then markError x s else s) := rfl
    rw [e]
    refine Marked.trans ?_ (ih _)
    split
    · exact markError_marked x s
    · exact Marked.refl s

end Smithy
end Sadl
