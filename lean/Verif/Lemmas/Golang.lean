import Verif.Spec.Golang
import Verif.Lemmas.NewModel
/-
The generated Go types as an explicit function of the schema.
-/
namespace Sadl
open Sadl.Spec

theorem gbind_ok {α β : Type} {x : Out α} {f : α → Out β} {b : β} :
    x.bind f = .ok b ↔ ∃ a, x = .ok a ∧ f a = .ok b := by
  cases x <;> simp [Out.bind]

/-- The call does not report an error: it succeeds or panics. -/
def NoErr {α : Type} (x : Out α) : Prop := ∀ e, x ≠ .err e

theorem NoErr.ok {α : Type} (a : α) : NoErr (.ok a) := fun _ h => by cases h
theorem NoErr.panic {α : Type} (e : String) : NoErr (.panic e : Out α) := fun _ h => by cases h
theorem NoErr.bind {α β : Type} {x : Out α} {f : α → Out β} (h : NoErr x) (hf : ∀ a, NoErr (f a)) : NoErr (x.bind f) := by
  cases x with
  | ok a => exact hf a
  | err e => exact absurd rfl (h e)
  | panic e => exact .panic e

section
variable {s : Schema} {m : Model} (hm : newModel s = .ok m) (hne : ∀ td ∈ s.types, td.name ≠ "")
include hm

theorem goFind_none_iff (n : String) : m.findType n = none ↔ ¬ Known s n := by
  rw [← not_iff_not, not_not, ← ne_eq, Option.ne_none_iff_exists']
  constructor
  · rintro ⟨td, h⟩
    rcases (newModel_findType_iff hm n td).1 h with ⟨h1, h2⟩ | ⟨h1, h2⟩
    · exact ⟨td.ts, .inl ⟨td, h1, h2, rfl⟩⟩
    · exact ⟨{ type := n }, .inr ⟨h1, rfl⟩⟩
  · rintro ⟨ts, ⟨td, h1, h2, h3⟩ | ⟨h1, h2⟩⟩
    · exact ⟨td, (newModel_findType_iff hm n td).2 (.inl ⟨h1, h2⟩)⟩
    · exact ⟨_, (newModel_findType_iff hm n _).2 (.inr ⟨h1, rfl⟩)⟩

theorem findType_base {n : String} (h : n ∈ BaseTypes) : m.findType n = some (baseTypeDef n) :=
  (newModel_findType_iff hm n _).2 (.inr ⟨h, rfl⟩)

include hne in
theorem findType_empty : m.findType "" = none := by
  rw [goFind_none_iff hm]
  rintro ⟨ts, ⟨td, h1, h2, h3⟩ | ⟨h1, h2⟩⟩
  · exact hne td h1 h2
  · exact absurd h1 (by decide)
end

/-- The Go type of a name other than `Array` and `Map`. -/
def leafTy (m : Model) (conf : GoConf) (name : String) : GoTy × List GoNote :=
  if name ∈ goPrimitives then (.ident (uncapitalize name), [])
  else if name = "Decimal" then goRuntimeType conf name [.decimal]
  else if name = "Timestamp" then goRuntimeType conf name [.timestamp]
  else if name = "UnitValue" then goRuntimeType conf name []
  else (if (m.findType name).any (fun td => td.ts.type = "Struct") then .ptr (.ident name) else .ident name, [])

/-- The Go type of a name, with a specification that gives items and keys. -/
def tyOf (m : Model) (conf : GoConf) (ts : TypeSpec) (name : String) : GoTy × List GoNote :=
  if name = "Array" then (.slice (leafTy m conf ts.items).1, (leafTy m conf ts.items).2)
  else if name = "Map" then
    (.map (leafTy m conf ts.keys).1 (leafTy m conf ts.items).1, (leafTy m conf ts.keys).2 ++ (leafTy m conf ts.items).2)
  else leafTy m conf name

theorem prims_base {n : String} (h : n ∈ goPrimitives) : n ∈ BaseTypes := by
  simp only [goPrimitives, List.mem_cons, List.not_mem_nil, or_false] at h
  rcases h with rfl | rfl | rfl | rfl | rfl | rfl | rfl | rfl <;> decide

theorem known_base {s : Schema} {n : String} (h : n ∈ BaseTypes) : Known s n := ⟨_, .inr ⟨h, rfl⟩⟩

section
variable {s : Schema} {m : Model} (hm : newModel s = .ok m) (hne : ∀ td ∈ s.types, td.name ≠ "") (conf : GoConf)
include hm

theorem goTypeN_leaf {n : String} (k : Nat) (ts : TypeSpec) (ha : n ≠ "Array") (hp : n ≠ "Map") (hk : Known s n) :
    goTypeN m conf (k + 1) ts n = .ok (leafTy m conf n) := by
  unfold goTypeN leafTy
  by_cases h1 : n ∈ goPrimitives
  · rw [if_pos h1, if_pos h1]
  rw [if_neg h1, if_neg h1]
  by_cases h2 : n = "Decimal"
  · rw [if_pos h2, if_pos h2]
  rw [if_neg h2, if_neg h2, if_neg ha, if_neg hp]
  by_cases h3 : n = "Timestamp"
  · rw [if_pos h3, if_pos h3]
  rw [if_neg h3, if_neg h3]
  by_cases h4 : n = "UnitValue"
  · rw [if_pos h4, if_pos h4]
  rw [if_neg h4, if_neg h4]
  cases hf : m.findType n with
  | none => exact absurd hk ((goFind_none_iff hm n).1 hf)
  | some td => simp only [Option.any_some, decide_eq_true_eq]

theorem goTypeN_unknown {n : String} (k : Nat) (ts : TypeSpec) (hk : ¬ Known s n) (r : GoTy × List GoNote) :
    goTypeN m conf (k + 1) ts n ≠ .ok r := by
  have hb : ∀ b ∈ BaseTypes, n ≠ b := fun b hb e => hk (e ▸ known_base hb)
  unfold goTypeN
  rw [if_neg (fun h => hk (known_base (prims_base h))), if_neg (hb _ (by decide)), if_neg (hb _ (by decide)),
    if_neg (hb _ (by decide)), if_neg (hb _ (by decide)), if_neg (hb _ (by decide)), (goFind_none_iff hm n).2 hk]
  intro h; cases h

include hne in
theorem goTypeN_base_array (k : Nat) (r : GoTy × List GoNote) :
    goTypeN m conf (k + 1) (baseTypeDef "Array").ts "Array" ≠ .ok r := by
  unfold goTypeN
  rw [if_neg (by decide), if_neg (by decide), if_pos rfl]
  have : (baseTypeDef "Array").ts.items = "" := rfl
  rw [this, findType_empty hm hne]
  intro h; cases h

include hne in
theorem goTypeN_base_map (k : Nat) (r : GoTy × List GoNote) :
    goTypeN m conf (k + 1) (baseTypeDef "Map").ts "Map" ≠ .ok r := by
  unfold goTypeN
  rw [if_neg (by decide), if_neg (by decide), if_neg (by decide), if_pos rfl]
  have : (baseTypeDef "Map").ts.keys = "" := rfl
  rw [this, findType_empty hm hne]
  intro h; cases h

include hne in
/-- An item or key of an array or map. -/
theorem goTypeN_part {n : String} {td : TypeDef} (k : Nat) (hf : m.findType n = some td) (r : GoTy × List GoNote) :
    goTypeN m conf (k + 1) td.ts n = .ok r ↔ GoPlain s n ∧ r = leafTy m conf n := by
  have hk : Known s n := by
    by_contra h
    rw [(goFind_none_iff hm n).2 h] at hf
    cases hf
  by_cases ha : n = "Array"
  · subst ha
    rw [findType_base hm (by decide)] at hf
    injection hf with hf
    subst hf
    constructor
    · exact fun h => absurd h (goTypeN_base_array hm hne conf k r)
    · exact fun h => absurd rfl h.1.2.1
  by_cases hp : n = "Map"
  · subst hp
    rw [findType_base hm (by decide)] at hf
    injection hf with hf
    subst hf
    constructor
    · exact fun h => absurd h (goTypeN_base_map hm hne conf k r)
    · exact fun h => absurd rfl h.1.2.2
  rw [goTypeN_leaf hm conf k td.ts ha hp hk]
  constructor
  · intro h; injection h with h; exact ⟨⟨hk, ha, hp⟩, h.symm⟩
  · rintro ⟨_, rfl⟩; rfl

/-- A type name together with a specification can be written. -/
def GoWrites (s : Schema) (ts : TypeSpec) (name : String) : Prop :=
  Known s name ∧ (name = "Array" → GoPlain s ts.items) ∧ (name = "Map" → GoPlain s ts.keys ∧ GoPlain s ts.items)

include hne in
theorem goType_ok_iff (ts : TypeSpec) (name : String) (r : GoTy × List GoNote) :
    goType m conf ts name = .ok r ↔ GoWrites s ts name ∧ r = tyOf m conf ts name := by
  unfold goType GoWrites
  by_cases hk : Known s name
  swap
  · exact ⟨fun h => absurd h (goTypeN_unknown hm conf 2 ts hk r), fun h => absurd h.1.1 hk⟩
  by_cases ha : name = "Array"
  · subst ha
    unfold goTypeN tyOf
    rw [if_neg (by decide), if_neg (by decide), if_pos rfl, if_pos rfl]
    cases hf : m.findType ts.items with
    | none =>
      simp only [reduceCtorEq, false_iff]
      rintro ⟨⟨_, h, _⟩, _⟩
      exact (goFind_none_iff hm _).1 hf (h (by trivial)).1
    | some its =>
      simp only [gbind_ok]
      constructor
      · rintro ⟨i, h1, h2⟩
        obtain ⟨h3, rfl⟩ := (goTypeN_part hm hne conf 1 hf i).1 h1
        injection h2 with h2
        exact ⟨⟨hk, fun _ => h3, fun h => absurd h (by decide)⟩, h2.symm⟩
      · rintro ⟨⟨_, h, _⟩, rfl⟩
        exact ⟨_, (goTypeN_part hm hne conf 1 hf _).2 ⟨h (by trivial), rfl⟩, rfl⟩
  by_cases hp : name = "Map"
  · subst hp
    unfold goTypeN tyOf
    rw [if_neg (by decide), if_neg (by decide), if_neg (by decide), if_pos rfl, if_neg (by decide), if_pos rfl]
    cases hkf : m.findType ts.keys with
    | none =>
      simp only [reduceCtorEq, false_iff]
      rintro ⟨⟨_, _, h⟩, _⟩
      exact (goFind_none_iff hm _).1 hkf (h (by trivial)).1.1
    | some kts =>
    cases hf : m.findType ts.items with
    | none =>
      simp only [reduceCtorEq, false_iff]
      rintro ⟨⟨_, _, h⟩, _⟩
      exact (goFind_none_iff hm _).1 hf (h (by trivial)).2.1
    | some its =>
      simp only [gbind_ok]
      constructor
      · rintro ⟨k, h1, i, h2, h3⟩
        obtain ⟨h4, rfl⟩ := (goTypeN_part hm hne conf 1 hkf k).1 h1
        obtain ⟨h5, rfl⟩ := (goTypeN_part hm hne conf 1 hf i).1 h2
        injection h3 with h3
        exact ⟨⟨hk, fun h => absurd h (by decide), fun _ => ⟨h4, h5⟩⟩, h3.symm⟩
      · rintro ⟨⟨_, _, h⟩, rfl⟩
        exact ⟨_, (goTypeN_part hm hne conf 1 hkf _).2 ⟨(h (by trivial)).1, rfl⟩, _, (goTypeN_part hm hne conf 1 hf _).2 ⟨(h (by trivial)).2, rfl⟩, rfl⟩
  · rw [goTypeN_leaf hm conf 2 ts ha hp hk]
    unfold tyOf
    rw [if_neg ha, if_neg hp]
    constructor
    · intro h; injection h with h; exact ⟨⟨hk, fun h => absurd h ha, fun h => absurd h hp⟩, h.symm⟩
    · rintro ⟨_, rfl⟩; rfl

include hne in
theorem goTypeN_part_stable {n : String} {td : TypeDef} (k : Nat) (hf : m.findType n = some td) :
    goTypeN m conf (k + 1) td.ts n = goTypeN m conf 1 td.ts n := by
  have hk : Known s n := by
    by_contra h
    rw [(goFind_none_iff hm n).2 h] at hf
    cases hf
  by_cases ha : n = "Array"
  · subst ha
    rw [findType_base hm (by decide)] at hf
    injection hf with hf
    subst hf
    unfold goTypeN
    rw [if_neg (by decide), if_neg (by decide), if_pos rfl, if_neg (by decide), if_neg (by decide), if_pos rfl]
    have : (baseTypeDef "Array").ts.items = "" := rfl
    rw [this, findType_empty hm hne]
  by_cases hp : n = "Map"
  · subst hp
    rw [findType_base hm (by decide)] at hf
    injection hf with hf
    subst hf
    unfold goTypeN
    rw [if_neg (by decide), if_neg (by decide), if_neg (by decide), if_pos rfl, if_neg (by decide), if_neg (by decide), if_neg (by decide), if_pos rfl]
    have : (baseTypeDef "Map").ts.keys = "" := rfl
    rw [this, findType_empty hm hne]
  rw [goTypeN_leaf hm conf k td.ts ha hp hk, goTypeN_leaf hm conf 0 td.ts ha hp hk]

include hne in
/-- The bound on the recursion of `nativeTypeName` is never reached. -/
theorem goType_fuel (k : Nat) (ts : TypeSpec) (name : String) : goTypeN m conf (k + 3) ts name = goType m conf ts name := by
  have part : ∀ {n : String} {td : TypeDef}, m.findType n = some td → goTypeN m conf (k + 2) td.ts n = goTypeN m conf 2 td.ts n :=
    fun hf => (goTypeN_part_stable hm hne conf (k + 1) hf).trans (goTypeN_part_stable hm hne conf 1 hf).symm
  unfold goType
  rw [show k + 3 = (k + 2) + 1 from rfl]
  unfold goTypeN
  by_cases ha : name = "Array"
  · subst ha
    rw [if_neg (by decide), if_neg (by decide), if_pos rfl, if_neg (by decide), if_neg (by decide), if_pos rfl]
    cases hf : m.findType ts.items with
    | none => rfl
    | some its => simp only [part hf]
  by_cases hp : name = "Map"
  · subst hp
    rw [if_neg (by decide), if_neg (by decide), if_neg (by decide), if_pos rfl, if_neg (by decide), if_neg (by decide), if_neg (by decide), if_pos rfl]
    cases hkf : m.findType ts.keys with
    | none => rfl
    | some kts =>
      cases hf : m.findType ts.items with
      | none => rfl
      | some its => simp only [part hf, part hkf]
  rw [if_neg ha, if_neg hp, if_neg ha, if_neg hp]

omit hm in
theorem goTypeN_noErr (m : Model) (n : Nat) (ts : TypeSpec) (name : String) : NoErr (goTypeN m conf n ts name) := by
  induction n generalizing ts name with
  | zero => exact .panic _
  | succ n ih =>
    unfold goTypeN
    repeat' split
    all_goals first
      | exact .ok _
      | exact .panic _
      | exact (ih _ _).bind fun _ => .ok _
      | exact (ih _ _).bind fun _ => (ih _ _).bind fun _ => .ok _
end

theorem writable_iff (s : Schema) (ts : TypeSpec) : GoWritable s ts ↔ GoWrites s ts ts.type :=
  ⟨fun h => ⟨h.known, h.array, h.map⟩, fun h => ⟨h.1, h.2.1, h.2.2⟩⟩

/-! ### Fields, types and actions -/

/-- The Go field of a field. -/
def fieldOf (m : Model) (conf : GoConf) (fd : StructFieldDef) : GoField :=
  ⟨capitalize fd.name, (tyOf m conf fd.ts fd.ts.type).1, fd.name, !fd.required⟩
/-- The Go field of a variant. -/
def variantOf (m : Model) (conf : GoConf) (v : UnionVariantDef) : GoField :=
  ⟨capitalize v.name, (tyOf m conf v.ts v.ts.type).1, v.name, true⟩

theorem goCapitalize_ok (n r : String) : goCapitalize n = .ok r ↔ n ≠ "" ∧ r = capitalize n := by
  unfold goCapitalize
  split <;> simp_all [eq_comm]

theorem goCapitalize_noErr (n : String) : NoErr (goCapitalize n) := by
  unfold goCapitalize; split
  · exact .panic _
  · exact .ok _

section
variable {s : Schema} {m : Model} (hm : newModel s = .ok m) (hne : ∀ td ∈ s.types, td.name ≠ "") (conf : GoConf)
include hm hne

theorem goFields_ok_iff (l : List StructFieldDef) (r : List GoField × List GoNote) :
    goFields m conf l = .ok r ↔ (∀ f ∈ l, f.name ≠ "" ∧ GoWritable s f.ts) ∧
      r = (l.map (fieldOf m conf), l.flatMap fun f => (tyOf m conf f.ts f.ts.type).2) := by
  induction l generalizing r with
  | nil =>
    constructor
    · intro h; injection h with h; exact ⟨by simp, h.symm⟩
    · rintro ⟨_, rfl⟩; rfl
  | cons f l ih =>
    unfold goFields
    simp only [gbind_ok, goCapitalize_ok, goType_ok_iff hm hne, ih]
    constructor
    · rintro ⟨_, ⟨h1, rfl⟩, _, ⟨h2, rfl⟩, _, ⟨h3, rfl⟩, h4⟩
      injection h4 with h4
      subst h4
      refine ⟨?_, rfl⟩
      intro g hg
      rcases List.mem_cons.1 hg with rfl | hg
      · exact ⟨h1, (writable_iff _ _).2 h2⟩
      · exact h3 g hg
    · rintro ⟨h, rfl⟩
      exact ⟨_, ⟨(h f (by simp)).1, rfl⟩, _, ⟨(writable_iff _ _).1 (h f (by simp)).2, rfl⟩, _, ⟨fun g hg => h g (by simp [hg]), rfl⟩, rfl⟩

theorem goVariants_ok_iff (l : List UnionVariantDef) (r : List GoField × List GoNote) :
    goVariants m conf l = .ok r ↔ (∀ f ∈ l, f.name ≠ "" ∧ GoWritable s f.ts) ∧
      r = (l.map (variantOf m conf), l.flatMap fun f => (tyOf m conf f.ts f.ts.type).2) := by
  induction l generalizing r with
  | nil =>
    constructor
    · intro h; injection h with h; exact ⟨by simp, h.symm⟩
    · rintro ⟨_, rfl⟩; rfl
  | cons f l ih =>
    unfold goVariants
    simp only [gbind_ok, goCapitalize_ok, goType_ok_iff hm hne, ih]
    constructor
    · rintro ⟨_, ⟨h1, rfl⟩, _, ⟨h2, rfl⟩, _, ⟨h3, rfl⟩, h4⟩
      injection h4 with h4
      subst h4
      refine ⟨?_, rfl⟩
      intro g hg
      rcases List.mem_cons.1 hg with rfl | hg
      · exact ⟨h1, (writable_iff _ _).2 h2⟩
      · exact h3 g hg
    · rintro ⟨h, rfl⟩
      exact ⟨_, ⟨(h f (by simp)).1, rfl⟩, _, ⟨(writable_iff _ _).1 (h f (by simp)).2, rfl⟩, _, ⟨fun g hg => h g (by simp [hg]), rfl⟩, rfl⟩

omit hm hne in
theorem goFields_noErr (m : Model) (l : List StructFieldDef) : NoErr (goFields m conf l) := by
  induction l with
  | nil => exact .ok _
  | cons f l ih => exact (goCapitalize_noErr _).bind fun _ => (goTypeN_noErr conf m 3 _ _).bind fun _ => ih.bind fun _ => .ok _

omit hm hne in
theorem goVariants_noErr (m : Model) (l : List UnionVariantDef) : NoErr (goVariants m conf l) := by
  induction l with
  | nil => exact .ok _
  | cons f l ih => exact (goCapitalize_noErr _).bind fun _ => (goTypeN_noErr conf m 3 _ _).bind fun _ => ih.bind fun _ => .ok _
end

/-- The declarations of a type, after its heading, and the notes taken. -/
def declsOf (m : Model) (conf : GoConf) (errors : List String) (td : TypeDef) : List GoDecl × List GoNote :=
  if td.ts.type = "Struct" then
    (.struct td.name (td.ts.fields.map (fieldOf m conf)) :: goErrorMethod errors td.name,
     td.ts.fields.flatMap fun f => (tyOf m conf f.ts f.ts.type).2)
  else if td.ts.type = "Union" then
    (.union td.name (td.ts.variants.map fun v => capitalize v.name) (td.ts.variants.map (variantOf m conf)) :: goErrorMethod errors td.name,
     td.ts.variants.flatMap fun f => (tyOf m conf f.ts f.ts.type).2)
  else if td.ts.type = "Enum" then ([.enum td.name (td.ts.elements.map fun e => (e.symbol, goEnumValue e))], [])
  else if td.ts.type = "String" then ([.defn td.name (.ident "string") ""], [])
  else if td.ts.type = "UUID" then ([.defn td.name (.ident "string") " //UUID"], [])
  else if td.ts.type = "Decimal" then ([.defn td.name (.ident "Decimal") ""], [.decimal])
  else if td.ts.type = "Array" then
    ([.defn td.name (.slice (tyOf m conf td.ts td.ts.items).1) ""], (tyOf m conf td.ts td.ts.items).2)
  else if td.ts.type = "Map" then
    ([.defn td.name (.map (tyOf m conf td.ts td.ts.keys).1 (tyOf m conf td.ts td.ts.items).1) ""],
     (tyOf m conf td.ts td.ts.keys).2 ++ (tyOf m conf td.ts td.ts.items).2)
  else ([.defn td.name (.ident (uncapitalize td.ts.type)) "", .fromString td.name], [.pack "strconv"])

theorem goKinds_split {n : String} : n ∈ GoKinds ↔ n = "Struct" ∨ n = "Union" ∨ n = "Enum" ∨ n = "String" ∨ n = "UUID" ∨
    n = "Decimal" ∨ n = "Array" ∨ n = "Map" ∨ n ∈ goNumbers := by
  simp [GoKinds, goNumbers]

section
variable {s : Schema} {m : Model} (hm : newModel s = .ok m) (hne : ∀ td ∈ s.types, td.name ≠ "") (conf : GoConf)
include hm hne

theorem goTypeDecls_ok_iff (errors : List String) (td : TypeDef) (r : List GoDecl × List GoNote) :
    goTypeDecls m conf errors td = .ok r ↔ GoTypeReady s td ∧ r = declsOf m conf errors td := by
  have hko : Known s "Array" := known_base (by decide)
  unfold goTypeDecls declsOf
  by_cases h1 : td.ts.type = "Struct"
  · rw [if_pos h1, if_pos h1]
    simp only [gbind_ok, goFields_ok_iff hm hne]
    constructor
    · rintro ⟨_, ⟨h2, rfl⟩, h3⟩
      injection h3 with h3
      exact ⟨⟨by rw [h1]; decide, fun _ => h2, fun h => by rw [h1] at h; exact absurd h (by decide), fun h => by rw [h1] at h; exact absurd h (by decide), fun h => by rw [h1] at h; exact absurd h (by decide)⟩, h3.symm⟩
    · rintro ⟨h, rfl⟩
      exact ⟨_, ⟨h.struct h1, rfl⟩, rfl⟩
  rw [if_neg h1, if_neg h1]
  by_cases h2 : td.ts.type = "Union"
  · rw [if_pos h2, if_pos h2]
    simp only [gbind_ok, goVariants_ok_iff hm hne]
    constructor
    · rintro ⟨_, ⟨h3, rfl⟩, h4⟩
      injection h4 with h4
      exact ⟨⟨by rw [h2]; decide, fun h => absurd h h1, fun _ => h3, fun h => by rw [h2] at h; exact absurd h (by decide), fun h => by rw [h2] at h; exact absurd h (by decide)⟩, h4.symm⟩
    · rintro ⟨h, rfl⟩
      exact ⟨_, ⟨h.union h2, rfl⟩, rfl⟩
  rw [if_neg h2, if_neg h2]
  by_cases hu : td.ts.type = "UnitValue"
  · rw [if_pos hu]
    simp only [reduceCtorEq, false_iff]
    rintro ⟨h, _⟩
    have := h.kind
    rw [hu] at this
    exact absurd this (by decide)
  rw [if_neg hu]
  have simple : ∀ {k : String} (x : List GoDecl × List GoNote), td.ts.type = k → k ∈ GoKinds → k ≠ "Array" → k ≠ "Map" →
      (Out.ok x = .ok r ↔ GoTypeReady s td ∧ r = x) := by
    intro k x hk hg ha hp
    constructor
    · intro h
      injection h with h
      exact ⟨⟨hk ▸ hg, fun h => absurd h h1, fun h => absurd h h2, fun h => absurd (hk.symm.trans h) ha, fun h => absurd (hk.symm.trans h) hp⟩, h.symm⟩
    · rintro ⟨_, rfl⟩; rfl
  by_cases h3 : td.ts.type = "Enum"
  · rw [if_pos h3, if_pos h3]; exact simple _ h3 (by decide) (by decide) (by decide)
  rw [if_neg h3, if_neg h3]
  by_cases h4 : td.ts.type = "String"
  · rw [if_pos h4, if_pos h4]; exact simple _ h4 (by decide) (by decide) (by decide)
  rw [if_neg h4, if_neg h4]
  by_cases h5 : td.ts.type = "UUID"
  · rw [if_pos h5, if_pos h5]; exact simple _ h5 (by decide) (by decide) (by decide)
  rw [if_neg h5, if_neg h5]
  by_cases h6 : td.ts.type = "Decimal"
  · rw [if_pos h6, if_pos h6]; exact simple _ h6 (by decide) (by decide) (by decide)
  rw [if_neg h6, if_neg h6]
  by_cases h7 : td.ts.type = "Array"
  · rw [if_pos h7, if_pos h7]
    simp only [gbind_ok, goType_ok_iff hm hne]
    constructor
    · rintro ⟨_, ⟨h8, rfl⟩, h9⟩
      injection h9 with h9
      refine ⟨⟨by rw [h7]; decide, fun h => absurd h h1, fun h => absurd h h2, fun _ => ⟨h8.1, fun h => ?_, fun h => ?_⟩, fun h => by rw [h7] at h; exact absurd h (by decide)⟩, h9.symm⟩
      · exact (h8.2.1 h).2.1 h
      · exact (h8.2.2 h).2.2.2 h
    · rintro ⟨h, rfl⟩
      obtain ⟨k1, k2, k3⟩ := h.array h7
      exact ⟨_, ⟨⟨k1, fun h => absurd h k2, fun h => absurd h k3⟩, rfl⟩, rfl⟩
  rw [if_neg h7, if_neg h7]
  by_cases h8 : td.ts.type = "Map"
  · rw [if_pos h8, if_pos h8]
    simp only [gbind_ok, goType_ok_iff hm hne]
    constructor
    · rintro ⟨_, ⟨k1, rfl⟩, _, ⟨k2, rfl⟩, h9⟩
      injection h9 with h9
      refine ⟨⟨by rw [h8]; decide, fun h => absurd h h1, fun h => absurd h h2, fun h => absurd h h7, fun _ => ⟨⟨k2.1, fun h => ?_, fun h => ?_⟩, k1.1, fun h => ?_⟩⟩, h9.symm⟩
      · exact (k2.2.1 h).2.1 h
      · exact (k2.2.2 h).2.2.2 h
      · exact (k1.2.2 h).1.2.2 h
    · rintro ⟨h, rfl⟩
      obtain ⟨k1, k2, k3⟩ := h.map h8
      exact ⟨_, ⟨⟨k2, fun _ => k1, fun h => absurd h k3⟩, rfl⟩, _, ⟨⟨k1.1, fun h => absurd h k1.2.1, fun h => absurd h k1.2.2⟩, rfl⟩, rfl⟩
  rw [if_neg h8, if_neg h8]
  by_cases h9 : td.ts.type ∈ goNumbers
  · rw [if_pos h9]
    exact simple _ rfl (goKinds_split.2 (by simp [h9])) h7 h8
  · rw [if_neg h9]
    simp only [reduceCtorEq, false_iff]
    rintro ⟨h, _⟩
    have := goKinds_split.1 h.kind
    simp_all

omit hm hne in
theorem goTypeDecls_noErr (m : Model) (errors : List String) (td : TypeDef) : NoErr (goTypeDecls m conf errors td) := by
  unfold goTypeDecls
  repeat' split
  all_goals first
    | exact .ok _
    | exact .panic _
    | exact (goFields_noErr conf m _).bind fun _ => .ok _
    | exact (goVariants_noErr conf m _).bind fun _ => .ok _
    | exact (goTypeN_noErr conf m 3 _ _).bind fun _ => .ok _
    | exact (goTypeN_noErr conf m 3 _ _).bind fun _ => (goTypeN_noErr conf m 3 _ _).bind fun _ => .ok _

/-- The outputs of an action. -/
def outputsOf (hd : HttpDef) : List HttpParamSpec := (hd.expected.map (·.outputs)).getD []

/-- The declarations of an action, and the notes taken. -/
def actionDecls (m : Model) (conf : GoConf) (hd : HttpDef) : List GoDecl × List GoNote :=
  ([.struct (capitalize hd.name ++ "Request") (hd.inputs.map fun p => fieldOf m conf p.field),
    .struct (capitalize hd.name ++ "Response") ((outputsOf hd).map fun p => fieldOf m conf p.field)],
   (hd.inputs.flatMap fun p => (tyOf m conf p.field.ts p.field.ts.type).2) ++
   (outputsOf hd).flatMap fun p => (tyOf m conf p.field.ts p.field.ts.type).2)

theorem goActionTypes_ok_iff (hd : HttpDef) (r : List GoDecl × List GoNote) :
    goActionTypes m conf hd = .ok r ↔ GoActionReady s hd ∧ r = actionDecls m conf hd := by
  unfold goActionTypes
  simp only [gbind_ok, goCapitalize_ok, goFields_ok_iff hm hne]
  constructor
  · rintro ⟨_, ⟨h1, rfl⟩, _, ⟨h2, rfl⟩, h3⟩
    cases he : hd.expected with
    | none => rw [he] at h3; cases h3
    | some e =>
      rw [he] at h3
      simp only [gbind_ok, goFields_ok_iff hm hne] at h3
      obtain ⟨_, ⟨h4, rfl⟩, h5⟩ := h3
      injection h5 with h5
      refine ⟨⟨h1, fun p hp => h2 _ (List.mem_map_of_mem hp), e, he, fun p hp => h4 _ (List.mem_map_of_mem hp)⟩, h5.symm.trans ?_⟩
      simp [actionDecls, outputsOf, he, List.flatMap_map]
  · rintro ⟨⟨h1, h2, e, he, h3⟩, rfl⟩
    refine ⟨_, ⟨h1, rfl⟩, _, ⟨?_, rfl⟩, ?_⟩
    · intro f hf
      obtain ⟨p, hp, rfl⟩ := List.mem_map.1 hf
      exact h2 p hp
    · rw [he]
      simp only [gbind_ok, goFields_ok_iff hm hne]
      refine ⟨_, ⟨?_, rfl⟩, ?_⟩
      · intro f hf
        obtain ⟨p, hp, rfl⟩ := List.mem_map.1 hf
        exact h3 p hp
      · simp [actionDecls, outputsOf, he, List.flatMap_map]

omit hm hne in
theorem goActionTypes_noErr (m : Model) (hd : HttpDef) : NoErr (goActionTypes m conf hd) := by
  unfold goActionTypes
  refine (goCapitalize_noErr _).bind fun _ => (goFields_noErr conf m _).bind fun _ => ?_
  cases hd.expected with
  | none => exact .panic _
  | some e => exact (goFields_noErr conf m _).bind fun _ => .ok _

theorem goActionsLoop_ok_iff (l : List HttpDef) (r : List GoDecl × List GoNote) :
    goActionsLoop m conf l = .ok r ↔ (∀ hd ∈ l, GoActionReady s hd) ∧
      r = (l.flatMap fun hd => (actionDecls m conf hd).1, l.flatMap fun hd => (actionDecls m conf hd).2) := by
  induction l generalizing r with
  | nil =>
    constructor
    · intro h; injection h with h; exact ⟨by simp, h.symm⟩
    · rintro ⟨_, rfl⟩; rfl
  | cons hd l ih =>
    unfold goActionsLoop
    simp only [gbind_ok, goActionTypes_ok_iff hm hne, ih]
    constructor
    · rintro ⟨_, ⟨h1, rfl⟩, _, ⟨h2, rfl⟩, h3⟩
      injection h3 with h3
      exact ⟨fun g hg => (List.mem_cons.1 hg).elim (fun e => e ▸ h1) (h2 g), h3.symm⟩
    · rintro ⟨h, rfl⟩
      exact ⟨_, ⟨h hd (by simp), rfl⟩, _, ⟨fun g hg => h g (by simp [hg]), rfl⟩, rfl⟩

theorem goTypesLoop_ok_iff (errors : List String) (l : List TypeDef) (r : List GoDecl × List GoNote) :
    goTypesLoop m conf errors l = .ok r ↔ (∀ td ∈ l, GoTypeReady s td) ∧
      r = (l.flatMap fun td => .heading td.name :: (declsOf m conf errors td).1, l.flatMap fun td => (declsOf m conf errors td).2) := by
  induction l generalizing r with
  | nil =>
    constructor
    · intro h; injection h with h; exact ⟨by simp, h.symm⟩
    · rintro ⟨_, rfl⟩; rfl
  | cons td l ih =>
    unfold goTypesLoop
    simp only [gbind_ok, goTypeDecls_ok_iff hm hne, ih]
    constructor
    · rintro ⟨_, ⟨h1, rfl⟩, _, ⟨h2, rfl⟩, h3⟩
      injection h3 with h3
      exact ⟨fun g hg => (List.mem_cons.1 hg).elim (fun e => e ▸ h1) (h2 g), h3.symm⟩
    · rintro ⟨h, rfl⟩
      exact ⟨_, ⟨h td (by simp), rfl⟩, _, ⟨fun g hg => h g (by simp [hg]), rfl⟩, rfl⟩

omit hm hne in
theorem goActionsLoop_noErr (m : Model) (l : List HttpDef) : NoErr (goActionsLoop m conf l) := by
  induction l with
  | nil => exact .ok _
  | cons hd l ih => exact (goActionTypes_noErr conf m hd).bind fun _ => ih.bind fun _ => .ok _

omit hm hne in
theorem goTypesLoop_noErr (m : Model) (errors : List String) (l : List TypeDef) : NoErr (goTypesLoop m conf errors l) := by
  induction l with
  | nil => exact .ok _
  | cons hd l ih => exact (goTypeDecls_noErr conf m errors hd).bind fun _ => ih.bind fun _ => .ok _
end

/-- The types that are exceptions of some action. -/
def exceptionsOf (s : Schema) : List String := s.http.flatMap fun hd => hd.exceptions.map (·.type)

/-- The notes taken while the types are written. -/
def notesOf (m : Model) (conf : GoConf) : List GoNote :=
  (m.schema.http.flatMap fun hd => (actionDecls m conf hd).2) ++
  m.schema.types.flatMap fun td => (declsOf m conf (exceptionsOf m.schema) td).2

/-- The generated file. -/
def fileOf (m : Model) (conf : GoConf) : GoFile :=
  ⟨conf.pkg, goImports (notesOf m conf ++ (goClosing (notesOf m conf)).2),
    .iface conf.name (m.schema.http.map fun hd => capitalize hd.name) ::
      (m.schema.http.flatMap fun hd => (actionDecls m conf hd).1) ++
      (m.schema.types.flatMap fun td => .heading td.name :: (declsOf m conf (exceptionsOf m.schema) td).1) ++
      (goClosing (notesOf m conf)).1⟩

theorem goModel_ok_iff {m : Model} (hm : newModel m.schema = .ok m) (hne : ∀ td ∈ m.schema.types, td.name ≠ "") (conf : GoConf) (f : GoFile) :
    goModel m conf = .ok f ↔ ((∀ td ∈ m.schema.types, GoTypeReady m.schema td) ∧ ∀ hd ∈ m.schema.http, GoActionReady m.schema hd) ∧
      f = fileOf m conf := by
  unfold goModel
  simp only [gbind_ok, goActionsLoop_ok_iff hm hne, goTypesLoop_ok_iff hm hne]
  constructor
  · rintro ⟨_, ⟨h1, rfl⟩, _, ⟨h2, rfl⟩, h3⟩
    injection h3 with h3
    exact ⟨⟨h2, h1⟩, h3.symm⟩
  · rintro ⟨⟨h2, h1⟩, rfl⟩
    exact ⟨_, ⟨h1, rfl⟩, _, ⟨h2, rfl⟩, rfl⟩

theorem goModel_noErr (m : Model) (conf : GoConf) : NoErr (goModel m conf) := by
  unfold goModel
  exact (goActionsLoop_noErr conf m _).bind fun _ => (goTypesLoop_noErr conf m _ _).bind fun _ => .ok _

end Sadl
