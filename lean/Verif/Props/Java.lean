import Verif.Lemmas.JavaType
import Verif.Lemmas.ParserKinds
import Verif.Props.Golang
/-
C90: the Java types that fields, variants, inputs and outputs get.
-/
namespace Sadl.Props
open Sadl Sadl.Spec

theorem accepted_kinds {lib : PLib} {m : Model} (h : Accepted lib m) : ∀ td ∈ m.schema.types, KindOk td := by
  obtain ⟨files, n, name, ns, toks, h1, h2, h3⟩ := h
  exact kinds_of_source (kinds_of_file h2 n) (by simp [initialSchema]) h1 (parses_iff.1 h3).1

theorem accepted_java {lib : PLib} {m : Model} (h : Accepted lib m) (hb : NoBoxes m.schema) : JavaWf m.schema m :=
  ⟨accepted_newModel h, accepted_named h, accepted_kinds h, hb⟩

/-! ### C90 -/

/-- C90: the Java type of a field (variant, input, output) of an accepted source is the one of the specification; and when
there is none, there is no result. -/
theorem C90_type (lib : PLib) (m : Model) (h : Accepted lib m) (hb : NoBoxes m.schema) (conf : JavaConf) (ts : TypeSpec)
    (required : Bool) (t : JTy) :
    (∃ jt, javaType m conf (some ts) ts.type required = .ok jt ∧ jt.type = t) ↔ JavaUse m.schema conf.instants ts required t :=
  javaType_use (accepted_java h hb) conf ts required t

/-- C90: no type has two Java types. -/
theorem C90_unique (lib : PLib) (m : Model) (h : Accepted lib m) (hb : NoBoxes m.schema) (inst : Bool) (ts : TypeSpec)
    (required : Bool) (t t' : JTy) (h1 : JavaUse m.schema inst ts required t) (h2 : JavaUse m.schema inst ts required t') : t = t' := by
  obtain ⟨a, h3, rfl⟩ := (C90_type lib m h hb { instants := inst } ts required t).2 h1
  obtain ⟨b, h4, rfl⟩ := (C90_type lib m h hb { instants := inst } ts required t').2 h2
  rw [h3] at h4; cases h4; rfl

/-- C90: a type without a Java type makes the generator crash; it never reports an error. -/
theorem C90_crashes_iff (lib : PLib) (m : Model) (h : Accepted lib m) (hb : NoBoxes m.schema) (conf : JavaConf) (ts : TypeSpec)
    (required : Bool) :
    (∃ e, javaType m conf (some ts) ts.type required = .panic e) ↔ ¬ ∃ t, JavaUse m.schema conf.instants ts required t := by
  constructor
  · rintro ⟨e, he⟩ ⟨t, ht⟩
    obtain ⟨a, h3, _⟩ := (C90_type lib m h hb conf ts required t).2 ht
    rw [he] at h3; cases h3
  · intro hn
    cases hj : javaType m conf (some ts) ts.type required with
    | ok a => exact absurd ⟨a.type, (C90_type lib m h hb conf ts required _).1 ⟨a, hj, rfl⟩⟩ hn
    | err e => exact absurd hj (javaTypeN_noErr conf _ _ _ _ e)
    | panic e => exact ⟨e, rfl⟩

/-- C90: every type of an accepted source has a Java type exactly when no array or map contains itself: the types can be
ranked so that the items and keys of a named array or map rank lower than it, and are not arrays or maps of no type. -/
theorem C90_all_iff (lib : PLib) (m : Model) (h : Accepted lib m) (hb : NoBoxes m.schema) (inst : Bool) :
    (∀ td ∈ m.schema.types, ∃ t, JavaNamed m.schema inst td.name false t) ↔
      ∃ rank : String → Nat, ∀ td ∈ m.schema.types, ∀ n,
        (td.ts.type = "Array" ∧ n = td.ts.items) ∨ (td.ts.type = "Map" ∧ (n = td.ts.keys ∨ n = td.ts.items)) →
        Known m.schema n ∧ n ≠ "Array" ∧ n ≠ "Map" ∧ (n ∈ m.schema.types.map TypeDef.name → rank n < rank td.name) :=
  javaNamed_all_iff (accepted_java h hb) inst

/-- The Java type of a type, if there is one. -/
def javaTypeOf? (m : Model) (conf : JavaConf) (ts : TypeSpec) (required : Bool) : Option JTy :=
  match javaType m conf (some ts) ts.type required with
  | .ok t => some t.type
  | _ => none

/-- The crash of the generator for a type, if it crashes. -/
def javaTypeCrash? (m : Model) (conf : JavaConf) (ts : TypeSpec) (required : Bool) : Option String :=
  match javaType m conf (some ts) ts.type required with
  | .panic e => some e
  | _ => none

theorem javaTypeOf?_iff {m : Model} {conf : JavaConf} {ts : TypeSpec} {r : Bool} {t : JTy} (h : javaTypeOf? m conf ts r = some t) :
    ∃ jt, javaType m conf (some ts) ts.type r = .ok jt ∧ jt.type = t := by
  unfold javaTypeOf? at h
  split at h
  · next jt he => exact ⟨jt, he, Option.some.inj h⟩
  · cases h

theorem javaTypeCrash?_iff {m : Model} {conf : JavaConf} {ts : TypeSpec} {r : Bool} {e : String} (h : javaTypeCrash? m conf ts r = some e) :
    javaType m conf (some ts) ts.type r = .panic e := by
  unfold javaTypeCrash? at h
  split at h
  · next e' he => rw [he]; injection h with h; rw [h]
  · cases h

/-- C90 is false without its condition: with `type Foo Array<Foo>`, which is accepted, the stack overflows. -/
theorem C90_refuted_cycle : ∃ m, Accepted noLib m ∧ NoBoxes m.schema ∧ javaType m {} (some { type := "Foo" }) "Foo" false = .panic stackOverflow := by
  obtain ⟨m, h1, h2⟩ := accepted_of noLib (goTypeFoo [sym "Array", punct .openAngle, sym "Foo", punct .closeAngle])
    (fun m => decide (javaTypeCrash? m {} { type := "Foo" } false = some stackOverflow ∧ m.schema.types.map TypeDef.name = ["Foo"]))
    (by decide +kernel) (by decide +kernel)
  obtain ⟨h3, h4⟩ := of_decide_eq_true h2
  refine ⟨m, h1, fun td htd => ?_, javaTypeCrash?_iff h3⟩
  have : td.name ∈ ["Foo"] := h4 ▸ List.mem_map.2 ⟨td, htd, rfl⟩
  rw [List.mem_singleton.1 this]; decide

/-- C90 is false for a source with a type called like one of Java's boxes: with `type Boolean String`, an optional `Bool` is
a Java `String`. -/
theorem C90_refuted_box : ∃ m, Accepted noLib m ∧
    ∃ jt, javaType m {} (some { type := "Bool" }) "Bool" false = .ok jt ∧ jt.type = .name "String" := by
  obtain ⟨m, h1, h2⟩ := accepted_of noLib [sym "type", sym "Boolean", sym "String", nl]
    (fun m => decide (javaTypeOf? m {} { type := "Bool" } false = some (.name "String")))
    (by decide +kernel) (by decide +kernel)
  exact ⟨m, h1, javaTypeOf?_iff (of_decide_eq_true h2)⟩

/-- A source with a struct, a named number, a named array of it and a named map. -/
def javaTypesSource : List Token :=
  [sym "type", sym "Foo", sym "Struct", punct .openBrace, nl, sym "a", sym "Count", nl, punct .closeBrace, nl,
   sym "type", sym "Count", sym "Int32", nl,
   sym "type", sym "Counts", sym "Array", punct .openAngle, sym "Count", punct .closeAngle, nl,
   sym "type", sym "Index", sym "Map", punct .openAngle, sym "String", punct .comma, sym "Foo", punct .closeAngle, nl]

/-- The hypotheses of C90 are met, with types of every sort. -/
theorem C90_example : ∃ m, Accepted noLib m ∧ NoBoxes m.schema ∧
    JavaUse m.schema true { type := "Count" } true (.name "int") ∧
    JavaUse m.schema true { type := "Count" } false (.name "Integer") ∧
    JavaUse m.schema true { type := "Counts" } true (.list (.name "Integer")) ∧
    JavaUse m.schema true { type := "Index" } true (.map (.name "String") (.name "Foo")) ∧
    JavaUse m.schema true { type := "Array", items := "Timestamp" } false (.list (.name "Instant")) := by
  obtain ⟨m, h1, h2⟩ := accepted_of noLib javaTypesSource
    (fun m => decide (m.schema.types.map TypeDef.name = ["Foo", "Count", "Counts", "Index"] ∧
      javaTypeOf? m {} { type := "Count" } true = some (.name "int") ∧
      javaTypeOf? m {} { type := "Count" } false = some (.name "Integer") ∧
      javaTypeOf? m {} { type := "Counts" } true = some (.list (.name "Integer")) ∧
      javaTypeOf? m {} { type := "Index" } true = some (.map (.name "String") (.name "Foo")) ∧
      javaTypeOf? m {} { type := "Array", items := "Timestamp" } false = some (.list (.name "Instant"))))
    (by decide +kernel) (by decide +kernel)
  obtain ⟨h3, h4, h5, h6, h7, h8⟩ := of_decide_eq_true h2
  have hb : NoBoxes m.schema := fun td htd => by
    have h9 : td.name ∈ ["Foo", "Count", "Counts", "Index"] := h3 ▸ List.mem_map.2 ⟨td, htd, rfl⟩
    exact (by decide : ∀ n ∈ ["Foo", "Count", "Counts", "Index"], n ∉ JavaBoxes) _ h9
  have use : ∀ {ts r t}, javaTypeOf? m {} ts r = some t → JavaUse m.schema true ts r t :=
    fun h => (C90_type noLib m h1 hb {} _ _ _).1 (javaTypeOf?_iff h)
  exact ⟨m, h1, hb, use h4, use h5, use h6, use h7, use h8⟩

end Sadl.Props
