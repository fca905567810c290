import Verif.Lemmas.GoMirror
import Verif.Lemmas.ParserTypeNames
import Verif.Props.Accepted
/-
C64, C65, C66: the Go types generated from an accepted source.
-/
namespace Sadl.Props
open Sadl Sadl.Spec

theorem accepted_newModel {lib : PLib} {m : Model} (h : Accepted lib m) : newModel m.schema = .ok m := by
  obtain ⟨files, n, name, ns, toks, _, _, h3⟩ := h
  obtain ⟨_, _, h6⟩ := parseNoValidate_ok (parses_iff.1 h3).1
  exact h6

theorem accepted_named {lib : PLib} {m : Model} (h : Accepted lib m) : ∀ td ∈ m.schema.types, td.name ≠ "" := by
  obtain ⟨files, n, name, ns, toks, h1, h2, h3⟩ := h
  exact namedTypes_of_source (namedTypes_of_file h2 n) (by simp [initialSchema]) h1 (parses_iff.1 h3).1

/-! ### C64 -/

/-- C64: Go types are generated for an accepted source exactly when each of its types and
actions can be written. -/
theorem C64_generates_iff (lib : PLib) (m : Model) (h : Accepted lib m) (conf : GoConf) :
    (∃ f, goModel m conf = .ok f) ↔
      (∀ td ∈ m.schema.types, GoTypeReady m.schema td) ∧ ∀ hd ∈ m.schema.http, GoActionReady m.schema hd := by
  constructor
  · rintro ⟨f, hf⟩
    exact ((goModel_ok_iff (accepted_newModel h) (accepted_named h) conf f).1 hf).1
  · intro hr
    exact ⟨_, (goModel_ok_iff (accepted_newModel h) (accepted_named h) conf _).2 ⟨hr, rfl⟩⟩

/-- C64: when some type or action cannot be written, the generator panics; it never reports an error. -/
theorem C64_panics_iff (lib : PLib) (m : Model) (h : Accepted lib m) (conf : GoConf) :
    (∃ e, goModel m conf = .panic e) ↔
      (∃ td ∈ m.schema.types, ¬ GoTypeReady m.schema td) ∨ ∃ hd ∈ m.schema.http, ¬ GoActionReady m.schema hd := by
  have h1 := C64_generates_iff lib m h conf
  have h2 : (∃ e, goModel m conf = .panic e) ↔ ¬ ∃ f, goModel m conf = .ok f := by
    constructor
    · rintro ⟨e, he⟩ ⟨f, hf⟩; rw [he] at hf; cases hf
    · intro hn
      cases hg : goModel m conf with
      | ok f => exact absurd ⟨f, hg⟩ hn
      | err e => exact absurd hg (goModel_noErr m conf e)
      | panic e => exact ⟨e, rfl⟩
  rw [h2, h1]
  constructor
  · intro hn
    by_contra hc
    rw [not_or] at hc
    exact hn ⟨fun td htd => by_contra fun k => hc.1 ⟨td, htd, k⟩, fun hd hh => by_contra fun k => hc.2 ⟨hd, hh, k⟩⟩
  · rintro (⟨td, htd, k⟩ | ⟨hd, hh, k⟩) hr
    · exact k (hr.1 td htd)
    · exact k (hr.2 hd hh)

/-- The generated file, if there is one. -/
def goFile? (m : Model) (conf : GoConf) : Option GoFile :=
  match goModel m conf with
  | .ok f => some f
  | _ => none

/-- The generator panics. -/
def goPanics (m : Model) : Bool :=
  match goModel m {} with
  | .panic _ => true
  | _ => false

theorem panics_of (toks : List Token) (h1 : toks.all (fun t => decide (t.type = .symbol → t.text ≠ "")) = true)
    (h : accepts noLib toks goPanics = true) : ∃ m, Accepted noLib m ∧ ∃ e, goModel m {} = .panic e := by
  obtain ⟨m, h2, h3⟩ := accepted_of noLib toks _ h1 h
  refine ⟨m, h2, ?_⟩
  unfold goPanics at h3
  split at h3
  · next e he => exact ⟨e, he⟩
  · cases h3

theorem file_of (toks : List Token) (conf : GoConf) (f : GoFile)
    (h1 : toks.all (fun t => decide (t.type = .symbol → t.text ≠ "")) = true)
    (h : accepts noLib toks (fun m => goFile? m conf == some f) = true) : ∃ m, Accepted noLib m ∧ goModel m conf = .ok f := by
  obtain ⟨m, h2, h3⟩ := accepted_of noLib toks _ h1 h
  refine ⟨m, h2, ?_⟩
  simp only [goFile?, beq_iff_eq] at h3
  split at h3
  · next e he => rw [he]; injection h3 with h3; rw [h3]
  · cases h3

/-- The source `type Foo t`. -/
def goTypeFoo (t : List Token) : List Token := [sym "type", sym "Foo"] ++ t ++ [nl]

/-- The source `type Foo Struct { … }`. -/
def goStructFoo (fields : List (List Token)) : List Token :=
  goTypeFoo ([sym "Struct", punct .openBrace, nl] ++ fields.flatMap (· ++ [nl]) ++ [punct .closeBrace])

/-- C64 is false: `type Foo Bool` is accepted and the generator panics. -/
theorem C64_refuted_bool : ∃ m, Accepted noLib m ∧ ∃ e, goModel m {} = .panic e :=
  panics_of (goTypeFoo [sym "Bool"]) (by decide +kernel) (by decide +kernel)

/-- C64 is false: so it is with `type Foo Timestamp`. -/
theorem C64_refuted_timestamp : ∃ m, Accepted noLib m ∧ ∃ e, goModel m {} = .panic e :=
  panics_of (goTypeFoo [sym "Timestamp"]) (by decide +kernel) (by decide +kernel)

/-- C64 is false: so it is with `type Foo Bytes`. -/
theorem C64_refuted_bytes : ∃ m, Accepted noLib m ∧ ∃ e, goModel m {} = .panic e :=
  panics_of (goTypeFoo [sym "Bytes"]) (by decide +kernel) (by decide +kernel)

/-- C64 is false: so it is with `type Foo UnitValue<Decimal,String>`. -/
theorem C64_refuted_unitvalue : ∃ m, Accepted noLib m ∧ ∃ e, goModel m {} = .panic e :=
  panics_of (goTypeFoo [sym "UnitValue", punct .openAngle, sym "Decimal", punct .comma, sym "String", punct .closeAngle])
    (by decide +kernel) (by decide +kernel)

/-- C64 is false: so it is with a union of an unknown type. -/
theorem C64_refuted_union : ∃ m, Accepted noLib m ∧ ∃ e, goModel m {} = .panic e :=
  panics_of (goTypeFoo [sym "Union", punct .openAngle, sym "Nope", punct .closeAngle]) (by decide +kernel) (by decide +kernel)

/-- C64 is false: so it is with an action without `expect`. -/
theorem C64_refuted_action : ∃ m, Accepted noLib m ∧ ∃ e, goModel m {} = .panic e :=
  panics_of [sym "http", sym "GET", str "/x", punct .openBrace, nl, punct .closeBrace, nl] (by decide +kernel) (by decide +kernel)

/-! ### C65 -/

/-- C65: the file generated from an accepted source, for a service whose name is not that of
a built-in type, respects the rules of Go exactly when the schema is sound. -/
theorem C65_compiles_iff (lib : PLib) (m : Model) (h : Accepted lib m) (conf : GoConf) (hc : conf.name ∉ BaseTypes)
    (f : GoFile) (hf : goModel m conf = .ok f) : GoCompiles f ↔ GoSound conf.name conf.runtime m.schema := by
  obtain ⟨hr, rfl⟩ := (goModel_ok_iff (accepted_newModel h) (accepted_named h) conf f).1 hf
  exact compiles_iff (accepted_newModel h) hr hc

/-- C65 is false: `type Foo Enum { A B }` alone: the file uses packages it does not import. -/
theorem C65_refuted_enum_imports : ∃ m, Accepted noLib m ∧ ∃ f, goModel m { name := "S" } = .ok f ∧ ¬ GoCompiles f := by
  obtain ⟨m, h1, h2⟩ := file_of (goTypeFoo [sym "Enum", punct .openBrace, nl, sym "A", nl, sym "B", nl, punct .closeBrace]) { name := "S" }
    ⟨"", [], [.iface "S" [], .heading "Foo", .enum "Foo" [("A", "A"), ("B", "B")]]⟩ (by decide +kernel) (by decide +kernel)
  refine ⟨m, h1, _, h2, fun h => ?_⟩
  have := (h.packages "fmt").2 ⟨.enum "Foo" [("A", "A"), ("B", "B")], by decide, by decide⟩
  cases this

/-- C65 is false: two enumerations that share a symbol declare it twice. -/
theorem C65_refuted_enum_symbols : ∃ m, Accepted noLib m ∧ ∃ f, goModel m { name := "S" } = .ok f ∧ ¬ GoCompiles f := by
  obtain ⟨m, h1, h2⟩ := file_of
    ([sym "type", sym "E", sym "Enum", punct .openBrace, nl, sym "A", nl, punct .closeBrace, nl] ++
     [sym "type", sym "F", sym "Enum", punct .openBrace, nl, sym "A", nl, punct .closeBrace, nl]) { name := "S" }
    ⟨"", [], [.iface "S" [], .heading "E", .enum "E" [("A", "A")], .heading "F", .enum "F" [("A", "A")]]⟩ (by decide +kernel) (by decide +kernel)
  exact ⟨m, h1, _, h2, fun h => absurd h.once (by decide +kernel)⟩

/-- C65 is false: a type may be called by a keyword of Go. -/
theorem C65_refuted_keyword : ∃ m, Accepted noLib m ∧ ∃ f, goModel m { name := "S" } = .ok f ∧ ¬ GoCompiles f := by
  obtain ⟨m, h1, h2⟩ := file_of [sym "type", sym "func", sym "String", nl] { name := "S" }
    ⟨"", [], [.iface "S" [], .heading "func", .defn "func" (.ident "string") ""]⟩ (by decide +kernel) (by decide +kernel)
  exact ⟨m, h1, _, h2, fun h => (h.idents (.defn "func" (.ident "string") "") (by decide) "func" (by decide)).1 (by decide)⟩

/-- C65 is false: a field of type `UUID` has a type that is not declared. -/
theorem C65_refuted_uuid : ∃ m, Accepted noLib m ∧ ∃ f, goModel m { name := "S" } = .ok f ∧ ¬ GoCompiles f := by
  obtain ⟨m, h1, h2⟩ := file_of (goStructFoo [[sym "id", sym "UUID"]]) { name := "S" }
    ⟨"", [], [.iface "S" [], .heading "Foo", .struct "Foo" [⟨"Id", .ident "UUID", "id", true⟩]]⟩ (by decide +kernel) (by decide +kernel)
  refine ⟨m, h1, _, h2, fun h => ?_⟩
  have := h.resolved (.struct "Foo" [⟨"Id", .ident "UUID", "id", true⟩]) (by decide) "UUID" (by decide)
  exact absurd this (by decide +kernel)

/-- C65 is false: fields `a` and `A` get the same name. -/
theorem C65_refuted_fields : ∃ m, Accepted noLib m ∧ ∃ f, goModel m { name := "S" } = .ok f ∧ ¬ GoCompiles f := by
  obtain ⟨m, h1, h2⟩ := file_of (goStructFoo [[sym "a", sym "String"], [sym "A", sym "String"]]) { name := "S" }
    ⟨"", [], [.iface "S" [], .heading "Foo", .struct "Foo" [⟨"A", .ident "string", "a", true⟩, ⟨"A", .ident "string", "A", true⟩]]⟩
    (by decide +kernel) (by decide +kernel)
  refine ⟨m, h1, _, h2, fun h => ?_⟩
  have := h.onceInside (.struct "Foo" [⟨"A", .ident "string", "a", true⟩, ⟨"A", .ident "string", "A", true⟩]) (by decide)
  exact absurd this (by decide +kernel)

/-- C65 is false: the function generated for `type Foo Int32` returns a value of another type. -/
theorem C65_refuted_number : ∃ m, Accepted noLib m ∧ ∃ f, goModel m { name := "S" } = .ok f ∧ ¬ GoCompiles f := by
  obtain ⟨m, h1, h2⟩ := file_of (goTypeFoo [sym "Int32"]) { name := "S" }
    ⟨"", ["strconv"], [.iface "S" [], .heading "Foo", .defn "Foo" (.ident "int32") "", .fromString "Foo"]⟩ (by decide +kernel) (by decide +kernel)
  exact ⟨m, h1, _, h2, fun h => h.returns (.fromString "Foo") (by decide)⟩

/-- C65 is false: a union that has itself as a variant contains itself. -/
theorem C65_refuted_recursive : ∃ m, Accepted noLib m ∧ ∃ f, goModel m { name := "S" } = .ok f ∧ ¬ GoCompiles f := by
  obtain ⟨m, h1, h2⟩ := file_of (goTypeFoo [sym "Union", punct .openAngle, sym "Foo", punct .comma, sym "String", punct .closeAngle]) { name := "S" }
    ⟨"", [], [.iface "S" [], .heading "Foo", .union "Foo" ["Foo", "String"] [⟨"Foo", .ident "Foo", "Foo", true⟩, ⟨"String", .ident "string", "String", true⟩]]⟩
    (by decide +kernel) (by decide +kernel)
  refine ⟨m, h1, _, h2, fun h => h.layout.finite "Foo" (.single ?_)⟩
  exact GoHasPart.union (n := "Foo") (tags := ["Foo", "String"]) (fs := [⟨"Foo", .ident "Foo", "Foo", true⟩, ⟨"String", .ident "string", "String", true⟩])
    (fd := ⟨"Foo", .ident "Foo", "Foo", true⟩) (by decide) (by decide)

/-- C65 is false: without a name for the service, the interface has none. -/
theorem C65_refuted_nameless : ∃ m, Accepted noLib m ∧ ∃ f, goModel m {} = .ok f ∧ ¬ GoCompiles f := by
  obtain ⟨m, h1, h2⟩ := file_of (goTypeFoo [sym "String"]) {}
    ⟨"", [], [.iface "" [], .heading "Foo", .defn "Foo" (.ident "string") ""]⟩ (by decide +kernel) (by decide +kernel)
  refine ⟨m, h1, _, h2, fun h => ?_⟩
  obtain ⟨_, c, r, hc, _⟩ := h.idents (.iface "" []) (by decide) "" (by decide)
  cases hc

/-! ### C66 -/

/-- C66: the generated Go types mirror the schema: one method and two types for each action, with the
inputs and outputs, and the declarations of each type, in order, with the fields and variants, in
order, and the elements of enumerations; nothing else but the types Timestamp and Decimal. -/
theorem C66_mirrors (lib : PLib) (m : Model) (h : Accepted lib m) (conf : GoConf) (f : GoFile) (hf : goModel m conf = .ok f) :
    f.pkg = conf.pkg ∧ GoMirrors conf.name conf.runtime m.schema f.decls := by
  obtain ⟨hr, rfl⟩ := (goModel_ok_iff (accepted_newModel h) (accepted_named h) conf f).1 hf
  exact ⟨rfl, fileOf_mirrors (accepted_newModel h) hr⟩

/-- A source with an action, an exception, a struct that refers to itself, an array and a union. -/
def goGoodSource : List Token :=
  [sym "type", sym "S", sym "Struct", punct .openBrace, nl,
     sym "a", sym "String", punct .openParen, sym "required", punct .closeParen, nl,
     sym "b", sym "Array", punct .openAngle, sym "S", punct .closeAngle, nl,
     sym "c", sym "Map", punct .openAngle, sym "String", punct .comma, sym "Int32", punct .closeAngle, nl,
     sym "d", sym "Decimal", nl, punct .closeBrace, nl,
   sym "type", sym "U", sym "Union", punct .openAngle, sym "S", punct .comma, sym "String", punct .closeAngle, nl,
   sym "type", sym "E", sym "Enum", punct .openBrace, nl, sym "ONE", nl, punct .closeBrace, nl,
   sym "http", sym "GET", str "/s/{a}", punct .openParen, sym "action", punct .equals, sym "getS", punct .closeParen, punct .openBrace, nl,
     sym "a", sym "String", nl,
     sym "expect", num "200", punct .openBrace, nl, sym "body", sym "S", nl, punct .closeBrace, nl,
     sym "except", num "404", sym "S", nl,
   punct .closeBrace, nl]

def goGoodFile : GoFile :=
  ⟨"p", ["encoding/json", "fmt", "math/big"],
   [.iface "Svc" ["GetS"],
    .struct "GetSRequest" [⟨"A", .ident "string", "a", true⟩],
    .struct "GetSResponse" [⟨"Body", .ptr (.ident "S"), "body", false⟩],
    .heading "S",
    .struct "S" [⟨"A", .ident "string", "a", false⟩, ⟨"B", .slice (.ptr (.ident "S")), "b", true⟩,
      ⟨"C", .map (.ident "string") (.ident "int32"), "c", true⟩, ⟨"D", .ptr (.ident "Decimal"), "d", true⟩],
    .errorMethod "S",
    .heading "U",
    .union "U" ["S", "String"] [⟨"S", .ptr (.ident "S"), "S", true⟩, ⟨"String", .ident "string", "String", true⟩],
    .heading "E", .enum "E" [("ONE", "ONE")],
    .decimal]⟩

/-- The components of the types in that file. -/
theorem goGoodFile_parts {n : String} {t : GoTy} (h : GoHasPart goGoodFile n t) :
    n ∈ ["GetSRequest", "GetSResponse", "S", "U"] ∧ t ∈ [.ident "string", .ptr (.ident "S"), .slice (.ptr (.ident "S")),
      .map (.ident "string") (.ident "int32"), .ptr (.ident "Decimal")] := by
  cases h with
  | struct h1 h2 =>
    simp only [goGoodFile, List.mem_cons, GoDecl.struct.injEq, reduceCtorEq, List.not_mem_nil, or_false, false_or] at h1
    rcases h1 with ⟨rfl, rfl⟩ | ⟨rfl, rfl⟩ | ⟨rfl, rfl⟩ <;> simp only [List.mem_cons, List.not_mem_nil, or_false] at h2
    · subst h2; decide
    · subst h2; decide
    · rcases h2 with rfl | rfl | rfl | rfl <;> decide
  | union h1 h2 =>
    simp only [goGoodFile, List.mem_cons, GoDecl.union.injEq, reduceCtorEq, List.not_mem_nil, or_false, false_or] at h1
    obtain ⟨rfl, _, rfl⟩ := h1
    simp only [List.mem_cons, List.not_mem_nil, or_false] at h2
    rcases h2 with rfl | rfl <;> decide
  | defn h1 => simp [goGoodFile] at h1

/-- That file respects the rules of Go. -/
theorem goGoodFile_compiles : GoCompiles goGoodFile := by
  refine ⟨?_, ?_, by decide +kernel, by decide +kernel, ?_, ?_, ?_, ?_, ?_, ?_⟩
  · intro d hd n hn
    have : ∀ d ∈ goGoodFile.decls, (∀ n ∈ DeclaredNames d, GoIdent n) ∧ ∀ n ∈ InnerNames d, GoIdent n := by decide +kernel
    exact hn.elim ((this d hd).1 n) ((this d hd).2 n)
  · have : ∀ d ∈ goGoodFile.decls, ∀ t ∈ QuotedTexts d, ∀ c ∈ t.toList, c ≠ '"' ∧ c ≠ '\\' ∧ c ≠ '\n' := by decide +kernel
    exact this
  · have : ∀ d ∈ goGoodFile.decls, ∀ n ∈ DeclaredTypes d, .errorMethod n ∈ goGoodFile.decls → "Error" ∉ InnerNames d := by decide +kernel
    exact this
  · have : ∀ d ∈ goGoodFile.decls, ∀ n ∈ UsedTypes d, n ∈ GoPredeclared ∨ ∃ d' ∈ goGoodFile.decls, n ∈ DeclaredTypes d' := by decide +kernel
    exact this
  · have h1 : ∀ p ∈ goGoodFile.imports, ∃ d ∈ goGoodFile.decls, p ∈ UsedPackages d := by decide +kernel
    have h2 : ∀ d ∈ goGoodFile.decls, ∀ p ∈ UsedPackages d, p ∈ goGoodFile.imports := by decide +kernel
    exact fun p => ⟨h1 p, fun ⟨d, hd, hp⟩ => h2 d hd p hp⟩
  · intro d hd
    have : ∀ n, GoDecl.fromString n ∉ goGoodFile.decls := by simp [goGoodFile]
    cases d with
    | fromString n => exact absurd hd (this n)
    | _ => trivial
  · intro n h
    have last : ∀ {a b}, Relation.TransGen (fun a b => GoHasPart goGoodFile a (.ident b)) a b →
        a ∈ ["GetSRequest", "GetSResponse", "S", "U"] ∧ b = "string" := by
      intro a b hab
      have one : ∀ {a b}, GoHasPart goGoodFile a (.ident b) → a ∈ ["GetSRequest", "GetSResponse", "S", "U"] ∧ b = "string" := by
        intro a b h
        refine ⟨(goGoodFile_parts h).1, ?_⟩
        simpa using (goGoodFile_parts h).2
      induction hab with
      | single h => exact one h
      | tail _ h ih => exact ⟨ih.1, (one h).2⟩
    obtain ⟨h1, rfl⟩ := last h
    exact absurd h1 (by decide)
  · intro n t h k hk hno
    have ht := (goGoodFile_parts h).2
    have hk' : k = .ident "string" := by
      simp only [List.mem_cons, List.not_mem_nil, or_false] at ht
      rcases ht with rfl | rfl | rfl | rfl | rfl <;> simp [GoTyKeys] at hk
      exact hk
    subst hk'
    cases hno with
    | named h1 _ => exact absurd (goGoodFile_parts h1).1 (by decide)

/-- The hypotheses of C64, C65 and C66 are met by an accepted source whose types are generated, respect the rules of Go,
and whose schema is sound. -/
example : ∃ m, Accepted noLib m ∧ ∃ f, goModel m { name := "Svc", pkg := "p" } = .ok f ∧ GoCompiles f ∧ GoSound "Svc" false m.schema := by
  obtain ⟨m, h1, h2⟩ := file_of goGoodSource { name := "Svc", pkg := "p" } goGoodFile (by decide +kernel) (by decide +kernel)
  exact ⟨m, h1, _, h2, goGoodFile_compiles, (C65_compiles_iff noLib m h1 { name := "Svc", pkg := "p" } (by decide) _ h2).1 goGoodFile_compiles⟩

end Sadl.Props
