import Verif.Lemmas.GrammarSource
import Verif.Props.Accepted
import Verif.Props.Includes
/-
C54: the accepted sources are exactly the sentences of the grammar of `Spec/Grammar.lean`, and
the schema of a source is the one the grammar gives.  C55: the grammar is unambiguous.
-/
namespace Sadl.Props
open Sadl Sadl.Spec

/-! ### C54 -/

/-- C54: parsing a source, with any way of reading included files, gives a schema exactly if
the grammar does, and the same. -/
theorem C54_source (lib : PLib) (incl : String → IncRes) (init sch : Schema) (toks : List Token) :
    (∃ s, parseSchema lib incl init toks = .ok sch s) ↔
      Source lib (fun f inc => ∃ m, incl f = some (.ok m) ∧ m.schema = inc) init "" (significant toks) sch :=
  parseSchema_iff

/-- C54: parsing a file without validation, with the files it includes, gives the schema that
the grammar gives, and fails if the grammar gives none. -/
theorem C54_file (lib : PLib) (files : String → Option (List Token)) (f : String) (sch : Schema) :
    (∃ n m, parseFileN lib files n f = some (.ok m) ∧ m.schema = sch) ↔ FileSchema lib files f sch := by
  constructor
  · rintro ⟨n, m, h, rfl⟩
    exact ⟨n, ((fileSchemaN_iff n f m).1 h).1⟩
  · rintro ⟨n, h⟩
    have hd : DistinctNames sch := by
      cases n with
      | zero => exact h.elim
      | succ n => exact h.choose_spec.2.2
    obtain ⟨m, hm⟩ := (distinctNames_iff sch).1 hd
    obtain ⟨_, _, _, rfl⟩ := (newModel_ok_iff sch m).1 hm
    exact ⟨n, ⟨sch, _, _⟩, (fileSchemaN_iff n f _).2 ⟨h, hm⟩, rfl⟩

/-- C54: a source is accepted, with validation, exactly if it is a sentence of the grammar, the
names it defines are distinct, and the schema it denotes is valid. -/
theorem C54_accepted (lib : PLib) (files : String → Option (List Token)) (n : Nat) (name ns : String)
    (toks : List Token) (h1 : ∀ t ∈ toks, t.type = .symbol → t.text ≠ "")
    (h2 : ∀ f ts, files f = some ts → ∀ t ∈ ts, t.type = .symbol → t.text ≠ "") (sch : Schema) :
    (∃ m, Parses lib (parseFileN lib files n) (initialSchema name ns) toks m ∧ m.schema = sch) ↔
      Source lib (FileSchemaN lib files n) { sadl := "development version", name := name, «namespace» := ns } ""
        (significant toks) sch ∧ DistinctNames sch ∧ Valid (Conforms lib.toLib (Defines sch)) sch := by
  have hi : Includes (parseFileN lib files n) = FileSchemaN lib files n := by
    funext f s
    refine propext ⟨?_, ?_⟩
    · rintro ⟨m, h, rfl⟩; exact ((fileSchemaN_iff n f m).1 h).1
    · intro h
      have hd : DistinctNames s := by
        cases n with
        | zero => exact h.elim
        | succ n => exact h.choose_spec.2.2
      obtain ⟨m, hm⟩ := (distinctNames_iff s).1 hd
      obtain ⟨_, _, _, rfl⟩ := (newModel_ok_iff s m).1 hm
      exact ⟨⟨s, _, _⟩, (fileSchemaN_iff n f _).2 ⟨h, hm⟩, rfl⟩
  constructor
  · rintro ⟨m, hp, rfl⟩
    have h3 := (parses_iff.1 hp).1
    obtain ⟨h4, h5⟩ := parseNoValidate_iff.1 h3
    rw [hi] at h4
    exact ⟨h4, (distinctNames_iff _).2 ⟨m, h5⟩, (C53_accepts_iff_valid lib files n name ns toks h1 h2 m h3).1 hp⟩
  · rintro ⟨h4, hd, hv⟩
    obtain ⟨m, hm⟩ := (distinctNames_iff sch).1 hd
    obtain ⟨_, _, _, e⟩ := (newModel_ok_iff sch m).1 hm
    have hs : m.schema = sch := by rw [e]
    subst hs
    rw [← hi] at h4
    have h3 := parseNoValidate_iff.2 ⟨h4, hm⟩
    exact ⟨m, (C53_accepts_iff_valid lib files n name ns toks h1 h2 m h3).2 hv, rfl⟩

/-- `name foo`, `type A Array<String> // a list` and `example A ["x"]`, with a block comment. -/
def smallSource : List Token :=
  [sym "name", sym "foo", nl, ⟨.blockComment, "not read"⟩,
   sym "type", sym "A", sym "Array", punct .openAngle, sym "String", punct .closeAngle, ⟨.lineComment, "a list"⟩, nl,
   sym "example", sym "A", punct .openBracket, str "x", punct .closeBracket, nl]

/-- What the source denotes. -/
def smallSchema : Schema :=
  { name := "foo"
    types := [{ name := "A", comment := "a list", ts := { type := "Array", items := "String" } }]
    examples := [{ target := "A", «example» := .arr [.strPtr "x"] }] }

/-- A derivation in the grammar: the right-hand side of C54 can be met, whatever files there are. -/
theorem smallSource_grammar (incl : String → Schema → Prop) : Source noLib incl {} "" (significant smallSource) smallSchema := by
  have htd : TypeDirective noLib "" [sym "A", sym "Array", punct .openAngle, sym "String", punct .closeAngle, ⟨.lineComment, "a list"⟩, nl,
      sym "example", sym "A", punct .openBracket, str "x", punct .closeBracket, nl]
      { name := "A", comment := "a list", ts := { type := "Array", items := "String" } }
      [sym "example", sym "A", punct .openBracket, str "x", punct .closeBracket, nl] := by
    have := TypeDirective.simple (lib := noLib) (c := "") (n := "A") (o := {}) (s := { type := "Array", items := "String" })
      (TypeExpr.generic (n := "Array") (x := "") (.array (t := "String")) (.name (.close (x := "")))) (by decide)
      (fun h => absurd h (by decide)) (fun _ => .array (.inl rfl) (.inr rfl))
      ⟨[], rfl, .inl ⟨rfl, rfl⟩, by simp [NotNext]⟩ (.comment (x := "a list") (.newline (x := nl.text) (r := [sym "example", sym "A", punct .openBracket, str "x", punct .closeBracket, nl])))
    have e : asUuid (typeOf { name := "A", ts := { type := "Array", items := "String" } } {} (mergeComment (mergeComment "" "") "a list")) =
        { name := "A", comment := "a list", ts := { type := "Array", items := "String" } } := by
      have h1 : mergeComment (mergeComment "" "") "a list" = "a list" := by decide +kernel
      rw [h1]
      rfl
    rw [e] at this
    exact this
  have hex : ExampleDirective noLib "" [sym "A", punct .openBracket, str "x", punct .closeBracket, nl]
      { target := "A", «example» := .arr [.strPtr "x"] } [nl] :=
    .mk (us := [punct .openBracket, str "x", punct .closeBracket]) (o := {}) (.last (by simp [NotNext, punct]))
      ⟨[], rfl, .inl ⟨rfl, rfl⟩, by simp [NotNext, punct]⟩ (.array (.item (ts := [str "x"]) (.string rfl) .close))
  exact .directive (.name (.inl rfl)) (.sep (.inr rfl) (.directive (.type htd) (.directive (.example hex) (.sep (.inr rfl) .done))))

/-- The parser agrees. -/
example : ∃ s, parseSchema noLib (fun _ => none) {} smallSource = .ok smallSchema s :=
  (C54_source noLib (fun _ => none) {} smallSchema smallSource).2 (smallSource_grammar _)

/-- Two files, one of which includes the other. -/
def includingFiles : String → Option (List Token)
  | "a.sadl" => some [sym "include", str "b.sadl", nl, sym "type", sym "C", sym "Struct", punct .openBrace, sym "a", sym "A", nl, punct .closeBrace, nl]
  | "b.sadl" => some smallSource
  | _ => none

/-- The first has a schema: the definitions of both. -/
example : ∃ sch, FileSchema noLib includingFiles "a.sadl" sch ∧
    sch.types.map (fun td => (td.name, td.ts.type)) = [("A", "Array"), ("C", "Struct")] := by
  have h : (match parseFileN noLib includingFiles 2 "a.sadl" with
      | some (.ok m) => m.schema.types.map (fun td => (td.name, td.ts.type)) == [("A", "Array"), ("C", "Struct")]
      | _ => false) = true := by decide +kernel
  split at h
  · next m hm => exact ⟨m.schema, (C54_file _ _ _ _).1 ⟨2, m, hm, rfl⟩, eq_of_beq h⟩
  · cases h

/-- A sentence that is not in the grammar: a definition without a type. -/
example : ¬ ∃ sch, Source noLib (fun _ _ => False) {} "" [sym "type", sym "A"] sch := by
  rintro ⟨sch, h⟩
  cases h with
  | sep h => rcases h with h | h <;> cases h
  | directive h _ =>
    have := directive_inv h
    rcases this with ⟨e, _⟩ | ⟨e, _⟩ | ⟨e, _⟩ | ⟨_, td, h, _⟩ | ⟨e, _⟩ | ⟨e, _⟩ | ⟨e, _⟩ | ⟨e, _⟩ | ⟨e, _⟩ | ⟨e, _⟩ | ⟨e, _⟩
    case inr.inr.inr.inl =>
      cases h with
      | simple h => cases h
      | struct h => cases h
      | enum h => cases h
      | union h => cases h
    case inr.inr.inr.inr.inr.inr.inr.inr.inr.inr => exact absurd (by simp) e
    all_goals exact absurd e (by decide)

/-! ### C55 -/

/-- A way of reading files for a relation between files and schemas. -/
theorem includes_of (incl : String → Schema → Prop) (h : ∀ f a b, incl f a → incl f b → a = b) :
    ∃ g : String → IncRes, Includes g = incl := by
  classical
  refine ⟨fun f => if hf : ∃ s, incl f s then some (.ok { schema := hf.choose }) else none, ?_⟩
  funext f s
  refine propext ⟨?_, ?_⟩
  · rintro ⟨m, h1, rfl⟩
    simp only at h1
    by_cases hf : ∃ s, incl f s
    · rw [dif_pos hf] at h1
      injection h1 with h1
      injection h1 with h1
      subst h1
      exact hf.choose_spec
    · rw [dif_neg hf] at h1; cases h1
  · intro hs
    have hf : ∃ s, incl f s := ⟨s, hs⟩
    exact ⟨{ schema := hf.choose }, dif_pos hf, h f _ _ hf.choose_spec hs⟩

/-- C55: the grammar is unambiguous: if a file has at most one schema, so has a source that may include files. -/
theorem C55_source (lib : PLib) (incl : String → Schema → Prop) (hi : ∀ f a b, incl f a → incl f b → a = b)
    (init : Schema) (toks : List Token) (sch sch' : Schema)
    (h : Source lib incl init "" (significant toks) sch) (h' : Source lib incl init "" (significant toks) sch') : sch = sch' := by
  obtain ⟨g, rfl⟩ := includes_of incl hi
  obtain ⟨s, h1⟩ := parseSchema_iff.2 h
  obtain ⟨s', h2⟩ := parseSchema_iff.2 h'
  rw [h1] at h2
  injection h2

/-- Its hypotheses hold of a source. -/
example : ∃ sch, Source noLib (fun _ _ => False) {} "" (significant smallSource) sch ∧
    ∀ f a b, (fun (_ : String) (_ : Schema) => False) f a → (fun (_ : String) (_ : Schema) => False) f b → a = b :=
  ⟨smallSchema, smallSource_grammar _, by simp⟩

/-- C55: a file, with the files it includes, has at most one schema. -/
theorem C55_file (lib : PLib) (files : String → Option (List Token)) (f : String) (sch sch' : Schema)
    (h : FileSchema lib files f sch) (h' : FileSchema lib files f sch') : sch = sch' := by
  obtain ⟨n, m, h1, rfl⟩ := (C54_file lib files f sch).2 h
  obtain ⟨n', m', h2, rfl⟩ := (C54_file lib files f sch').2 h'
  have e1 := C35_bound_unobservable lib files n n' f (by rw [h1]; simp)
  have e2 := C35_bound_unobservable lib files n' n f (by rw [h2]; simp)
  rw [h1] at e1
  rw [h2, Nat.add_comm, e1] at e2
  injection e2 with e2
  injection e2 with e2
  rw [e2]

end Sadl.Props
