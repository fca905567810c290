import Verif.Props.OpenApiHead
import Verif.Props.OpenApiJson
import Verif.Lemmas.OpenApiKeptDoc
/-
C114: a schema exported to an OpenAPI file and imported from it.
-/
namespace Sadl.Props
open Sadl Sadl.Spec

/-- The checks of the import see no difference between a document and what is read back of it. -/
theorem validate_back {L : JLib} {d : ODoc} : validateFile { doc := odocBack L d } = validateFile (writtenFile d) := by
  have hp : ((odocBack L d).paths.map Prod.fst).any (fun p => !hasPrefix p "/") = (d.paths.map Prod.fst).any (fun p => !hasPrefix p "/") := by
    have hp : (entriesBack (opathBack L) d.paths).Perm (d.paths.map fun p => (p.1, opathBack L p.2)) := jSort_perm _
    rw [Bool.eq_iff_iff, List.any_eq_true, List.any_eq_true]
    have hk : ∀ x, x ∈ (odocBack L d).paths.map Prod.fst ↔ x ∈ d.paths.map Prod.fst := by
      intro x
      have := (hp.map Prod.fst).mem_iff (a := x)
      rw [List.map_map] at this
      exact this
    constructor
    · rintro ⟨x, h1, h2⟩; exact ⟨x, (hk x).1 h1, h2⟩
    · rintro ⟨x, h1, h2⟩; exact ⟨x, (hk x).2 h1, h2⟩
  unfold validateFile writtenFile
  simp only [List.append_nil, hp]
  rfl

/-- The import of a file that passes the checks. -/
theorem importFile_ok {load : String → Out OFile} {path : String} {d : ODoc} {m : Model} (hl : load path = .ok { doc := d })
    (hv : validateFile { doc := d } = .ok ()) (ht : toSadl d (String.ofList (importName path.toList)) = .ok m) :
    importOpenApi load [path] = .ok m := by
  have hf : toSadlFile { doc := d } (String.ofList (importName path.toList)) = .ok m := by
    unfold toSadlFile
    rw [if_neg (by simp), if_neg (by simp), ht]
  unfold importOpenApi
  dsimp only
  rw [hl]
  dsimp only
  rw [hv]
  dsimp only
  rw [hf]

/-- C114 (part): a schema of kept types and actions, exported to a document that can be printed (see C113), is imported from the printed text: with
the same types, actions, name, comment, version, server and license.  Missing: other types and actions, enumerations without symbols, and names that
are not identifiers, for which it is false; operations and examples. -/
theorem C114_document_partial (lib : OLib) (hord : ∀ l, (lib.order l).Perm l) (L : JLib) (n : Nat) (hn : n ≤ 4990) (m : Model) (hm : newModel m.schema = .ok m)
    (d : ODoc) (hd : Exports lib m (.ok d)) (hk : ∀ td ∈ m.schema.types, td.name ≠ "" ∧ TypeKept lib m.schema td.ts)
    (he : ∀ td ∈ m.schema.types, td.ts.type = "Enum" → td.ts.elements ≠ [])
    (hh : ∀ h ∈ m.schema.http, OasActionKept lib m.schema h) (hc : OasComplete m.schema) (hok : ODocOk L n d) (path : String) :
    ∃ text m' tds hs, docText L d = some text ∧ importOpenApi (fun _ => loadOas L text) [path] = .ok m' ∧
      tds.Perm m.schema.types ∧ List.Forall₂ SameDef tds m'.schema.types ∧
      hs.Perm m.schema.http ∧ List.Forall₂ (OasSameAction m.schema.base) hs m'.schema.http ∧
      (Identifier m.schema.name → HeadKept m.schema m'.schema) := by
  obtain ⟨text, t1, t2⟩ := C113_document_partial L n hn d hok
  obtain ⟨k, hx⟩ := exports_run hd
  have hsch := sameSchemas_back hm L hord hx hk he
  have hpath := samePaths_back hm L hord hx hh hok
  obtain ⟨m', tds, hs, h1, h2, h3, h4, h5⟩ := C63_actions_partial lib hord m hm d (odocBack L d) hd hk hh hsch hpath (String.ofList (importName path.toList))
  refine ⟨text, m', tds, hs, t1, importFile_ok t2 ?_ h1, h2, h3, h4, h5, fun hi => head_kept (d' := odocBack L d) hord hd rfl rfl rfl rfl rfl rfl h1 hi⟩
  rw [validate_back]
  exact (C111_valid_iff lib hord m d hd).2 hc

/-- C114 (part): a schema of kept types and actions without examples, whose bounds are printed so that they can be read, is exported, printed and
imported again, with the same types, actions, name, comment, version, server and license.  Missing: as above, and schemas with examples, whose
documents must be as C113 says. -/
theorem C114_file_partial (lib : OLib) (hord : ∀ l, (lib.order l).Perm l) (L : JLib) (m : Model) (hm : newModel m.schema = .ok m)
    (d : ODoc) (hd : Exports lib m (.ok d)) (hk : ∀ td ∈ m.schema.types, td.name ≠ "" ∧ TypeKept lib m.schema td.ts)
    (he : ∀ td ∈ m.schema.types, td.ts.type = "Enum" → td.ts.elements ≠ [])
    (hh : ∀ h ∈ m.schema.http, OasActionKept lib m.schema h) (hc : OasComplete m.schema) (hex : m.schema.examples = [])
    (hb : SchemaBoundsPrint L m.schema) (path : String) :
    ∃ text m' tds hs, docText L d = some text ∧ importOpenApi (fun _ => loadOas L text) [path] = .ok m' ∧
      tds.Perm m.schema.types ∧ List.Forall₂ SameDef tds m'.schema.types ∧
      hs.Perm m.schema.http ∧ List.Forall₂ (OasSameAction m.schema.base) hs m'.schema.http ∧
      (Identifier m.schema.name → HeadKept m.schema m'.schema) := by
  obtain ⟨k, hx⟩ := exports_run hd
  exact C114_document_partial lib hord L 3 (by decide) m hm d hd hk he hh hc (kept_document hm L hx hex hk hh hb) path

/-! ### An example -/

theorem desk_complete : OasComplete desk where
  name := by decide
  license := by decide
  paths := by
    intro h hh path hp
    simp only [desk, List.mem_cons, List.not_mem_nil, or_false] at hh
    rw [livesAt_iff] at hp
    subst hp
    rcases hh with rfl | rfl <;> decide +kernel

theorem desk_bounds (L : JLib) : SchemaBoundsPrint L desk := by
  refine ⟨fun td htd => ?_, fun h hh e he o ho => ?_⟩
  · simp only [desk, List.mem_cons, List.not_mem_nil, or_false] at htd
    rcases htd with rfl | rfl <;> simp [BoundsPrint]
  · simp only [desk, List.mem_cons, List.not_mem_nil, or_false] at hh
    rcases hh with rfl | rfl <;> cases he
    · simp only [List.mem_cons, List.not_mem_nil, or_false] at ho
      rcases ho with rfl | rfl <;> simp [BoundsPrint]
    · cases ho

/-- The example schema with two types and two actions goes through a file, whatever the library that prints its numbers. -/
example (L : JLib) : ∃ m d text m' tds hs, m.schema = desk ∧ Exports plainO m (.ok d) ∧ docText L d = some text ∧
    importOpenApi (fun _ => loadOas L text) ["desk.json"] = .ok m' ∧ tds.Perm desk.types ∧ List.Forall₂ SameDef tds m'.schema.types ∧
    hs.Perm desk.http ∧ List.Forall₂ (OasSameAction "/v1") hs m'.schema.http ∧ m'.schema.name = "desk" := by
  have h : exportsB plainO desk 5 (fun _ => true) = true := by decide +kernel
  unfold exportsB at h
  split at h
  · next m hm =>
    have hs : m.schema = desk := by obtain ⟨_, _, _, rfl⟩ := (newModel_ok_iff _ _).1 hm; rfl
    split at h
    · next d hd =>
      obtain ⟨text, m', tds, hs', h1, h2, h3, h4, h5, h6, h7⟩ := C114_file_partial plainO (fun _ => .rfl) L m (hs ▸ hm) d ⟨by simp, 5, hd⟩
        (hs ▸ desk_types) (by rw [hs]; intro td htd ht; simp only [desk, List.mem_cons, List.not_mem_nil, or_false] at htd; rcases htd with rfl | rfl <;> simp at ht)
        (hs ▸ desk_actions) (hs ▸ desk_complete) (by rw [hs]; rfl) (hs ▸ desk_bounds L) "desk.json"
      rw [hs] at h3 h5 h6 h7
      exact ⟨m, d, text, m', tds, hs', hs, ⟨by simp, 5, hd⟩, h1, h2, h3, h4, h5, h6, (h7 ((identifier_iff _).2 (by decide))).name⟩
    · simp at h
  · simp at h

/-! ### What is false -/

/-- Exports, prints, and imports from the file, then looks at what is imported. -/
def fileB (q : Out Model → Bool) (m : Model) : Bool :=
  match exportOasN 9 plainO m with
  | .ok d => match docText fiveJ d with
    | some text => q (importOpenApi (fun _ => loadOas fiveJ text) ["shop.json"])
    | none => false
  | _ => false

theorem oasFile_of (toks : List Token) (q : Out Model → Bool) (h1 : toks.all (fun t => decide (t.type = .symbol → t.text ≠ "")) = true)
    (h : accepts noLib toks (fileB q) = true) :
    ∃ m d text, Accepted noLib m ∧ Exports plainO m (.ok d) ∧ docText fiveJ d = some text ∧
      q (importOpenApi (fun _ => loadOas fiveJ text) ["shop.json"]) = true := by
  obtain ⟨m, hm, h⟩ := accepted_of noLib toks _ h1 h
  unfold fileB at h
  split at h
  · next d hd =>
    split at h
    · next text ht => exact ⟨m, d, text, hm, ⟨by simp, 9, hd⟩, ht, h⟩
    · cases h
  · cases h

/-- C114 is false for a schema whose name is empty: the file that is written for it is refused. -/
theorem C114_refuted_unnamed : ∃ m d text e, Accepted noLib m ∧ Exports plainO m (.ok d) ∧ docText fiveJ d = some text ∧
    importOpenApi (fun _ => loadOas fiveJ text) ["shop.json"] = .err e := by
  obtain ⟨m, d, text, h1, h2, h3, h4⟩ := oasFile_of ([sym "name", str "", nl] ++ getAt "/foo")
    (fun r => match r with | .err _ => true | _ => false) (by decide +kernel) (by decide +kernel)
  split at h4
  · next e he => exact ⟨m, d, text, e, h1, h2, h3, he⟩
  · cases h4

/-- C114 is false for an enumeration without symbols: it comes back as a string. -/
theorem C114_refuted_enum : ∃ m d text m', Accepted noLib m ∧ Exports plainO m (.ok d) ∧ docText fiveJ d = some text ∧
    importOpenApi (fun _ => loadOas fiveJ text) ["shop.json"] = .ok m' ∧
    m.schema.types.map (fun td => (td.name, td.ts.type)) = [("Foo", "Enum")] ∧
    m'.schema.types.map (fun td => (td.name, td.ts.type)) = [("Foo", "String")] := by
  have ha : accepts noLib ([sym "name", sym "shop", nl] ++ typeFoo [sym "Enum", punct .openBrace, nl, punct .closeBrace])
      (fun m => decide (m.schema.types.map (fun td => (td.name, td.ts.type)) = [("Foo", "Enum")]) &&
        fileB (fun r => match r with | .ok m => decide (m.schema.types.map (fun td => (td.name, td.ts.type)) = [("Foo", "String")]) | _ => false) m) = true := by
    decide +kernel
  obtain ⟨m, hm, h⟩ := accepted_of noLib _ _ (by decide +kernel) ha
  rw [Bool.and_eq_true] at h
  obtain ⟨ht, h⟩ := h
  unfold fileB at h
  split at h
  · next d hd =>
    split at h
    · next text hx =>
      dsimp only at h
      split at h
      · next m' hm' => exact ⟨m, d, text, m', hm, ⟨by simp, 9, hd⟩, hx, hm', of_decide_eq_true ht, of_decide_eq_true h⟩
      · cases h
    · cases h
  · cases h

end Sadl.Props
