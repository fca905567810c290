import Verif.Spec.OpenApiHead
import Verif.Model.OpenApiFile
import Verif.Lemmas.OpenApiFits
import Verif.Lemmas.SwaggerActions
import Verif.Lemmas.GrammarSource
import Verif.Props.OpenApi
import Mathlib.Tactic.SplitIfs
/-
C111: an exported OpenAPI document says of itself what the schema says, and can be read back.
-/
namespace Sadl.Props
open Sadl Sadl.Spec

/-- C111: the document has the name, the comment, the version, the server and the license of the schema. -/
theorem C111_head (lib : OLib) (hord : ∀ l, (lib.order l).Perm l) (m : Model) (d : ODoc) (hd : Exports lib m (.ok d)) :
    HeadOf m.schema d := by
  obtain ⟨n, hn⟩ := exports_run hd
  obtain ⟨schemas, paths, _, _, _, h4⟩ := exportOas_ok hord hn
  obtain ⟨h1, h2, h3, h5, h6, h7⟩ := h4.head
  simp only [exportHead] at h1 h2 h3 h5 h6 h7
  refine ⟨h1, h2, h3, ?_, ?_, ?_, ?_, ?_⟩
  · rw [h5]
    by_cases hv : m.schema.version = "" <;> simp [hv]
  · intro url hu; rw [h7, hu]; rfl
  · intro hu; rw [h7, hu]; rfl
  · intro hl
    exact h6.trans (if_pos hl.symm)
  · intro hl hu
    exact h6.trans (if_neg (by rintro (h | h); exacts [h hu, h hl]))

/-- The paths of the document are those of the actions. -/
theorem head_paths {lib : OLib} (hord : ∀ l, (lib.order l).Perm l) {m : Model} {d : ODoc} (hd : Exports lib m (.ok d)) (p : String) :
    p ∈ d.paths.map Prod.fst ↔ ∃ h ∈ m.schema.http, p = oasPath m.schema.base h := by
  obtain ⟨n, hn⟩ := exports_run hd
  unfold exportOasN at hn
  obtain ⟨schemas, h1, h⟩ := Ran.bind_eq_ok.1 hn
  obtain ⟨paths, h2, h⟩ := Ran.bind_eq_ok.1 h
  have h0 : DocFor m.schema { exportHead m.schema with schemas := schemas, paths := paths } := by
    refine ⟨exportHttp_for h2, fun n => ?_⟩
    rw [Ne, mget_none_iff, not_not]
    simp only
    rw [(exportTypes_ok h1).1 n]
    simp [Named]
  have all : ∀ (exs : List ExampleDef) (d0 d1 : ODoc), DocFor m.schema d0 → exportExamples lib m exs d0 = .ok d1 → DocFor m.schema d1 := by
    intro exs
    induction exs with
    | nil => intro d0 d1 h0 h; cases h; exact h0
    | cons ex exs ih =>
      intro d0 d1 h0 h
      unfold exportExamples at h
      obtain ⟨d2, h3, h⟩ := Ran.bind_eq_ok.1 h
      exact ih _ _ (h0.next hord h3) h
  exact (all _ _ _ h0 h).paths.keys p

/-- C111: exactly the documents of complete schemas pass the checks of the import, once they are written and read. -/
theorem C111_valid_iff (lib : OLib) (hord : ∀ l, (lib.order l).Perm l) (m : Model) (d : ODoc) (hd : Exports lib m (.ok d)) :
    validateFile (writtenFile d) = .ok () ↔ OasComplete m.schema := by
  have hh := C111_head lib hord m d hd
  have hk := head_paths hord hd
  have hv : d.version ≠ "" := by
    rcases hh.version with ⟨h1, h2⟩ | ⟨_, h2⟩
    · rw [h2]; exact h1
    · rw [h2]; decide
  have ho : d.openapi ≠ "" := by rw [hh.standard]; decide
  have hs : (d.paths.map Prod.fst).any (fun p => !hasPrefix p "/") = true ↔
      ¬ ∀ h ∈ m.schema.http, ∀ path, LivesAt m.schema.base h path → path.toList.head? = some '/' := by
    rw [List.any_eq_true]
    constructor
    · rintro ⟨p, h1, h2⟩ h3
      obtain ⟨a, ha, rfl⟩ := (hk p).1 h1
      have := (hasPrefix_slash _).2 (h3 a ha _ ((livesAt_iff _ _ _).2 rfl))
      rw [this] at h2; cases h2
    · intro h3
      by_contra h4
      refine h3 fun a ha path hpath => ?_
      rw [← hasPrefix_slash]
      by_contra h5
      exact h4 ⟨path, (hk _).2 ⟨a, ha, (livesAt_iff _ _ _).1 hpath⟩, by simpa using h5⟩
  have hl : d.license.any (fun l => l.1 = "") = true ↔
      ¬ (annotation m.schema "x_license_url" ≠ "" → annotation m.schema "x_license_name" ≠ "") := by
    by_cases h1 : annotation m.schema "x_license_name" = "" <;> by_cases h2 : annotation m.schema "x_license_url" = ""
    · rw [hh.noLicense h1 h2]; simp [h2]
    · rw [hh.license (.inr h2)]; simp [h1, h2]
    · rw [hh.license (.inl h1)]; simp [h1]
    · rw [hh.license (.inl h1)]; simp [h1]
  unfold validateFile writtenFile
  simp only [List.append_nil]
  rw [if_neg ho, if_neg (by simp), hh.title]
  by_cases c1 : m.schema.name = ""
  · rw [if_pos c1]; exact ⟨fun h => (by cases h), fun h => absurd c1 h.name⟩
  rw [if_neg c1, if_neg hv]
  by_cases c2 : d.license.any (fun l => l.1 = "") = true
  · rw [if_pos c2]; exact ⟨fun h => (by cases h), fun h => absurd h.license (hl.1 c2)⟩
  rw [if_neg c2]
  rw [if_neg (by simp)]
  by_cases c4 : (d.paths.map Prod.fst).any (fun p => !hasPrefix p "/") = true
  · rw [if_pos c4]; exact ⟨fun h => (by cases h), fun h => absurd h.paths (hs.1 c4)⟩
  rw [if_neg c4]
  exact ⟨fun _ => ⟨c1, by_contra fun h => c2 (hl.2 h), by_contra fun h => c4 (hs.2 h)⟩, fun _ => rfl⟩

/-- C111: the document of a schema that is not complete is refused with an error. -/
theorem C111_refused (lib : OLib) (hord : ∀ l, (lib.order l).Perm l) (m : Model) (d : ODoc) (hd : Exports lib m (.ok d)) (path : String)
    (hc : ¬ OasComplete m.schema) : ∃ e, importOpenApi (fun _ => .ok (writtenFile d)) [path] = .err e := by
  have hv := mt (C111_valid_iff lib hord m d hd).1 hc
  unfold importOpenApi
  cases h : validateFile (writtenFile d) with
  | ok u => exact absurd h hv
  | err e => exact ⟨e, by simp [h]⟩
  | panic e =>
    exfalso
    unfold validateFile at h
    split_ifs at h

/-- A document that is read back is converted. -/
theorem written_toSadl {d : ODoc} {path : String} {m : Model} (hi : importOpenApi (fun _ => .ok (writtenFile d)) [path] = .ok m) :
    toSadl d (String.ofList (importName path.toList)) = .ok m := by
  unfold importOpenApi at hi
  cases h : validateFile (writtenFile d) with
  | ok u =>
    simp only [h] at hi
    have : toSadlFile (writtenFile d) (String.ofList (importName path.toList)) = toSadl d (String.ofList (importName path.toList)) := by
      unfold toSadlFile writtenFile; simp
    rw [this] at hi
    split at hi
    · cases hi
    · exact hi
  | err e => simp [h] at hi
  | panic e => simp [h] at hi

/-- C111: a name that cannot be a name becomes the beginning of the comment. -/
theorem C111_renamed (lib : OLib) (hord : ∀ l, (lib.order l).Perm l) (m : Model) (d : ODoc) (hd : Exports lib m (.ok d)) (path : String)
    (m' : Model) (hi : importOpenApi (fun _ => .ok (writtenFile d)) [path] = .ok m') (hn : ¬ Identifier m.schema.name) :
    m'.schema.name = String.ofList (importName path.toList) ∧ m'.schema.comment = m.schema.name ++ " - " ++ m.schema.comment := by
  have hh := C111_head lib hord m d hd
  have hc : OasComplete m.schema := by_contra fun hc => by
    obtain ⟨e, he⟩ := C111_refused lib hord m d hd path hc
    rw [hi] at he; cases he
  obtain ⟨-, -, h1, h2, -, -⟩ := toSadl_read (written_toSadl hi)
  rw [hh.title, hh.description] at h1 h2
  unfold importTitle at h1 h2
  rw [if_neg hc.name, if_neg (mt (identifier_iff _).2 hn)] at h1 h2
  exact ⟨h1, h2⟩

/-- What is converted from a document with the head of an exported one. -/
theorem head_kept {lib : OLib} (hord : ∀ l, (lib.order l).Perm l) {m : Model} {d d' : ODoc} (hd : Exports lib m (.ok d)) (e1 : d'.title = d.title)
    (e2 : d'.description = d.description) (e3 : d'.version = d.version) (e4 : d'.license = d.license) (e5 : d'.servers = d.servers) (e6 : d'.openapi = d.openapi)
    {name : String} {m' : Model} (ht : toSadl d' name = .ok m') (hn : Identifier m.schema.name) : HeadKept m.schema m'.schema := by
  have hh := C111_head lib hord m d hd
  obtain ⟨-, -, h1, h2, h3, h4⟩ := toSadl_read ht
  rw [e1, e2] at h1 h2
  rw [e3] at h3
  have hann' : importAnnotations d' = importAnnotations d := by unfold importAnnotations; rw [e4, e5, e6]
  rw [hann'] at h4
  have hsym := (identifier_iff _).1 hn
  have hne : m.schema.name ≠ "" := by intro h; rw [h] at hsym; cases hsym
  have hT : importTitle d.title d.description name = (m.schema.name, m.schema.comment) := by
    rw [hh.title, hh.description]; unfold importTitle; rw [if_neg hne, if_pos hsym]
  rw [hT] at h1 h2
  have hv : m'.schema.version = if m.schema.version = "" then "dev" else m.schema.version := by
    rw [h3]
    rcases hh.version with ⟨h5, h6⟩ | ⟨h5, h6⟩
    · rw [h6, if_neg h5]
    · rw [h6, if_pos h5]
  have hsrv : d.servers = "http://localhost:8000" :: (mget m.schema.annotations "x_server").toList := by
    cases hx : mget m.schema.annotations "x_server" with
    | none => exact hh.noServer hx
    | some u => exact hh.server u hx
  suffices h : mget m'.schema.annotations "x_server" = some ((mget m.schema.annotations "x_server").getD "http://localhost:8000") ∧
      annotation m'.schema "x_license_name" = annotation m.schema "x_license_name" ∧
      annotation m'.schema "x_license_url" = annotation m.schema "x_license_url" from ⟨h1, h2, hv, h.1, h.2.1, h.2.2⟩
  have hann : ∀ k, annotation m'.schema k = (mget (importAnnotations d) k).getD "" := by intro k; unfold annotation; rw [h4]
  rw [hann, hann, h4]
  unfold importAnnotations
  rw [hsrv]
  have n1 := hh.noLicense
  have n2 := hh.license
  generalize annotation m.schema "x_license_name" = ln at *
  generalize annotation m.schema "x_license_url" = lu at *
  by_cases c1 : ln = "" <;> by_cases c2 : lu = ""
  · rw [n1 c1 c2]; cases mget m.schema.annotations "x_server" <;> simp [c1, c2, mget_mset, mget]
  · rw [n2 (.inr c2)]; cases mget m.schema.annotations "x_server" <;> simp [c1, c2, mget_mset, mget]
  · rw [n2 (.inl c1)]; cases mget m.schema.annotations "x_server" <;> simp [c1, c2, mget_mset, mget]
  · rw [n2 (.inl c1)]; cases mget m.schema.annotations "x_server" <;> simp [c1, c2, mget_mset, mget]

/-- C111 (part): what is read back says of itself what the schema says, if the name of the schema can be a name.
Missing: other names (which the names of files need not be), a schema without version or server, and documents that
are refused, for which it is false. -/
theorem C111_kept_partial (lib : OLib) (hord : ∀ l, (lib.order l).Perm l) (m : Model) (d : ODoc) (hd : Exports lib m (.ok d)) (path : String)
    (m' : Model) (hi : importOpenApi (fun _ => .ok (writtenFile d)) [path] = .ok m') (hn : Identifier m.schema.name) :
    HeadKept m.schema m'.schema := by
  exact head_kept hord hd rfl rfl rfl rfl rfl rfl (written_toSadl hi) hn

/-! ### An example -/

theorem shop_complete : OasComplete shop where
  name := by decide
  license := by decide
  paths h hh path hp := by
    rw [(livesAt_iff _ _ _).1 hp]
    simp only [shop, List.mem_cons, List.not_mem_nil, or_false] at hh
    rcases hh with rfl | rfl <;> decide

/-- The example is exported, written and read back. -/
example : ∃ m d m', m.schema = shop ∧ Exports plainO m (.ok d) ∧ importOpenApi (fun _ => .ok (writtenFile d)) ["shop.json"] = .ok m' ∧
    HeadKept shop m'.schema := by
  have h : exportsB plainO shop 5 (fun d => match importOpenApi (fun _ => .ok (writtenFile d)) ["shop.json"] with | .ok _ => true | _ => false) = true := by
    decide +kernel
  unfold exportsB at h
  split at h
  · next m hm =>
    have hs : m.schema = shop := by obtain ⟨_, _, _, rfl⟩ := (newModel_ok_iff _ _).1 hm; rfl
    split at h
    · next d hd =>
      have hd' : Exports plainO m (.ok d) := ⟨by simp, 5, hd⟩
      dsimp only at h
      split at h
      · next m' hi =>
        exact ⟨m, d, m', hs, hd', hi, hs ▸ C111_kept_partial plainO (fun _ => .rfl) m d hd' _ m' hi (by rw [hs, identifier_iff]; decide)⟩
      · cases h
    · cases h
  · cases h

/-! ### What is false -/

/-- The document of the model, written and read back, is refused. -/
def refusedB (d : ODoc) : Bool := match importOpenApi (fun _ => .ok (writtenFile d)) ["shop.json"] with | .err _ => true | _ => false

theorem refused_of (toks : List Token) (h1 : toks.all (fun t => decide (t.type = .symbol → t.text ≠ "")) = true)
    (h : accepts noLib toks (fun m => true && docB plainO 9 refusedB m) = true) :
    ∃ m d e, Accepted noLib m ∧ Exports plainO m (.ok d) ∧ importOpenApi (fun _ => .ok (writtenFile d)) ["shop.json"] = .err e := by
  obtain ⟨m, d, hm, hd, -, h⟩ := exported_of toks (fun _ => true) refusedB h1 h
  unfold refusedB at h
  split at h
  · next e he => exact ⟨m, d, e, hm, hd, he⟩
  · cases h

/-- An action at the given path. -/
def getAt (path : String) : List Token :=
  [sym "http", sym "GET", str path, punct .openParen, sym "operation", punct .equals, sym "getFoo", punct .closeParen, punct .openBrace, nl,
   sym "expect", num "204", punct .openBrace, nl, punct .closeBrace, nl, punct .closeBrace, nl]

/-- C111 is false: the document of a schema whose name is empty is refused. -/
theorem C111_refuted_unnamed :
    ∃ m d e, Accepted noLib m ∧ Exports plainO m (.ok d) ∧ importOpenApi (fun _ => .ok (writtenFile d)) ["shop.json"] = .err e :=
  refused_of ([sym "name", str "", nl] ++ getAt "/foo") (by decide +kernel) (by decide +kernel)

/-- C111 is false: the document of a schema with a place, but no name, of its license is refused. -/
theorem C111_refuted_license :
    ∃ m d e, Accepted noLib m ∧ Exports plainO m (.ok d) ∧ importOpenApi (fun _ => .ok (writtenFile d)) ["shop.json"] = .err e :=
  refused_of ([sym "name", sym "shop", nl, sym "x_license_url", punct .equals, str "https://a.b/c", nl] ++ getAt "/foo") (by decide +kernel) (by decide +kernel)

/-- C111 is false: the document of a schema with a path that does not begin with a slash is refused. -/
theorem C111_refuted_path :
    ∃ m d e, Accepted noLib m ∧ Exports plainO m (.ok d) ∧ importOpenApi (fun _ => .ok (writtenFile d)) ["shop.json"] = .err e :=
  refused_of ([sym "name", sym "shop", nl] ++ getAt "foo") (by decide +kernel) (by decide +kernel)

/-- The document of the model, written and read back, has a version and a server. -/
def devB (d : ODoc) : Bool :=
  match importOpenApi (fun _ => .ok (writtenFile d)) ["shop.json"] with
  | .ok m => m.schema.version == "dev" && mget m.schema.annotations "x_server" == some "http://localhost:8000"
  | _ => false

/-- C111 is false: what is read back has a version and a server that the schema does not have. -/
theorem C111_refuted_version : ∃ m d m', Accepted noLib m ∧ Exports plainO m (.ok d) ∧
    importOpenApi (fun _ => .ok (writtenFile d)) ["shop.json"] = .ok m' ∧ m.schema.version = "" ∧ m'.schema.version = "dev" ∧
    mget m.schema.annotations "x_server" = none ∧ mget m'.schema.annotations "x_server" = some "http://localhost:8000" := by
  obtain ⟨m, d, hm, hd, h1, h2⟩ := exported_of ([sym "name", sym "shop", nl] ++ getAt "/foo")
    (fun m => m.schema.version == "" && (mget m.schema.annotations "x_server").isNone) devB (by decide +kernel) (by decide +kernel)
  unfold devB at h2
  split at h2
  · next m' hi =>
    simp only [Bool.and_eq_true, beq_iff_eq, Option.isNone_iff_eq_none] at h1 h2
    exact ⟨m, d, m', hm, hd, hi, h1.1, h2.1, h1.2, h2.2⟩
  · cases h2

/-- The document of the model, written and read back, has the name of the file. -/
def renamedB (d : ODoc) : Bool :=
  match importOpenApi (fun _ => .ok (writtenFile d)) ["shop.json"] with
  | .ok m => m.schema.name == "shop" && m.schema.comment == "my shop - "
  | _ => false

/-- C111 is false: a name with a space is lost; it becomes a comment. -/
theorem C111_refuted_name : ∃ m d m', Accepted noLib m ∧ Exports plainO m (.ok d) ∧
    importOpenApi (fun _ => .ok (writtenFile d)) ["shop.json"] = .ok m' ∧ m.schema.name = "my shop" ∧ m.schema.comment = "" ∧
    m'.schema.name = "shop" ∧ m'.schema.comment = "my shop - " := by
  obtain ⟨m, d, hm, hd, h1, h2⟩ := exported_of ([sym "name", str "my shop", nl] ++ getAt "/foo")
    (fun m => m.schema.name == "my shop" && m.schema.comment == "") renamedB (by decide +kernel) (by decide +kernel)
  unfold renamedB at h2
  split at h2
  · next m' hi =>
    simp only [Bool.and_eq_true, beq_iff_eq] at h1 h2
    exact ⟨m, d, m', hm, hd, hi, h1.1, h1.2, h2.1, h2.2⟩
  · cases h2

end Sadl.Props
