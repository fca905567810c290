import Verif.Lemmas.GoLexNames
import Verif.Props.GoExport
import Verif.Props.JavaLex
/-
C101: the generated Go files are well-formed texts.
-/
namespace Sadl.Props
open Sadl Sadl.Spec Sadl.GoLits

/-- C101: all strings, comments and brackets of every Go file that is generated are closed, if the names and texts of the source and
the settings can be written in Go. -/
theorem C101_lexes_partial (plib : PLib) (m : Model) (h : Accepted plib m) (hs : GoNamesSource m.schema) (lib : GoLib) (conf : GoConf)
    (hn : GoName conf.name) (hp : GoName conf.pkg) (s t : String) (ht : GoTextOf lib m conf s t) : GoLexes t := by
  have hm := accepted_newModel h
  cases ht with
  | model hf => exact (goModel_named hm hs hn hp _ hf).neutral.lexes
  | server hf => exact (goServer_named hm hs lib hn hp _ hf).neutral.lexes
  | client hf => exact (goClient_named hm hs hn hp _ hf).neutral.lexes

/-- C101: what is found at a path after generating, if it has changed, is such a text, as far as it was written. -/
theorem C101_written_partial (plib : PLib) (m : Model) (h : Accepted plib m) (hs : GoNamesSource m.schema) (os : OS) (mkdir : String → Option String)
    (lib : GoLib) (outdir : String) (config : Value) (files : GoMap String) (hn : GoName (goConfOf m config).name) (hp : GoName (goConfOf m config).pkg)
    (path : String) (hch : mget (goExport os mkdir lib m outdir config files).files path ≠ mget files path) :
    ∃ t, GoLexes t ∧ mget (goExport os mkdir lib m outdir config files).files path = some (os.written path t) := by
  obtain ⟨s, t, _, h1, _, h2⟩ := C89_changed os mkdir lib m outdir config files path hch
  exact ⟨t, C101_lexes_partial plib m h hs lib _ hn hp s t h1, h2⟩

/-! ### Examples and refutations -/

/-- What `GoName` forbids. -/
def goNameB (t : String) : Bool := plainB t && lacks ['`'] t
/-- What `GoQuotable` forbids. -/
def goQuotableB (t : String) : Bool := lacks ['"', '\\', '\n'] t

theorem goNameB_name {t : String} (h : goNameB t = true) : GoName t := by
  simp only [goNameB, Bool.and_eq_true] at h
  refine ⟨plainB_iff h.1, fun hc => ?_⟩
  have := of_decide_eq_true (List.all_eq_true.1 h.2 _ hc)
  simp at this

theorem goQuotableB_quotable {t : String} (h : goQuotableB t = true) : GoQuotable t := fun c hc => by
  have := of_decide_eq_true (List.all_eq_true.1 h c hc)
  simp only [List.mem_cons, List.not_mem_nil, or_false, not_or] at this
  exact this

/-- The names of a type can be written. -/
def goRefB (ts : TypeSpec) : Bool := goNameB ts.type && goNameB ts.items && goNameB ts.keys

theorem goRefB_names {ts : TypeSpec} (h : goRefB ts = true) : GoNamesRef ts := by
  simp only [goRefB, Bool.and_eq_true] at h
  exact ⟨goNameB_name h.1.1, goNameB_name h.1.2, goNameB_name h.2⟩

/-- The names of a definition can be written. -/
def goTypeB (ts : TypeSpec) : Bool :=
  goRefB ts && ts.fields.all (fun f => goNameB f.name && goRefB f.ts) && ts.variants.all (fun f => goNameB f.name && goRefB f.ts) &&
  ts.elements.all fun el => goNameB el.symbol && (match mget el.annotations "x_enumValue" with | some v => goQuotableB v | none => true)

theorem goTypeB_names {ts : TypeSpec} (h : goTypeB ts = true) : GoNamesType ts := by
  simp only [goTypeB, Bool.and_eq_true, List.all_eq_true] at h
  obtain ⟨⟨⟨h1, h2⟩, h3⟩, h4⟩ := h
  refine ⟨goRefB_names h1, fun f hf => ⟨goNameB_name (h2 f hf).1, goRefB_names (h2 f hf).2⟩, fun f hf => ⟨goNameB_name (h3 f hf).1, goRefB_names (h3 f hf).2⟩,
    fun el hel => ⟨goNameB_name (h4 el hel).1, fun v hv => ?_⟩⟩
  have := (h4 el hel).2
  rw [hv] at this
  exact goQuotableB_quotable this

/-- The names of an input or output can be written. -/
def goParamB (p : HttpParamSpec) : Bool := goNameB p.field.name && goRefB p.field.ts && goQuotableB p.header

theorem goParamB_names {p : HttpParamSpec} (h : goParamB p = true) : GoNamesParam p := by
  simp only [goParamB, Bool.and_eq_true] at h
  exact ⟨goNameB_name h.1.1, goRefB_names h.1.2, goQuotableB_quotable h.2⟩

/-- The names of a source can be written. -/
def goSourceB (s : Schema) : Bool :=
  s.types.all (fun td => goNameB td.name && goTypeB td.ts) &&
  s.http.all fun h => goNameB h.name && goQuotableB h.method && goQuotableB h.path && h.inputs.all goParamB &&
    (match h.expected with | some e => e.outputs.all goParamB | none => true) && h.exceptions.all fun x => goNameB x.type

theorem goSourceB_names {s : Schema} (h : goSourceB s = true) : GoNamesSource s := by
  simp only [goSourceB, Bool.and_eq_true, List.all_eq_true] at h
  refine ⟨fun td htd => ⟨goNameB_name (h.1 td htd).1, goTypeB_names (h.1 td htd).2⟩, fun a ha => ?_⟩
  obtain ⟨⟨⟨⟨⟨k1, k2⟩, k3⟩, k4⟩, k5⟩, k6⟩ := h.2 a ha
  refine ⟨goNameB_name k1, goQuotableB_quotable k2, goQuotableB_quotable k3, fun p hp => goParamB_names (k4 p hp), fun e he p hp => ?_, fun x hx => goNameB_name (k6 x hx)⟩
  rw [he] at k5
  exact goParamB_names (List.all_eq_true.1 k5 p hp)

/-- The file can be generated. -/
def okB {α : Type} : Out α → Bool
  | .ok _ => true
  | _ => false

theorem okB_ok {α : Type} {o : Out α} (h : okB o = true) : ∃ a, o = .ok a := by
  cases o with
  | ok a => exact ⟨a, rfl⟩
  | err e => cases h
  | panic e => cases h

/-- The hypotheses of C101 can be met, with types, a server and a client. -/
theorem C101_example : ∃ m, Accepted noLib m ∧ GoNamesSource m.schema ∧ GoName (goConfOf m lexConfig).name ∧ GoName (goConfOf m lexConfig).pkg ∧
    (∃ t, GoTextOf someGoLib m (goConfOf m lexConfig) "_model.go" t) ∧ (∃ t, GoTextOf someGoLib m (goConfOf m lexConfig) "_server.go" t) ∧
    ∃ t, GoTextOf someGoLib m (goConfOf m lexConfig) "_client.go" t := by
  obtain ⟨m, h1, h2⟩ := accepted_of noLib lexSource (fun m => goSourceB m.schema && goNameB (goConfOf m lexConfig).name && goNameB (goConfOf m lexConfig).pkg &&
    okB (goModel m (goConfOf m lexConfig)) && okB (goServer m (goConfOf m lexConfig) someGoLib) && okB (goClient m (goConfOf m lexConfig)))
    (by decide +kernel) (by decide +kernel)
  simp only [Bool.and_eq_true] at h2
  obtain ⟨⟨⟨⟨⟨h2, h3⟩, h4⟩, h5⟩, h6⟩, h7⟩ := h2
  obtain ⟨f, hf⟩ := okB_ok h5
  obtain ⟨g, hg⟩ := okB_ok h6
  obtain ⟨c, hc⟩ := okB_ok h7
  exact ⟨m, h1, goSourceB_names h2, goNameB_name h3, goNameB_name h4, ⟨_, .model hf⟩, ⟨_, .server hg⟩, ⟨_, .client hc⟩⟩

/-- The file of the refutation: an interface without methods and an enum with one value. -/
def enumFile (value : String) : GoFile := ⟨"main", [], [.iface "Svc" [], .heading "Color", .enum "Color" [("red", value)]]⟩

/-- The file is that of the refutation. -/
def isEnumFile (m : Model) (value : String) : Bool :=
  match goModel m { name := "Svc", pkg := "main" } with
  | .ok f => decide (f = enumFile value)
  | _ => false

theorem isEnumFile_ok {m : Model} {value : String} (h : isEnumFile m value = true) : goModel m { name := "Svc", pkg := "main" } = .ok (enumFile value) := by
  unfold isEnumFile at h
  split at h
  · next f hf => rw [hf, of_decide_eq_true h]
  · cases h

theorem grun_none {α β : Type} (f : α → Option β) : (none : Option α).bind f = none := by rw [Option.bind_none]

theorem lexes_none {t : String} (h : ∀ s, grun (.code, s) t = none) : ¬ GoLexes t := fun hl => by
  have := h []
  unfold grun at this
  unfold GoLexes at hl
  rw [hl] at this
  cases this

theorem string_join_one (x : String) : String.join [x] = x := by rw [string_join_cons]; exact String.append_empty

/-- A quote within a string, followed by text and the end of the string. -/
theorem quote_breaks (s : List Char) : grun (.str, s) "a\"b" = some (.code, s) ∧ grun (.str, s) "/a\"b" = some (.code, s) ∧
    grun (.code, s) "\"," = some (.str, s) ∧ grun (.code, s) "\"\n" = none ∧
    grun (.str, s) "\n}\n\nfunc (e " = none := by
  refine ⟨?_, ?_, ?_, ?_, ?_⟩ <;> (unfold grun; rfl)

theorem enumText_breaks {name sym : String} (hn : GoName name) (hs : GoName sym) (s : List Char) : grun (.code, s) (goEnumText name [(sym, "a\"b")]) = none := by
  obtain h := fun s => quote_breaks s
  unfold goEnumText
  simp only [List.map_cons, List.map_nil, string_join_one]
  glex [hn.code, hs.code, (h _).1, (h _).2.2.1, (h _).2.2.2.2, grun_none]

theorem enumFile_breaks : ¬ GoLexes (enumFile "a\"b").text := lexes_none fun s => by
  have h1 : GoName "main" := goName_of (by decide)
  have h2 : GoName "Color" := goName_of (by decide)
  have h3 : GoName "red" := goName_of (by decide)
  have h4 : GNeutral (GoDecl.iface "Svc" []).text := NamedDecl.neutral ⟨goName_of (by decide), fun k hk => by cases hk⟩
  have h5 : GNeutral (GoDecl.heading "Color").text := NamedDecl.neutral h2
  have h6 : grun (.code, s) (GoDecl.enum "Color" [("red", "a\"b")]).text = none := by
    unfold GoDecl.text; exact enumText_breaks h2 h3 s
  unfold GoFile.text enumFile
  simp only [List.map_cons, List.map_nil, string_join_cons, if_true]
  generalize GoDecl.text (.iface "Svc" []) = a at *
  generalize GoDecl.text (.heading "Color") = b at *
  generalize GoDecl.text (.enum "Color" [("red", "a\"b")]) = c at *
  glex [h1.code, h4.run, h5.run, h6, grun_none, grun_empty]

/-- C101, refuted without the hypothesis: the value of an enum symbol is written without escaping its quotes. -/
theorem C101_refuted_quote : ∃ m, Accepted noLib m ∧ ∃ t, GoTextOf someGoLib m { name := "Svc", pkg := "main" } "_model.go" t ∧ ¬ GoLexes t := by
  obtain ⟨m, h1, h2⟩ := accepted_of noLib (enumSource "a\"b") (fun m => isEnumFile m "a\"b") (by decide +kernel) (by decide +kernel)
  exact ⟨m, h1, _, .model (isEnumFile_ok h2), enumFile_breaks⟩

/-- The client of the refutation, with one call. -/
def pathClient (path : String) : GoClient := ⟨"main", goClientImports, "SvcClient", [⟨"DoIt", path, [], "GET", none, false, 204, [], []⟩]⟩

/-- The client is that of the refutation. -/
def isPathClient (m : Model) (path : String) : Bool :=
  match goClient m { name := "Svc", pkg := "main" } with
  | .ok c => decide (c = pathClient path)
  | _ => false

theorem isPathClient_ok {m : Model} {path : String} (h : isPathClient m path = true) : goClient m { name := "Svc", pkg := "main" } = .ok (pathClient path) := by
  unfold isPathClient at h
  split at h
  · next f hf => rw [hf, of_decide_eq_true h]
  · cases h

theorem pathClient_breaks : ¬ GoLexes (pathClient "/a\"b").text := lexes_none fun s => by
  have h1 : GoName "main" := goName_of (by decide)
  have h2 : GoName "SvcClient" := goName_of (by decide)
  have h3 : GoName "DoIt" := goName_of (by decide)
  have h4 := imports_neutral goClientImports_named
  have h5 : ∀ s, grun (.code, s) (GoCall.text "SvcClient" ⟨"DoIt", "/a\"b", [], "GET", none, false, 204, [], []⟩) = none := fun s => by
    obtain h := fun s => quote_breaks s
    unfold GoCall.text
    glex [h2.code, h3.code, (h _).2.1, (h _).2.2.2.1, grun_none]
  unfold GoClient.text pathClient
  simp only [List.map_cons, List.map_nil, string_join_cons]
  generalize GoCall.text "SvcClient" _ = c at *
  generalize String.join (goClientImports.map _) = d at *
  glex [h1.code, h2.code, h4.run, h5, grun_none]

/-- C101, refuted without the hypothesis: so is the path of an action, which a client writes. -/
theorem C101_refuted_path : ∃ m, Accepted noLib m ∧ ∃ t, GoTextOf someGoLib m { name := "Svc", pkg := "main" } "_client.go" t ∧ ¬ GoLexes t := by
  obtain ⟨m, h1, h2⟩ := accepted_of noLib (actionSource "GET" "/a\"b" [[sym "expect", num "204"]]) (fun m => isPathClient m "/a\"b") (by decide +kernel) (by decide +kernel)
  exact ⟨m, h1, _, .client (isPathClient_ok h2), pathClient_breaks⟩

end Sadl.Props
