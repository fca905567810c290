import Verif.Lemmas.JavaLexFile
import Verif.Props.JavaImports
/-
C100: the generated Java files are well-formed texts.
-/
namespace Sadl.Props
open Sadl Sadl.Spec

section
variable (lib : PLib) (m : Model) (h : Accepted lib m) (hb : NoBoxes m.schema) (hs : PlainSource m.schema)
include h hb hs

/-- C100: all strings, comments and brackets of every Java file that is generated are closed, if the names and texts of the source and
the settings can be written in Java. -/
theorem C100_lexes_partial (conf : JavaConf) (ho : ∀ l, (conf.order l).Perm l) (hc : PlainConf conf) (config : Value) (f : JavaFile)
    (hf : f ∈ javaFilesOf m conf config) (hp : ∀ t, f.content ≠ .pom t) : JavaLexes (f.text conf) :=
  JavaFileFor.lexes hs hc (C93_files lib m h hb conf ho config f hf) (fun i c b hi => C99_known m conf config f hf i c b hi) hp

/-- C100: what is found at the path of a Java file after generating, if it has changed, is such a text, as far as it was written. -/
theorem C100_written_partial (os : OS) (mkdir : String → Option String) (env : JavaEnv) (outdir : String) (config : Value) (files : GoMap String)
    (ho : ∀ l, ((javaConfOf m env config).order l).Perm l) (hc : PlainConf (javaConfOf m env config)) (path : String)
    (hch : mget (javaExport os mkdir env m outdir config files).files path ≠ mget files path) (hpath : path ≠ joinPath outdir "pom.xml") :
    ∃ text, JavaLexes text ∧ mget (javaExport os mkdir env m outdir config files).files path = some (os.written path text) := by
  obtain ⟨f, hf, hff, hpa, hw⟩ := C93_changed os mkdir env m outdir config files lib h hb ho path hch
  refine ⟨_, C100_lexes_partial lib m h hb hs _ ho hc config f hf (fun t ht => hpath ?_), hw⟩
  rw [hpa]
  unfold javaPathOf JavaFile.path
  rw [ht]

end

/-! ### Examples and refutations -/

/-- The text has none of these characters. -/
def lacks (bad : List Char) (t : String) : Bool := t.toList.all fun c => decide (c ∉ bad)
/-- What `PlainText` forbids. -/
def plainB (t : String) : Bool := lacks ['{', '}', '(', ')', '[', ']', '"', '\'', '/', '\\', '\n', '\r'] t
/-- What `RawText` forbids. -/
def rawB (t : String) : Bool := lacks ['"', '\\', '\n', '\r'] t
/-- What `CommentText` forbids. -/
def commentB (t : String) : Bool := lacks ['\r'] t
/-- What `QuotableText` asks for. -/
def quotableB (t : String) : Bool := t.toList.all fun c => decide (32 ≤ c.toNat ∧ c.toNat ≠ 127 ∨ c ∈ ['\n', '\r', '\t', '\x08', '\x0c'])

theorem plainB_iff {t : String} (h : plainB t = true) : PlainText t := fun c hc => of_decide_eq_true (List.all_eq_true.1 h c hc)
theorem rawB_iff {t : String} (h : rawB t = true) : RawText t := fun c hc => of_decide_eq_true (List.all_eq_true.1 h c hc)
theorem quotableB_iff {t : String} (h : quotableB t = true) : QuotableText t := fun c hc => of_decide_eq_true (List.all_eq_true.1 h c hc)
theorem commentB_iff {t : String} (h : commentB t = true) : CommentText t := fun hc => by
  have := of_decide_eq_true (List.all_eq_true.1 h _ hc)
  simp at this

/-- One type is plain. -/
def partB (ts : TypeSpec) : Bool :=
  plainB ts.type && plainB ts.items && plainB ts.keys && plainB ts.value && plainB ts.unit && quotableB ts.pattern &&
  ts.fields.all (fun f => plainB f.name && commentB f.comment) && ts.variants.all (fun v => plainB v.name && commentB v.comment) &&
  ts.elements.all fun el => plainB el.symbol && commentB el.comment && (match mget el.annotations "x_enumValue" with | some v => rawB v | none => true)

theorem partB_plain {ts : TypeSpec} (h : partB ts = true) : PlainPart ts := by
  simp only [partB, Bool.and_eq_true, List.all_eq_true] at h
  obtain ⟨⟨⟨⟨⟨⟨⟨⟨h1, h2⟩, h3⟩, h4⟩, h5⟩, h6⟩, h7⟩, h8⟩, h9⟩ := h
  refine ⟨plainB_iff h1, plainB_iff h2, plainB_iff h3, plainB_iff h4, plainB_iff h5, quotableB_iff h6, fun f hf => ⟨plainB_iff (h7 f hf).1, commentB_iff (h7 f hf).2⟩,
    fun f hf => ⟨plainB_iff (h8 f hf).1, commentB_iff (h8 f hf).2⟩, fun el hel => ⟨plainB_iff (h9 el hel).1.1, commentB_iff (h9 el hel).1.2, fun v hv => ?_⟩⟩
  have := (h9 el hel).2
  rw [hv] at this
  exact rawB_iff this

/-- A type without types inside its fields is plain. -/
def plainFlat (ts : TypeSpec) : Bool :=
  partB ts && ts.fields.all (fun f => partB f.ts && decide (f.ts.fields.length = 0 ∧ f.ts.variants.length = 0)) &&
  ts.variants.all (fun f => partB f.ts && decide (f.ts.fields.length = 0 ∧ f.ts.variants.length = 0))

theorem plainFlat_plain {ts : TypeSpec} (h : plainFlat ts = true) : PlainSpec ts := by
  simp only [plainFlat, Bool.and_eq_true, List.all_eq_true, decide_eq_true_eq] at h
  obtain ⟨⟨h1, h2⟩, h3⟩ := h
  have leaf : ∀ t : TypeSpec, partB t = true ∧ t.fields.length = 0 ∧ t.variants.length = 0 → PlainSpec t := by
    rintro t ⟨a, b, c⟩ sub hs
    cases hs with
    | here => exact partB_plain a
    | field hf _ => rw [List.length_eq_zero_iff.1 b] at hf; cases hf
    | variant hv _ => rw [List.length_eq_zero_iff.1 c] at hv; cases hv
  intro sub hs
  cases hs with
  | here => exact partB_plain h1
  | field hf hs => exact leaf _ (h2 _ hf) sub hs
  | variant hv hs => exact leaf _ (h3 _ hv) sub hs

/-- An input or output is plain. -/
def paramB (p : HttpParamSpec) : Bool :=
  plainB p.field.name && commentB p.field.comment && plainFlat p.field.ts && rawB p.query && rawB p.header &&
  (match p.field.default with | .strPtr t => quotableB t | _ => true)

theorem paramB_plain {p : HttpParamSpec} (h : paramB p = true) : PlainParam p := by
  simp only [paramB, Bool.and_eq_true] at h
  obtain ⟨⟨⟨⟨⟨h1, h2⟩, h3⟩, h4⟩, h5⟩, h6⟩ := h
  refine ⟨plainB_iff h1, commentB_iff h2, plainFlat_plain h3, rawB_iff h4, rawB_iff h5, fun t ht => ?_⟩
  rw [ht] at h6
  exact quotableB_iff h6

/-- A source is plain. -/
def sourceB (s : Schema) : Bool :=
  plainB s.name && rawB s.base && s.types.all (fun td => plainB td.name && commentB td.comment && plainFlat td.ts) &&
  s.http.all fun h => plainB h.name && plainB h.method && rawB h.path && h.inputs.all paramB &&
    (match h.expected with | some e => e.outputs.all paramB | none => true) && h.exceptions.all fun x => plainB x.type

theorem sourceB_plain {s : Schema} (h : sourceB s = true) : PlainSource s := by
  simp only [sourceB, Bool.and_eq_true, List.all_eq_true] at h
  obtain ⟨⟨⟨h1, h2⟩, h3⟩, h4⟩ := h
  refine ⟨plainB_iff h1, rawB_iff h2, fun td htd => ⟨plainB_iff (h3 td htd).1.1, commentB_iff (h3 td htd).1.2, plainFlat_plain (h3 td htd).2⟩, fun a ha => ?_⟩
  obtain ⟨⟨⟨⟨⟨k1, k2⟩, k3⟩, k4⟩, k5⟩, k6⟩ := h4 a ha
  refine ⟨plainB_iff k1, plainB_iff k2, rawB_iff k3, fun p hp => paramB_plain (k4 p hp), fun e he p hp => ?_, fun x hx => plainB_iff (k6 x hx)⟩
  rw [he] at k5
  exact paramB_plain (List.all_eq_true.1 k5 p hp)

/-- Settings whose names can be written in Java, without a header. -/
def confB (conf : JavaConf) : Bool :=
  plainB conf.name && plainB conf.modelPackage && plainB conf.serverPackage && plainB conf.clientPackage && plainB conf.pkg

theorem confB_plain {conf : JavaConf} (h : confB conf = true) (hh : JavaLexes conf.header) (hn : ∀ d, conf.decText d = "") : PlainConf conf := by
  simp only [confB, Bool.and_eq_true] at h
  obtain ⟨⟨⟨⟨h1, h2⟩, h3⟩, h4⟩, h5⟩ := h
  exact ⟨plainB_iff h1, plainB_iff h2, plainB_iff h3, plainB_iff h4, plainB_iff h5, hh, fun d => by
    rw [hn d]
    exact ⟨fun c hc => (by cases hc), fun c hc => by cases hc⟩⟩

theorem header_lexes : JavaLexes "//\n// Generated by sadl\n//\n" := by unfold JavaLexes; decide +kernel

/-- `type Item Struct { created Timestamp }`, `type Color Enum { red }` and an action with all kinds of parts -/
def lexSource : List Token :=
  itemSource ++ [sym "type", sym "Color", sym "Enum", punct .openBrace, nl, sym "red", nl, punct .closeBrace, nl] ++
    actionSource "PUT" "/a/{id}?n={n}" [[sym "id", sym "String"], [sym "n", sym "Int32"], [sym "body", sym "Item"],
      expectSource "200" [[sym "body", sym "Item"], headerSource "tag" "String" "ETag"]]

/-- The settings of the example: all parts. -/
def lexConfig : Value :=
  .obj [("name", .str "svc"), ("package", .str "com.example"), ("server", .bool true), ("client", .bool true), ("example-implementation", .bool true)]

/-- The hypotheses of C100 can be met: the files are the service, two classes of types, those of a request and a response, `Util`, and
those of the server and the client. -/
theorem C100_example : ∃ m, Accepted noLib m ∧ NoBoxes m.schema ∧ PlainSource m.schema ∧ PlainConf (javaConfOf m {} lexConfig) ∧
    (javaFilesOf m (javaConfOf m {} lexConfig) lexConfig).length = 11 := by
  obtain ⟨m, h1, h2⟩ := accepted_of noLib lexSource (fun m => sourceB m.schema && confB (javaConfOf m {} lexConfig) &&
    m.schema.types.all (fun td => decide (td.name ∉ JavaBoxes)) &&
    decide ((javaFilesOf m (javaConfOf m {} lexConfig) lexConfig).length = 11)) (by decide +kernel) (by decide +kernel)
  simp only [Bool.and_eq_true, List.all_eq_true, decide_eq_true_eq] at h2
  obtain ⟨⟨⟨h2, h3⟩, h4⟩, h5⟩ := h2
  exact ⟨m, h1, h4, sourceB_plain h2, confB_plain h3 header_lexes (fun _ => rfl), h5⟩

/-- `type Color Enum { red (x_enumValue="<value>") }` -/
def enumSource (value : String) : List Token :=
  [sym "type", sym "Color", sym "Enum", punct .openBrace, nl, sym "red", punct .openParen, sym "x_enumValue", punct .equals, str value, punct .closeParen, nl,
    punct .closeBrace, nl]

/-- There is a class for a type with a comment of which the text starts with that of an enum with one constant. -/
def hasEnum (m : Model) (config : Value) (comment value : String) : Bool :=
  (javaFilesOf m (javaConfOf m {} config) config).any fun f => match f.content with
    | .pojo imports c (.enum n [k]) => decide (f.name = "Color" ∧ imports ≠ [] ∧ c = comment ∧ f.pkg = "com.example.model" ∧ n = "Color" ∧
        k.name = "red" ∧ k.repr = value ∧ k.comment = "")
    | _ => false

theorem jrun_none {α β : Type} (f : α → Option β) : (none : Option α).bind f = none := by rw [Option.bind_none]

theorem hasEnum_file {m : Model} {config : Value} {comment value : String} (h : hasEnum m config comment value = true) :
    ∃ f ∈ javaFilesOf m (javaConfOf m {} config) config, ∃ imports, f.pkg = "com.example.model" ∧ f.name = "Color" ∧ imports ≠ [] ∧
      f.content = .pojo imports comment (.enum "Color" [⟨"red", value, ""⟩]) := by
  obtain ⟨f, hf, h⟩ := List.any_eq_true.1 h
  split at h
  · next imports c n k hc =>
    obtain ⟨h0, h1, h2, h3, h4, h5, h6, h7⟩ := of_decide_eq_true h
    obtain ⟨k1, k2, k3⟩ := k
    simp only at h5 h6 h7
    subst h2 h4 h5 h6 h7
    exact ⟨f, hf, imports, h3, h0, h1, hc⟩
  · cases h

theorem pojo_text (conf : JavaConf) (imports : List String) (comment : String) (b : JavaBody) : (JavaContent.pojo imports comment b).text conf =
    (if imports ≠ [] then catAll (imports.map fun p => "import " ++ p ++ ";\n") ++ "\n" else "") ++
    ((if comment ≠ "" then javaComment "" comment 100 else "") ++ b.text conf) := by
  rw [← String.append_assoc]
  rfl

/-- If the text after the comment fails, so does that of the file. -/
theorem enum_breaks {m : Model} {f : JavaFile} {imports : List String} {comment value : String}
    (hf : f ∈ javaFilesOf m (javaConfOf m {} importConfig) importConfig) (hpkg : f.pkg = "com.example.model")
    (hc : f.content = .pojo imports comment (.enum "Color" [⟨"red", value, ""⟩]))
    (hn : jrun (.code, []) ((if comment ≠ "" then javaComment "" comment 100 else "") ++ (JavaBody.enum "Color" [⟨"red", value, ""⟩]).text (javaConfOf m {} importConfig)) = none) :
    ¬ JavaLexes (f.text (javaConfOf m {} importConfig)) := by
  intro hl
  have hk := C99_known m _ _ f hf imports comment _ hc
  have h0 : jrun (.code, []) (javaConfOf m {} importConfig).header = some (.code, []) := by
    unfold jrun; exact header_lexes
  have h1 : Neutral (if f.pkg ≠ "" then "package " ++ f.pkg ++ ";\n" else "") := by
    have h2 : PlainText f.pkg := by rw [hpkg]; exact plainB_iff (by decide +kernel)
    exact .ite (fun _ s => by jlex [h2.run]) fun _ => .empty
  have h3 : Neutral (if imports ≠ [] then catAll (imports.map fun p => "import " ++ p ++ ";\n") ++ "\n" else "") := by
    have h4 : Neutral (catAll (imports.map fun p => "import " ++ p ++ ";\n")) := .catMap fun p hp s => by jlex [(importable_plain (hk p hp)).run]
    exact .ite (fun _ s => by jlex [h4.run]) fun _ => .empty
  have e : f.text (javaConfOf m {} importConfig) = (javaConfOf m {} importConfig).header ++ (if f.pkg ≠ "" then "package " ++ f.pkg ++ ";\n" else "") ++
      ((if imports ≠ [] then catAll (imports.map fun p => "import " ++ p ++ ";\n") ++ "\n" else "") ++
        ((if comment ≠ "" then javaComment "" comment 100 else "") ++ (JavaBody.enum "Color" [⟨"red", value, ""⟩]).text (javaConfOf m {} importConfig))) := by
    rw [← pojo_text, ← hc]
    unfold JavaFile.text
    split
    · next t ht => rw [ht] at hc; cases hc
    · rfl
  have key : jrun (.code, []) (f.text (javaConfOf m {} importConfig)) = none := by
    rw [e, jrun_append, jrun_append, h0, jrun_some, h1.run, jrun_some, jrun_append, h3.run, jrun_some]
    exact hn
  unfold jrun at key
  unfold JavaLexes at hl
  rw [hl] at key
  cases key

/-- C100, refuted without the hypothesis: the value of an enum symbol is written without escaping its quotes. -/
theorem C100_refuted_quote : ∃ m, Accepted noLib m ∧ NoBoxes m.schema ∧ PlainConf (javaConfOf m {} importConfig) ∧
    ∃ f ∈ javaFilesOf m (javaConfOf m {} importConfig) importConfig, f.name = "Color" ∧ ¬ JavaLexes (f.text (javaConfOf m {} importConfig)) := by
  obtain ⟨m, h1, h2⟩ := accepted_of noLib (enumSource "a\"b") (fun m => confB (javaConfOf m {} importConfig) &&
    m.schema.types.all (fun td => decide (td.name ∉ JavaBoxes)) && hasEnum m importConfig "" "a\"b") (by decide +kernel) (by decide +kernel)
  simp only [Bool.and_eq_true, List.all_eq_true, decide_eq_true_eq] at h2
  obtain ⟨⟨h2, h3⟩, h4⟩ := h2
  obtain ⟨f, hf, imports, hpkg, hname, hi, hc⟩ := hasEnum_file h4
  refine ⟨m, h1, h3, confB_plain h2 header_lexes (fun _ => rfl), f, hf, hname, enum_breaks hf hpkg hc ?_⟩
  have hn : PlainText "Color" := plainB_iff (by decide +kernel)
  have hr : PlainText "red" := plainB_iff (by decide +kernel)
  have k1 : ∀ s, jrun (.str, s) "a\"b" = some (.code, s) := fun s => by unfold jrun; rfl
  have k2 : ∀ s, jrun (.code, s) "\")" = some (.str, s) := fun s => by unfold jrun; rfl
  have k3 : ∀ s, jrun (.str, s) ";" = some (.str, s) := fun s => by unfold jrun; rfl
  have k4 : ∀ s, jrun (.str, s) "\n" = none := fun s => by unfold jrun; rfl
  have k5 : ¬ ("" : String) ≠ "" := fun h => h rfl
  exact (by
    unfold javaEnumText javaConstTexts
    simp only [if_neg k5, if_true]
    jlex [jrun_empty, hn.run, hr.run, k1, k2, k3, k4, jrun_none] :
    jrun (.code, []) ((if ("" : String) ≠ "" then javaComment "" "" 100 else "") ++ javaEnumText "Color" [⟨"red", "a\"b", ""⟩]) = none)

/-- C100, refuted without the hypothesis: a carriage return ends the line for Java, but not for `sadl`. -/
theorem C100_refuted_return : ∃ m, Accepted noLib m ∧ NoBoxes m.schema ∧ PlainConf (javaConfOf m {} importConfig) ∧
    ∃ f ∈ javaFilesOf m (javaConfOf m {} importConfig) importConfig, f.name = "Color" ∧ ¬ JavaLexes (f.text (javaConfOf m {} importConfig)) := by
  obtain ⟨m, h1, h2⟩ := accepted_of noLib (⟨.lineComment, "one\rit's"⟩ :: nl :: enumSource "red") (fun m => confB (javaConfOf m {} importConfig) &&
    m.schema.types.all (fun td => decide (td.name ∉ JavaBoxes)) && hasEnum m importConfig "one\rit's" "red") (by decide +kernel) (by decide +kernel)
  simp only [Bool.and_eq_true, List.all_eq_true, decide_eq_true_eq] at h2
  obtain ⟨⟨h2, h3⟩, h4⟩ := h2
  obtain ⟨f, hf, imports, hpkg, hname, hi, hc⟩ := hasEnum_file h4
  refine ⟨m, h1, h3, confB_plain h2 header_lexes (fun _ => rfl), f, hf, hname, enum_breaks hf hpkg hc ?_⟩
  have k1 : (jrun (.code, []) (if ("one\rit's" : String) ≠ "" then javaComment "" "one\rit's" 100 else "")).isNone = true := by
    unfold jrun; decide +kernel
  rw [jrun_append, Option.isNone_iff_eq_none.1 k1, jrun_none]

end Sadl.Props
