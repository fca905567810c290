import Verif.Lemmas.GoLits
import Verif.Lemmas.JsonString
import Verif.Model.GoClient
/-
Generated Go text is well formed if the names in it are.
-/
namespace Sadl
open Sadl.Spec Sadl.GoLits

theorem sprintInt_name (n : Int) : GoName (sprintInt n) := by
  have key : ∀ c ∈ showInt n, isDigitC c = true ∨ c = '-' := by
    intro c hc
    unfold showInt at hc
    split at hc
    · rcases List.mem_cons.1 hc with rfl | hc
      · exact .inr rfl
      · exact .inl (showNat_digits _ c hc)
    · exact .inl (showNat_digits _ c hc)
  refine ⟨fun c hc hm => ?_, fun hc => ?_⟩
  · unfold sprintInt at hc
    rw [String.toList_ofList] at hc
    have := key c hc
    revert this
    exact (by decide : ∀ c ∈ ['{', '}', '(', ')', '[', ']', '"', '\'', '/', '\\', '\n', '\r'], ¬ (isDigitC c = true ∨ c = '-')) c hm
  · unfold sprintInt at hc
    rw [String.toList_ofList] at hc
    exact absurd (key _ hc) (by decide)

/-- The names in a type expression can be written. -/
def NamedTy : GoTy → Prop
  | .ident n => GoName n
  | .qual p n => GoName p ∧ GoName n
  | .ptr t => NamedTy t
  | .slice t => NamedTy t
  | .map k t => NamedTy k ∧ NamedTy t

theorem NamedTy.neutral {t : GoTy} (h : NamedTy t) : GNeutral t.text := by
  induction t with
  | ident n => exact fun s => h.code s
  | qual p n => exact fun s => by unfold GoTy.text; glex [h.1.code, h.2.code]
  | ptr t ih => exact fun s => by unfold GoTy.text; glex [(ih h).run]
  | slice t ih => exact fun s => by unfold GoTy.text; glex [(ih h).run]
  | map k t ih1 ih2 => exact fun s => by unfold GoTy.text; glex [(ih1 h.1).run, (ih2 h.2).run]

/-! ### The types -/

/-- The names of a field can be written. -/
structure NamedField (f : GoField) : Prop where
  name : GoName f.name
  type : NamedTy f.type
  json : GoName f.json

theorem NamedField.neutral {f : GoField} (h : NamedField f) : GNeutral f.text := fun s => by
  unfold GoField.text
  by_cases ho : f.omitEmpty = true
  · simp only [ho, if_true]
    glex [h.name.code, h.type.neutral.run, h.json.inRaw]
  · simp only [ho, if_false, Bool.false_eq_true]
    glex [h.name.code, h.type.neutral.run, h.json.inRaw, grun_empty]

/-- The names in a piece of a file can be written. -/
def NamedDecl : GoDecl → Prop
  | .heading n => GoName n
  | .iface n ms => GoName n ∧ ∀ k ∈ ms, GoName k
  | .struct n fs => GoName n ∧ ∀ f ∈ fs, NamedField f
  | .errorMethod n => GoName n
  | .union n tags fs => GoName n ∧ (∀ t ∈ tags, GoName t) ∧ ∀ f ∈ fs, NamedField f
  | .enum n els => GoName n ∧ ∀ e ∈ els, GoName e.1 ∧ GoQuotable e.2
  | .defn n t note => GoName n ∧ NamedTy t ∧ note ∈ ["", " //UUID"]
  | .fromString n => GoName n
  | .timestamp => True
  | .decimal => True

theorem goEnumText_neutral {n : String} {els : List (String × String)} (hn : GoName n) (h : ∀ e ∈ els, GoName e.1 ∧ GoQuotable e.2) :
    GNeutral (goEnumText n els) := fun s => by
  have h1 : GNeutral (String.join (els.map fun e => "\n    " ++ e.1)) := .join fun e he s => by glex [(h e he).1.code]
  have h2 : GNeutral (String.join (els.map fun e => "\n    " ++ e.1 ++ ": \"" ++ e.2 ++ "\",")) := .join fun e he s => by
    glex [(h e he).1.code, (h e he).2.str]
  unfold goEnumText
  glex [hn.code, hn.str, h1.run, h2.run]

theorem NamedDecl.neutral {d : GoDecl} (h : NamedDecl d) : GNeutral d.text := fun s => by
  cases d with
  | heading n =>
    have h : GoName n := h
    unfold GoDecl.text; glex [h.line]
  | iface n ms =>
    obtain ⟨h1, h2⟩ := h
    have h3 : GNeutral (String.join (ms.map fun k => "\n    " ++ goSignature k)) := .join fun k hk s => by
      unfold goSignature; glex [(h2 k hk).code]
    unfold GoDecl.text; glex [h1.line, h1.code, h3.run]
  | struct n fs =>
    obtain ⟨h1, h2⟩ := h
    have h3 : GNeutral (String.join (fs.map GoField.text)) := .join fun f hf => (h2 f hf).neutral
    unfold GoDecl.text; glex [h1.code, h3.run]
  | errorMethod n =>
    have h : GoName n := h
    unfold GoDecl.text; glex [h.code, h.str]
  | union n tags fs =>
    obtain ⟨h1, h2, h3⟩ := h
    have h4 : GNeutral (String.join (fs.map GoField.text)) := .join fun f hf => (h3 f hf).neutral
    have h5 : GNeutral (String.join (tags.map fun t => "    " ++ n ++ "VariantTag" ++ t ++ "\n")) := .join fun t ht s => by
      glex [h1.code, (h2 t ht).code]
    unfold GoDecl.text; glex [h1.code, h4.run, h5.run]
  | enum n els =>
    unfold GoDecl.text
    exact goEnumText_neutral h.1 h.2 s
  | defn n t note =>
    obtain ⟨h1, h2, h3⟩ := h
    simp only [List.mem_cons, List.not_mem_nil, or_false] at h3
    unfold GoDecl.text
    rcases h3 with rfl | rfl
    · glex [h1.code, h2.neutral.run, grun_empty]
    · have : grun (.code, s) " //UUID" = some (.line, s) := grun_list (o := []) (o' := []) (t := " //UUID") rfl (by decide +kernel) s
      glex [h1.code, h2.neutral.run, this]
  | fromString n =>
    have h : GoName n := h
    unfold GoDecl.text; glex [h.code]
  | timestamp => unfold GoDecl.text; exact goTimestampText_run s
  | decimal => unfold GoDecl.text; exact goDecimalText_run s

theorem imports_neutral {l : List String} (h : ∀ p ∈ l, GoQuotable p) : GNeutral (String.join (l.map fun p => "\t\"" ++ p ++ "\"\n")) :=
  .join fun p hp s => by glex [(h p hp).str]

/-- The names in a file can be written. -/
structure NamedFile (f : GoFile) : Prop where
  pkg : GoName f.pkg
  imports : ∀ p ∈ f.imports, GoQuotable p
  decls : ∀ d ∈ f.decls, NamedDecl d

theorem NamedFile.neutral {f : GoFile} (h : NamedFile f) : GNeutral f.text := fun s => by
  have h1 := imports_neutral h.imports
  have h2 : GNeutral (String.join (f.decls.map GoDecl.text)) := .join fun d hd => (h.decls d hd).neutral
  have h3 : GNeutral (if f.imports = [] then "" else "\nimport(\n" ++ String.join (f.imports.map fun p => "\t\"" ++ p ++ "\"\n") ++ ")\n") :=
    .ite (fun _ => .empty) fun _ s => by glex [h1.run]
  unfold GoFile.text
  glex [h.pkg.code, h2.run, h3.run]

/-! ### The server -/

theorem GoSource.text_neutral (x : GoSource) : GNeutral x.text := fun s => by
  cases x with
  | form k => unfold GoSource.text; glex [gquote_str]
  | header k => unfold GoSource.text; glex [gquote_str]
  | var k => unfold GoSource.text; glex [gquote_str]

/-- The types in an expression can be written. -/
def NamedExpr : GoExpr → Prop
  | .conv t e => GNeutral t ∧ NamedExpr e
  | _ => True

theorem NamedExpr.neutral {e : GoExpr} (h : NamedExpr e) : GNeutral e.text := by
  induction e with
  | str x d => exact fun s => by unfold GoExpr.text; glex [x.text_neutral.run, gquote_str]
  | time x d =>
    cases d with
    | none => exact fun s => by unfold GoExpr.text; glex [x.text_neutral.run]
    | some d => exact fun s => by unfold GoExpr.text; glex [x.text_neutral.run, gquote_str]
  | int x d => exact fun s => by unfold GoExpr.text; glex [x.text_neutral.run, (sprintInt_name d).code]
  | conv t e ih => exact fun s => by unfold GoExpr.text; glex [h.1.run, (ih h.2).run]

/-- The names in a step can be written. -/
def NamedStep : GoStep → Prop
  | .assign f e => GoName f ∧ NamedExpr e
  | .decode f => GoName f

theorem goRefuse_neutral : GNeutral goRefuse := fun s => by unfold goRefuse; glex [grun_empty]

theorem NamedStep.neutral {x : GoStep} (h : NamedStep x) : GNeutral x.text := fun s => by
  cases x with
  | assign f e => unfold GoStep.text; glex [h.1.code, h.2.neutral.run]
  | decode f =>
    have h : GoName f := h
    unfold GoStep.text; glex [h.code, goRefuse_neutral.run]

/-- The names in a handler can be written. -/
structure NamedHandler (h : GoHandler) : Prop where
  method : GoName h.method
  steps : ∀ x ∈ h.steps, NamedStep x
  result : GoName h.result
  cases : ∀ c ∈ h.cases, NamedTy c.1
  headers : ∀ e ∈ h.headers, GoQuotable e.1 ∧ GoName e.2
  entity : ∀ f, h.entity = some f → GoName f

theorem NamedHandler.neutral {adaptor : String} (ha : GoName adaptor) {h : GoHandler} (hh : NamedHandler h) : GNeutral (h.text adaptor) := fun s => by
  have h1 : GNeutral (if h.form then "\terr := r.ParseForm()\n" ++ goRefuse else "") := .ite (fun _ s => by glex [goRefuse_neutral.run]) fun _ => .empty
  have h2 : GNeutral (String.join (h.steps.map GoStep.text)) := .join fun x hx => (hh.steps x hx).neutral
  have h3 : GNeutral (String.join (h.cases.map fun c => "\t\tcase " ++ c.1.text ++ ":\n\t\t\tjsonResponse(w, " ++ sprintInt c.2 ++ ", err)\n")) :=
    .join fun c hc s => by glex [(hh.cases c hc).neutral.run, (sprintInt_name c.2).code]
  have h4 : GNeutral (String.join (h.headers.map fun e => "\t\tw.Header().Add(\"" ++ e.1 ++ "\", normalizeHeaderValue(\"" ++ e.1 ++ "\", res." ++ e.2 ++ "))\n")) :=
    .join fun e he s => by glex [(hh.headers e he).1.str, (hh.headers e he).2.code]
  unfold GoHandler.text
  cases he : h.entity with
  | none => glex [ha.code, hh.method.code, hh.result.code, h1.run, h2.run, h3.run, h4.run, (sprintInt_name h.status).code]
  | some f => glex [ha.code, hh.method.code, hh.result.code, h1.run, h2.run, h3.run, h4.run, (sprintInt_name h.status).code, (hh.entity f he).code]

/-- The names in a route can be written. -/
structure NamedRoute (r : GoRoute) : Prop where
  path : GoQuotable r.path
  handler : GoName r.handler
  method : GoQuotable r.method

theorem NamedRoute.neutral {r : GoRoute} (h : NamedRoute r) : GNeutral r.text := fun s => by
  unfold GoRoute.text
  glex [h.path.str, h.handler.code, h.method.str]

/-- The names in a server can be written. -/
structure NamedServer (sv : GoServer) : Prop where
  pkg : GoName sv.pkg
  imports : ∀ p ∈ sv.imports, GoQuotable p
  service : GoName sv.service
  adaptor : GoName sv.adaptor
  handlers : ∀ h ∈ sv.handlers, NamedHandler h
  routes : ∀ r ∈ sv.routes, NamedRoute r

theorem NamedServer.neutral {sv : GoServer} (h : NamedServer sv) : GNeutral sv.text := fun s => by
  have h1 := imports_neutral h.imports
  have h2 : GNeutral (String.join (sv.handlers.map (GoHandler.text sv.adaptor))) := .join fun x hx => (h.handlers x hx).neutral h.adaptor
  have h3 : GNeutral (String.join (sv.routes.map GoRoute.text)) := .join fun x hx => (h.routes x hx).neutral
  unfold GoServer.text
  glex [h.pkg.code, h.service.code, h.adaptor.code, h1.run, h2.run, h3.run, goServerTail_run]

/-! ### The client -/

/-- The names in a query parameter can be written. -/
structure NamedArg (a : GoArg) : Prop where
  field : GoName a.field
  zero : GNeutral a.zero
  name : GoName a.name
  format : GoQuotable a.format

theorem NamedArg.neutral {a : GoArg} (h : NamedArg a) : GNeutral a.text := fun s => by
  unfold GoArg.text
  glex [h.field.code, h.zero.run, h.name.str, h.format.str]

/-- The names in an output can be written. -/
def NamedOutput : GoOutput → Prop
  | .body f t => GoName f ∧ NamedTy t
  | .header f _ _ => GoName f

theorem NamedOutput.neutral {x : GoOutput} (h : NamedOutput x) : GNeutral x.text := fun s => by
  cases x with
  | body f t => unfold GoOutput.text; glex [h.1.code, h.2.neutral.run]
  | header f k time =>
    have h : GoName f := h
    have h1 : GNeutral ("res.Header.Get(\"" ++ goQuote k ++ "\")") := fun s => by glex [gquote_str]
    have h2 : GNeutral (if time then "TimestampFromString(" ++ ("res.Header.Get(\"" ++ goQuote k ++ "\")") ++ ")" else "res.Header.Get(\"" ++ goQuote k ++ "\")") :=
      .ite (fun _ s => by rw [grun_append, grun_append]; glex [gquote_str]) fun _ => h1
    unfold GoOutput.text
    simp only
    glex [h.code, h2.run]

/-- The names in a call can be written. -/
structure NamedCall (c : GoCall) : Prop where
  method : GoName c.method
  path : GoQuotable c.path
  args : ∀ a ∈ c.args, NamedArg a
  verb : GoQuotable c.verb
  body : ∀ f, c.body = some f → GoName f
  outputs : ∀ x ∈ c.outputs, NamedOutput x
  cases : ∀ x ∈ c.cases, NamedTy x.1

theorem NamedCall.neutral {client : String} (hc : GoName client) {c : GoCall} (h : NamedCall c) : GNeutral (c.text client) := fun s => by
  have h1 : GNeutral (String.join (c.args.map GoArg.text)) := .join fun x hx => (h.args x hx).neutral
  have h3 : GNeutral (if c.json then "\threq.Header.Add(\"Content-Type\", \"application/json\")" else "") :=
    .ite (fun _ s => by glex [grun_empty]) fun _ => .empty
  have h4 : GNeutral (String.join (c.outputs.map GoOutput.text)) := .join fun x hx => (h.outputs x hx).neutral
  have h5 : GNeutral (String.join (c.cases.map fun x =>
    "\tcase " ++ sprintInt x.2 ++ ":\n" ++
    "\t\tvar errEntity " ++ x.1.text ++ "\n" ++
    "\t\terr = json.NewDecoder(res.Body).Decode(&errEntity)\n" ++
    "\t\tif err != nil {\n\t\t\treturn nil, err\n\t\t}\n" ++
    "\t\treturn nil, errEntity\n")) := .join fun x hx s => by glex [(h.cases x hx).neutral.run, (sprintInt_name x.2).code]
  unfold GoCall.text
  cases he : c.body with
  | none => glex [hc.code, h.method.code, h.path.str, h1.run, h.verb.str, h3.run, (sprintInt_name c.status).code, h4.run, h5.run]
  | some f => glex [hc.code, h.method.code, h.path.str, h1.run, h.verb.str, h3.run, (sprintInt_name c.status).code, h4.run, h5.run, (h.body f he).code]

/-- The names in a client can be written. -/
structure NamedClient (c : GoClient) : Prop where
  pkg : GoName c.pkg
  imports : ∀ p ∈ c.imports, GoQuotable p
  name : GoName c.name
  calls : ∀ x ∈ c.calls, NamedCall x

theorem NamedClient.neutral {c : GoClient} (h : NamedClient c) : GNeutral c.text := fun s => by
  have h1 := imports_neutral h.imports
  have h2 : GNeutral (String.join (c.calls.map (GoCall.text c.name))) := .join fun x hx => (h.calls x hx).neutral h.name
  unfold GoClient.text
  glex [h.pkg.code, h.name.code, h1.run, h2.run]

theorem GNeutral.lexes {t : String} (h : GNeutral t) : GoLexes t := by
  have := h []
  unfold grun at this
  exact this

end Sadl
