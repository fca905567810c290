import Verif.Lemmas.JavaLexClass
/-
The text of the generated Java server and client is well formed.
-/
namespace Sadl
open Sadl.Spec Sadl.JavaLits

/-- Where a parameter comes from can be written. -/
def PlainBind : JBind → Prop
  | .query n | .header n | .path n => RawText n
  | .entity => True

/-- The texts of a parameter can be written. -/
structure PlainJParam (p : JParam) : Prop where
  name : PlainText p.name
  type : PlainTy p.type
  bind : PlainBind p.bind
  default : ∀ d, p.default = some d → QuotableText d

/-- What a parameter with a default value begins with. -/
def defaultText : Option String → String
  | some d => "@DefaultValue(\"" ++ goQuote d ++ "\") "
  | none => ""

/-- The annotation of a parameter. -/
def bindText : JBind → String
  | .query n => "@QueryParam(\"" ++ n ++ "\") "
  | .header n => "@HeaderParam(\"" ++ n ++ "\") "
  | .path n => "@PathParam(\"" ++ n ++ "\") "
  | .entity => ""

theorem JParam.text_eq (p : JParam) : p.text = defaultText p.default ++ bindText p.bind ++ p.type.text ++ " " ++ p.name := by
  obtain ⟨b, d, t, n⟩ := p
  cases b <;> cases d <;> rfl

theorem PlainJParam.neutral {p : JParam} (h : PlainJParam p) : Neutral p.text := fun s => by
  have h1 : Neutral (defaultText p.default) := by
    cases hd : p.default with
    | none => exact .empty
    | some d => exact fun s => by unfold defaultText; jlex [(h.default d hd).run]
  have h2 : Neutral (bindText p.bind) := by
    have := h.bind
    cases hb : p.bind with
    | entity => exact .empty
    | query n => rw [hb] at this; exact fun s => by unfold bindText; jlex [raw_str (t := n) this]
    | header n => rw [hb] at this; exact fun s => by unfold bindText; jlex [raw_str (t := n) this]
    | path n => rw [hb] at this; exact fun s => by unfold bindText; jlex [raw_str (t := n) this]
  rw [JParam.text_eq]
  jlex [h1.run, h2.run, h.type.plain.run, h.name.run]

/-- The texts of a method of the server can be written. -/
structure PlainResource (r : JResource) : Prop where
  verb : PlainText r.verb
  path : RawText r.path
  name : PlainText r.name
  request : PlainText r.request
  response : PlainText r.response
  params : ∀ p ∈ r.params, PlainJParam p
  headers : ∀ h ∈ r.headers, RawText h.1 ∧ PlainText h.2
  entity : ∀ x, r.entity = some x → PlainText x.1
  exceptions : ∀ x ∈ r.exceptions, PlainText x.1

/-- The tests of a service exception after the first one. -/
theorem serviceTests_run {ys : List (String × Int)} (h : ∀ x ∈ ys, PlainText x.1) (k : Nat) (s : List Char) :
    jrun (.code, '{' :: s) (catAll (ys.mapIdx fun i x =>
      (if i + (k + 1) = 0 then "            if (entity instanceof " ++ x.1 ++ ") {\n" else "            } else if (entity instanceof " ++ x.1 ++ ") {\n") ++
      "                status = " ++ toString x.2 ++ ";\n" ++
      (if x.2 = 204 ∨ x.2 = 304 then "                entity = null;\n" else ""))) = some (.code, '{' :: s) := by
  induction ys generalizing k with
  | nil => exact Neutral.empty _
  | cons y ys ih =>
    have h1 : Neutral (if y.2 = 204 ∨ y.2 = 304 then "                entity = null;\n" else "") := .ite (fun _ s => by jlex []) fun _ => .empty
    rw [List.mapIdx_cons, catAll_cons, if_neg (by omega)]
    have ih' := ih (fun x hx => h x (List.mem_cons_of_mem _ hx)) (k + 1)
    have e : ∀ i : Nat, i + 1 + (k + 1) = i + (k + 1 + 1) := by omega
    simp only [e]
    jlex [(h y (by simp)).run, plain_code (plain_int _), h1.run, ih']

theorem javaServiceCatch_run {xs : List (String × Int)} (h : ∀ x ∈ xs, PlainText x.1) (s : List Char) :
    jrun (.code, '{' :: s) (javaServiceCatch xs) = some (.code, '{' :: s) := by
  unfold javaServiceCatch
  have hy : ∀ x ∈ xs.filter (·.1 ≠ "ServiceException"), PlainText x.1 := fun x hx => h x (List.mem_of_mem_filter hx)
  revert hy
  generalize xs.filter (·.1 ≠ "ServiceException") = ys
  intro hy
  have h2 : Neutral (if ys.any (fun x => decide (x.2 = 204 ∨ x.2 = 304)) = true then
      "            if (entity == null) {\n" ++ "                throw new WebApplicationException(status);\n" ++ "            }\n" else "") :=
    .ite (fun _ s => by jlex []) fun _ => .empty
  cases ys with
  | nil =>
    have e1 : catAll (([] : List (String × Int)).mapIdx fun i x =>
      (if i = 0 then "            if (entity instanceof " ++ x.1 ++ ") {\n" else "            } else if (entity instanceof " ++ x.1 ++ ") {\n") ++
      "                status = " ++ toString x.2 ++ ";\n" ++
      (if x.2 = 204 ∨ x.2 = 304 then "                entity = null;\n" else "")) = "" := rfl
    simp only [ne_eq, not_true_eq_false, if_false]
    jlex [e1, jrun_empty, h2.run]
  | cons y ys =>
    have h1 : Neutral (if y.2 = 204 ∨ y.2 = 304 then "                entity = null;\n" else "") := .ite (fun _ s => by jlex []) fun _ => .empty
    have h3 := serviceTests_run (ys := ys) (fun x hx => hy x (List.mem_cons_of_mem _ hx)) 0
    have hne : y :: ys ≠ [] := List.cons_ne_nil _ _
    simp only [List.mapIdx_cons, catAll_cons, if_pos hne, if_pos (rfl : (0 : Nat) = 0)]
    simp only [Nat.zero_add] at h3
    simp only [if_true]
    jlex [(hy y (by simp)).run, plain_code (plain_int _), h1.run, h2.run, h3]

/-- What is called with the body of the response. -/
def entityText (conf : JavaConf) : Option (String × Bool) → String
  | some (n, json) =>
    let v := if conf.immutable then "res.get" ++ capitalize n ++ "()" else "res." ++ n
    ".entity(" ++ (if json then "Util.toJson(" ++ v ++ ")" else v) ++ ")"
  | none => ""

theorem entityText_neutral (conf : JavaConf) {e : Option (String × Bool)} (h : ∀ x, e = some x → PlainText x.1) : Neutral (entityText conf e) := by
  cases e with
  | none => exact .empty
  | some x =>
    obtain ⟨n, json⟩ := x
    have hn : PlainText n := h _ rfl
    have hv : Neutral (if conf.immutable = true then "res.get" ++ capitalize n ++ "()" else "res." ++ n) :=
      .ite (fun _ s => by jlex [hn.capitalize.run]) fun _ s => by jlex [hn.run]
    have hw : Neutral (if json = true then "Util.toJson(" ++ (if conf.immutable = true then "res.get" ++ capitalize n ++ "()" else "res." ++ n) ++ ")"
        else if conf.immutable = true then "res.get" ++ capitalize n ++ "()" else "res." ++ n) := .ite (fun _ s => by jlex [hv.run]) fun _ => hv
    exact fun s => by unfold entityText; jlex [hw.run]

theorem JResource.body_eq (conf : JavaConf) (r : JResource) : r.body conf =
  "        " ++ r.request ++ " req = " ++ (if conf.immutable then r.request ++ ".builder()" else "new " ++ r.request ++ "()") ++
  catAll (r.params.map fun p => "." ++ p.name ++ "(" ++ p.name ++ ")") ++
  (if conf.immutable then ".build()" else "") ++ ";\n" ++
  "        try {\n" ++
  (if r.result then
    "            " ++ r.response ++ " res = " ++ (uncapitalize conf.name ++ "Controller") ++ "." ++ r.name ++ "(req);\n" ++
    "            return Response.status(" ++ toString r.status ++ ")" ++
    catAll (r.headers.map fun h => ".header(\"" ++ h.1 ++ "\", res.get" ++ capitalize h.2 ++ "())") ++
    entityText conf r.entity ++ ".build();\n"
   else
    "            " ++ (uncapitalize conf.name ++ "Controller") ++ "." ++ r.name ++ "(req);\n" ++
    "            return Response.status(" ++ toString r.status ++ ").build();\n") ++
  (if conf.serviceException then javaServiceCatch r.exceptions
   else catAll (r.exceptions.map fun x =>
    "        } catch (" ++ x.1 ++ " e) {\n" ++
    "                throw new WebApplicationException(Response.status(" ++ toString x.2 ++ ").entity(e).build());\n")) ++
  "        } catch (Throwable th) {\n" ++
  "            return Response.status(500).build();\n" ++
  "        }\n" := by
  obtain ⟨verb, path, name, request, response, params, status, result, headers, entity, exceptions⟩ := r
  cases entity <;> rfl

theorem JResource.body_neutral {conf : JavaConf} (hc : PlainText conf.name) {r : JResource} (h : PlainResource r) : Neutral (r.body conf) := fun s => by
  have h1 : Neutral (if conf.immutable = true then r.request ++ ".builder()" else "new " ++ r.request ++ "()") :=
    .ite (fun _ s => by jlex [h.request.run]) fun _ s => by jlex [h.request.run]
  have h2 : Neutral (catAll (r.params.map fun p => "." ++ p.name ++ "(" ++ p.name ++ ")")) := .catMap fun p hp s => by jlex [(h.params p hp).name.run]
  have h3 : Neutral (if conf.immutable = true then ".build()" else "") := .ite (fun _ s => by jlex []) fun _ => .empty
  have h4 : Neutral (catAll (r.headers.map fun h => ".header(\"" ++ h.1 ++ "\", res.get" ++ capitalize h.2 ++ "())")) := .catMap fun x hx s => by
    jlex [(h.headers x hx).1.run, (h.headers x hx).2.capitalize.run]
  have h5 := entityText_neutral conf h.entity
  have h6 : Neutral (if r.result = true then
      "            " ++ r.response ++ " res = " ++ (uncapitalize conf.name ++ "Controller") ++ "." ++ r.name ++ "(req);\n" ++
      "            return Response.status(" ++ toString r.status ++ ")" ++
      catAll (r.headers.map fun h => ".header(\"" ++ h.1 ++ "\", res.get" ++ capitalize h.2 ++ "())") ++
      entityText conf r.entity ++ ".build();\n"
     else
      "            " ++ (uncapitalize conf.name ++ "Controller") ++ "." ++ r.name ++ "(req);\n" ++
      "            return Response.status(" ++ toString r.status ++ ").build();\n") :=
    .ite (fun _ s => by jlex [h.response.run, hc.uncapitalize.run, h.name.run, plain_code (plain_int _), h4.run, h5.run])
      fun _ s => by jlex [hc.uncapitalize.run, h.name.run, plain_code (plain_int _)]
  have h7 : ∀ s, jrun (.code, '{' :: s) (if conf.serviceException = true then javaServiceCatch r.exceptions
     else catAll (r.exceptions.map fun x =>
      "        } catch (" ++ x.1 ++ " e) {\n" ++
      "                throw new WebApplicationException(Response.status(" ++ toString x.2 ++ ").entity(e).build());\n")) = some (.code, '{' :: s) := by
    intro s
    split
    · exact javaServiceCatch_run h.exceptions s
    · have hx := h.exceptions
      generalize r.exceptions = xs at hx
      induction xs with
      | nil => exact Neutral.empty _
      | cons x xs ih =>
        rw [List.map_cons, catAll_cons]
        jlex [(hx x (by simp)).run, plain_code (plain_int _), ih fun y hy => hx y (List.mem_cons_of_mem _ hy)]
  rw [JResource.body_eq]
  jlex [h.request.run, h1.run, h2.run, h3.run, h6.run, h7]

theorem import_neutral {pkg : String} (h : PlainText pkg) : Neutral (if pkg ≠ "" then "import " ++ pkg ++ ".*;" else "") :=
  .ite (fun _ s => by jlex [h.run]) fun _ => .empty

theorem javaResourcesText_neutral {conf : JavaConf} (hc : PlainConf conf) {name root : String} (hn : PlainText name) (hr : RawText root)
    {rs : List JResource} (h : ∀ r ∈ rs, PlainResource r) : Neutral (javaResourcesText conf name root rs) := fun s => by
  have h1 : Neutral (catAll (rs.map fun r =>
      "\n    \n    @" ++ r.verb ++ "\n    @Path(\"" ++ r.path ++ "\")\n    @Produces(MediaType.APPLICATION_JSON)\n" ++
      "    public Response " ++ r.name ++ "(" ++ String.intercalate ", " (r.params.map JParam.text) ++ ") {\n" ++
      r.body conf ++ "    }\n")) := .catMap fun r hr s => by
    have h0 : Neutral (String.intercalate ", " (r.params.map JParam.text)) := .join (fun s => by jlex []) fun p hp => ((h r hr).params p hp).neutral
    jlex [(h r hr).verb.run, (h r hr).path.run, (h r hr).name.run, h0.run, (JResource.body_neutral hc.name (h r hr)).run]
  unfold javaResourcesText
  jlex [(import_neutral hc.modelPackage).run, hn.run, hn.uncapitalize.run, hr.run, h1.run]

theorem javaMainText_neutral {conf : JavaConf} (hc : PlainConf conf) {name : String} (hn : PlainText name) (instant : Bool) :
    Neutral (javaMainText conf name instant) := fun s => by
  have h1 : Neutral (if instant = true then "config.register(Util.InstantConverterProvider.class);\n        " else "") :=
    .ite (fun _ s => by jlex []) fun _ => .empty
  unfold javaMainText
  jlex [(import_neutral hc.modelPackage).run, (import_neutral hc.serverPackage).run, hn.run, h1.run]

theorem javaImplText_neutral {conf : JavaConf} (hc : PlainConf conf) {name : String} (hn : PlainText name) {ms : List (String × String × String)}
    (h : ∀ x ∈ ms, PlainText x.1 ∧ PlainText x.2.1 ∧ PlainText x.2.2) : Neutral (javaImplText conf name ms) := fun s => by
  have h1 : Neutral (catAll (ms.map fun (n, res, req) =>
      "\n    public " ++ res ++ " " ++ n ++ "(" ++ req ++ " req) {\n" ++
      "        return " ++ (if conf.immutable then res ++ ".builder().build()" else "new " ++ res ++ "()") ++ "; //implement me!\n" ++
      "    }\n")) := .catMap fun x hx s => by
    obtain ⟨n, res, req⟩ := x
    obtain ⟨a, b, c⟩ := h _ hx
    have h0 : Neutral (if conf.immutable = true then res ++ ".builder().build()" else "new " ++ res ++ "()") :=
      .ite (fun _ s => by jlex [(show PlainText res from b).run]) fun _ s => by jlex [(show PlainText res from b).run]
    jlex [(show PlainText n from a).run, (show PlainText res from b).run, (show PlainText req from c).run, h0.run]
  unfold javaImplText
  jlex [(import_neutral hc.modelPackage).run, hn.run, h1.run]

/-! ### The client -/

/-- The texts of what the client returns can be written. -/
def PlainReturn : JReturn → Prop
  | .nothing => True
  | .value ent hs => (∀ x, ent = some x → PlainText x.1 ∧ PlainText x.2) ∧ ∀ x ∈ hs, RawText x.1 ∧ PlainText x.2.1 ∧ PlainText x.2.2

/-- The texts of a method of the client can be written. -/
structure PlainCall (c : JCall) : Prop where
  name : PlainText c.name
  request : PlainText c.request
  response : PlainText c.response
  verb : PlainText c.verb
  path : RawText c.path
  headers : ∀ h ∈ c.headers, RawText h.1 ∧ PlainText h.2
  entity : ∀ n, c.entity = some n → PlainText n
  result : PlainReturn c.result
  exceptions : ∀ x ∈ c.exceptions, PlainText x.2

/-- The statements that read the body of the response. -/
def readText : Option (String × String) → String
  | some (n, t) => "            " ++ t ++ " " ++ n ++ " = response.readEntity(" ++ t ++ ".class);\n"
  | none => ""

/-- The call with the body of the response. -/
def setText : Option (String × String) → String
  | some (n, _) => "                ." ++ n ++ "(" ++ n ++ ")\n"
  | none => ""

/-- The statements for a response with the expected status. -/
def returnText (response : String) : JReturn → String
  | .nothing => "            return null; //shoudn't this be void?!\n"
  | .value ent hs =>
    readText ent ++
    catAll (hs.map fun (h, n, t) =>
      "            " ++ t ++ " " ++ n ++ " = " ++ javaFromString t ("response.getHeaderString(\"" ++ h ++ "\")") ++ ";\n") ++
    "            return " ++ response ++ ".builder()\n" ++ setText ent ++
    catAll (hs.map fun (_, n, _) => "                ." ++ n ++ "(" ++ n ++ ")\n") ++
    "                .build();\n"

theorem readText_neutral {e : Option (String × String)} (h : ∀ x, e = some x → PlainText x.1 ∧ PlainText x.2) : Neutral (readText e) ∧ Neutral (setText e) := by
  cases e with
  | none => exact ⟨.empty, .empty⟩
  | some x =>
    obtain ⟨n, t⟩ := x
    obtain ⟨hn, ht⟩ := h _ rfl
    have hn : PlainText n := hn
    have ht : PlainText t := ht
    exact ⟨fun s => by unfold readText; jlex [hn.run, ht.run], fun s => by unfold setText; jlex [hn.run]⟩

theorem returnText_neutral {response : String} (hr : PlainText response) {x : JReturn} (h : PlainReturn x) : Neutral (returnText response x) := by
  cases x with
  | nothing => exact fun s => by unfold returnText; jlex []
  | value ent hs =>
    obtain ⟨h1, h2⟩ := h
    obtain ⟨ha, hb⟩ := readText_neutral h1
    have hc : Neutral (catAll (hs.map fun (h, n, t) =>
        "            " ++ t ++ " " ++ n ++ " = " ++ javaFromString t ("response.getHeaderString(\"" ++ h ++ "\")") ++ ";\n")) := .catMap fun x hx s => by
      obtain ⟨h, n, t⟩ := x
      obtain ⟨a, b, c⟩ := h2 _ hx
      have a : RawText h := a
      have b : PlainText n := b
      have c : PlainText t := c
      have h0 : Neutral (javaFromString t ("response.getHeaderString(\"" ++ h ++ "\")")) := by
        unfold javaFromString
        exact .ite (fun _ s => by jlex [a.run]) fun _ s => by jlex [a.run]
      jlex [c.run, b.run, h0.run]
    have hd : Neutral (catAll (hs.map fun (_, n, _) => "                ." ++ n ++ "(" ++ n ++ ")\n")) := .catMap fun x hx s => by
      obtain ⟨h, n, t⟩ := x
      have b : PlainText n := (h2 _ hx).2.1
      jlex [b.run]
    exact fun s => by unfold returnText; jlex [ha.run, hb.run, hc.run, hd.run, hr.run]

/-- The argument of the request. -/
def sentText : Option String → String
  | some n => "Entity.entity(" ++ ("req.get" ++ capitalize n ++ "()") ++ ", MediaType.APPLICATION_JSON)"
  | none => ""

theorem JCall.body_eq (inputs : List HttpParamSpec) (c : JCall) : c.body inputs =
  "        WebTarget target = client.target(config.getTarget()).path(\"" ++ c.path ++ "\")" ++
  catAll (inputs.map fun p =>
    if p.path then "\n            .resolveTemplate(\"" ++ p.field.name ++ "\", " ++ ("req.get" ++ capitalize p.field.name ++ "()") ++ ", true)"
    else if p.query ≠ "" then "\n            .queryParam(\"" ++ p.query ++ "\", " ++ ("req.get" ++ capitalize p.field.name ++ "()") ++ ")"
    else "") ++
  ";\n        Invocation.Builder inv = target.request(MediaType.APPLICATION_JSON)" ++
  catAll (c.headers.map fun h => "\n            .header(\"" ++ h.1 ++ "\", " ++ ("req.get" ++ capitalize h.2 ++ "()") ++ ")") ++
  ";\n        Response response = inv." ++ lowerAscii c.verb ++ "(" ++ sentText c.entity ++ ");\n" ++
  "        switch (response.getStatus()) {\n" ++
  "        case " ++ toString c.status ++ ":\n" ++
  returnText c.response c.result ++
  catAll (c.exceptions.map fun x =>
    "        case " ++ toString x.1 ++ ":\n" ++ "            throw response.readEntity(" ++ x.2 ++ ".class);\n") ++
  "        default:\n" ++
  "            throw new RuntimeException(\"Unexpected service response status: \" + response.getStatus());\n" ++
  "        }\n" := by
  obtain ⟨name, request, response, verb, path, templates, queries, headers, entity, status, result, exceptions⟩ := c
  rcases entity with _ | n <;> rcases result with _ | ⟨_ | ⟨n, t⟩, hs⟩ <;> rfl

theorem JCall.body_neutral {inputs : List HttpParamSpec} (hp : ∀ p ∈ inputs, PlainParam p) {c : JCall} (h : PlainCall c) : Neutral (c.body inputs) := fun s => by
  have h1 : Neutral (catAll (inputs.map fun p =>
      if p.path then "\n            .resolveTemplate(\"" ++ p.field.name ++ "\", " ++ ("req.get" ++ capitalize p.field.name ++ "()") ++ ", true)"
      else if p.query ≠ "" then "\n            .queryParam(\"" ++ p.query ++ "\", " ++ ("req.get" ++ capitalize p.field.name ++ "()") ++ ")"
      else "")) := .catMap fun p hp' => by
    have hn := (hp p hp').name
    exact .ite (fun _ s => by jlex [hn.runStr, hn.capitalize.run]) fun _ => .ite (fun _ s => by jlex [(hp p hp').query.run, hn.capitalize.run]) fun _ => .empty
  have h2 : Neutral (catAll (c.headers.map fun h => "\n            .header(\"" ++ h.1 ++ "\", " ++ ("req.get" ++ capitalize h.2 ++ "()") ++ ")")) :=
    .catMap fun x hx s => by jlex [(h.headers x hx).1.run, (h.headers x hx).2.capitalize.run]
  have h3 : Neutral (sentText c.entity) := by
    cases he : c.entity with
    | none => exact .empty
    | some n => exact fun s => by unfold sentText; jlex [(h.entity n he).capitalize.run]
  have h4 := returnText_neutral h.response h.result
  have h5 : Neutral (catAll (c.exceptions.map fun x =>
      "        case " ++ toString x.1 ++ ":\n" ++ "            throw response.readEntity(" ++ x.2 ++ ".class);\n")) := .catMap fun x hx s => by
    jlex [plain_code (plain_int _), (h.exceptions x hx).run]
  rw [JCall.body_eq]
  jlex [h.path.run, h1.run, h2.run, h3.run, h4.run, h5.run, h.verb.lower.run, plain_code (plain_int _)]

theorem javaClientText_neutral {conf : JavaConf} (hc : PlainConf conf) {name root : String} (hn : PlainText name) (hr : RawText root)
    {https : List HttpDef} (hh : ∀ h ∈ https, ∀ p ∈ h.inputs, PlainParam p) {cs : List JCall} (h : ∀ c ∈ cs, PlainCall c) :
    Neutral (javaClientText conf name root https cs) := fun s => by
  have h1 : Neutral (catAll ((https.zip cs).map fun (h, c) =>
      "\n    public " ++ c.response ++ " " ++ c.name ++ "(" ++ c.request ++ " req) {\n" ++ c.body h.inputs ++ "    }\n")) := .catMap fun x hx s => by
    obtain ⟨a, c⟩ := x
    have hx' := List.of_mem_zip hx
    have k := h c hx'.2
    jlex [k.response.run, k.name.run, k.request.run, (JCall.body_neutral (hh a hx'.1) k).run]
  unfold javaClientText
  jlex [(import_neutral hc.modelPackage).run, hn.run, hr.run, h1.run]

end Sadl
