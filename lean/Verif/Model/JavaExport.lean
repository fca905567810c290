import Verif.Model.JavaClass
import Verif.Model.Command
import Verif.Model.GoExport
/-
java/java_model.go and java/export_java.go: the files that generating the Java model writes.
-/
namespace Sadl

/-- `strings.ToLower` on ASCII. -/
def lowerAscii (s : String) : String := String.ofList (s.toList.map Char.toLower)

/-- java/java_server.go:454-470 `ActionInfo`: the name and type of the entity of an action. -/
def javaActionInfo (h : HttpDef) : Out (String × String) :=
  if h.method = "POST" ∨ h.method = "PUT" then
    match h.inputs.find? fun p => p.query = "" ∧ p.header = "" ∧ p.path = false with
    | some p => .ok (p.field.name, p.field.ts.type)
    | none => .ok ("anonymous", "Object")
  else
    match h.expected with
    | none => .panic nilDeref
    | some e =>
      match e.outputs.find? fun p => p.header = "" with
      | some p => .ok (p.field.name, p.field.ts.type)
      | none => .ok ("anonymous", "Object")

/-- java/java_server.go:472-482 `ActionName`. -/
def javaActionName (h : HttpDef) : Out String :=
  if h.name = "" then (javaActionInfo h).bind fun i => .ok (lowerAscii h.method ++ i.2)
  else .ok (uncapitalize h.name)

/-- java/java_server.go:484-486 `RequestType`. -/
def javaRequestType (name : String) : Out String := (javaCapitalize name).bind fun n => .ok (n ++ "Request")
/-- java/java_server.go:488-490 `ResponseType`. -/
def javaResponseType (name : String) : Out String := (javaCapitalize name).bind fun n => .ok (n ++ "Response")

/-- java/java_model.go:33-41 `entityNameType`: the name and type of the body of the response. -/
def javaEntity (m : Model) (conf : JavaConf) (h : HttpDef) : Out (String × JTy × List JNote) :=
  match h.expected with
  | none => .panic nilDeref
  | some e =>
    match e.outputs.find? fun p => p.header = "" with
    | some p => (javaType m conf none p.field.ts.type true).bind fun t => .ok (p.field.name, t.type, t.notes)
    | none => .ok ("", .name "void", [])

/-- java/java_server.go:55-64 `ExceptionTypes`: the Java types of the exceptions. -/
def javaExceptions (m : Model) (conf : JavaConf) : List HttpExceptionSpec → Out (List String × List JNote)
  | [] => .ok ([], [])
  | x :: xs =>
    (javaType m conf none x.type true).bind fun t =>
    (javaExceptions m conf xs).bind fun r => .ok (t.type.text :: r.1, t.notes ++ r.2)

/-- What a file is made of. -/
inductive JavaContent where
  | pojo (imports : List String) (comment : String) (body : JavaBody)
  | interface (name : String) (methods : List (String × String × String))
  | fixed (text : String)
  /-- The Maven project file. -/
  | pom (text : String)

/-- A generated file. -/
structure JavaFile where
  name : String
  pkg : String
  content : JavaContent

/-- A step of the generator: something that is computed in any case, or a file that is written if there has been no error. -/
inductive JavaStep where
  | check (o : Out Unit)
  | file (o : Out JavaFile)

/-- `sort.Strings`. -/
def insertString (s : String) : List String → List String
  | [] => [s]
  | t :: ts => if s < t then s :: t :: ts else t :: insertString s ts

/-- java/export_java.go:88-95 `AddImport` and 213-219: the imports, in the order in which they are written. -/
def javaImports (notes : List JNote) : List String :=
  notes.foldl (fun acc n => match n with
    | .pack p => if p ∈ acc then acc else insertString p acc
    | _ => acc) []

/-- java/export_java.go:190-225 `CreatePojo`: the steps and the notes taken so far. -/
def javaPojo (m : Model) (conf : JavaConf) (exceptions : List String) (ts : TypeSpec) (className comment : String)
    (notes : List JNote) : List JavaStep × List JNote :=
  match javaBody m conf exceptions className ts with
  | none => ([], notes)
  | some (.ok (b, ns)) =>
    ([.file (.ok { name := className, pkg := conf.modelPackage, content := .pojo (javaImports (notes ++ ns)) comment b })],
     notes ++ ns)
  | some (.err e) => ([.file (.err e)], notes)
  | some (.panic e) => ([.file (.panic e)], notes)

/-- java/java_model.go:15-17, java/export_java.go:185-188 `CreatePojoFromDef`: the classes of the types. -/
def javaTypePojos (m : Model) (conf : JavaConf) (exceptions : List String) : List TypeDef → List JNote → List JavaStep × List JNote
  | [], notes => ([], notes)
  | td :: tds, notes =>
    let p := javaPojo m conf exceptions td.ts (capitalize td.name) td.comment notes
    let r := javaTypePojos m conf exceptions tds p.2
    (.check ((javaCapitalize td.name).bind fun _ => .ok ()) :: p.1 ++ r.1, r.2)

/-- A struct with the given fields (java/java_server.go:420-425, 445-450). -/
def structOf (fields : List StructFieldDef) : TypeSpec := { type := "Struct", fields := fields }

/-- java/java_model.go:59-66, java/java_server.go:416-428 `CreateRequestPojo`, 440-452 `CreateResponsePojo`: the classes of the
actions. -/
def javaActionPojos (m : Model) (conf : JavaConf) : List HttpDef → List JNote → List JavaStep × List JNote
  | [], notes => ([], notes)
  | h :: hs, notes =>
    let named := javaActionName h
    let req := match named.bind javaRequestType with
      | .ok n => javaPojo m conf [] (structOf (h.inputs.map HttpParamSpec.field)) n "" notes
      | .err e => ([.file (.err e)], notes)
      | .panic e => ([.file (.panic e)], notes)
    let res := match named.bind javaResponseType, h.expected with
      | .ok n, some e => javaPojo m conf [] (structOf (e.outputs.map HttpParamSpec.field)) n "" req.2
      | .ok _, none => ([.file (.panic nilDeref)], req.2)
      | .err e, _ => ([.file (.err e)], req.2)
      | .panic e, _ => ([.file (.panic e)], req.2)
    let ent := match javaEntity m conf h with
      | .ok (_, t, ns) => res.2 ++ ns ++ (if t.text = "String" then [.util] else [])
      | _ => res.2
    let r := javaActionPojos m conf hs ent
    (req.1 ++ res.1 ++ .check ((javaEntity m conf h).bind fun _ => .ok ()) :: r.1, r.2)

/-- java/java_model.go:51-56: the methods of the interface: the name, and the types of the response and the request. -/
def javaMethods : List HttpDef → Out (List (String × String × String))
  | [] => .ok []
  | h :: hs =>
    (javaActionName h).bind fun n =>
    (javaResponseType n).bind fun res =>
    (javaRequestType n).bind fun req =>
    (javaMethods hs).bind fun r => .ok ((n, res, req) :: r)

/-- The package text/template turns a panic of a function into an error; a stack overflow cannot be stopped. -/
def recovered {α : Type} : Out α → Out α
  | .panic e => if e = stackOverflow then .panic e else .err e
  | o => o

/-- java/java_model.go:43-67 `CreateInterface`. -/
def javaInterface (m : Model) (conf : JavaConf) (notes : List JNote) : List JavaStep × List JNote :=
  if conf.name = "" then ([], notes)
  else
    let r := javaActionPojos m conf m.schema.http notes
    (.file ((recovered (javaMethods m.schema.http)).bind fun ms =>
      .ok { name := conf.name, pkg := conf.modelPackage, content := .interface conf.name ms }) :: r.1, r.2)

/-- java/java_model.go:19-30: the other files of the model. -/
def javaSupport (conf : JavaConf) (notes : List JNote) : List JavaStep :=
  (if .timestamp ∈ notes then
    [.file (.ok { name := "Timestamp", pkg := conf.pkg, content := .fixed javaTimestampText })] else []) ++
  (if .util ∈ notes ∨ (.timestamp ∉ notes ∧ .instant ∈ notes) then
    [.file (.ok { name := "Util", pkg := conf.modelPackage, content := .fixed javaUtilText })] else []) ++
  (if conf.serviceException then
    [.file (.ok { name := "ServiceException", pkg := conf.modelPackage, content := .fixed javaExceptionText })] else [])

/-- java/java_model.go:9-31 `CreateModel`: its three phases; a later phase does nothing if there has been an error. -/
def javaModel (m : Model) (conf : JavaConf) : List (List JavaStep) × List JNote :=
  match (if conf.serviceException then .ok ([], []) else javaExceptions m conf (m.schema.http.flatMap (·.exceptions))) with
  | .ok (exceptions, notes) =>
    let p := javaTypePojos m conf exceptions m.schema.types notes
    let i := javaInterface m conf p.2
    ([p.1, i.1, javaSupport conf i.2], i.2)
  | .err e => ([[.check (.err e)]], [])
  | .panic e => ([[.check (.panic e)]], [])

/-! ### Text and paths -/

/-- java/export_java.go:194-197, 211-222 and java/java_model.go:69-75 `interfaceTemplate`: the text of a file after the line with
the package. -/
def JavaContent.text (conf : JavaConf) : JavaContent → String
  | .pojo imports comment body =>
    (if imports ≠ [] then catAll (imports.map fun p => "import " ++ p ++ ";\n") ++ "\n" else "") ++
    (if comment ≠ "" then javaComment "" comment 100 else "") ++ body.text conf
  | .interface name methods =>
    "\npublic interface " ++ name ++ " {\n" ++
    catAll (methods.map fun (n, res, req) => "\n    public " ++ res ++ " " ++ n ++ "(" ++ req ++ " req);\n") ++ "\n}\n"
  | .fixed t => t
  | .pom t => t

/-- java/export_java.go:159-173 `WriteJavaFile`: the text of a file. -/
def JavaFile.text (conf : JavaConf) (f : JavaFile) : String :=
  match f.content with
  | .pom t => t
  | c => conf.header ++ (if f.pkg ≠ "" then "package " ++ f.pkg ++ ";\n" else "") ++ c.text conf

/-- java/export_java.go:800-802 `javaPackageToPath`. -/
def javaPackagePath (pkg : String) : String := String.ofList (joinWith '/' (splitAll '.' pkg.toList))

/-- java/export_java.go:159-173 `WriteJavaFile`, java/java_pom.go:14: the path of a file. -/
def JavaFile.path (outdir source : String) (f : JavaFile) : String :=
  match f.content with
  | .pom _ => joinPath outdir "pom.xml"
  | _ =>
    let dir := joinPath outdir source
    joinPath (if f.pkg ≠ "" then joinPath dir (javaPackagePath f.pkg) else dir) (f.name ++ ".java")

/-! ### Running the generator -/

/-- The state after some steps, and the crash that ended them, if any. -/
structure JavaRun where
  gen : Gen
  crash : Option String := none

/-- The steps of one phase; `path` and `text` are the path and the text of a file. -/
def javaSteps (os : OS) (path text : JavaFile → String) : List JavaStep → Gen → JavaRun
  | [], g => { gen := g }
  | .check o :: rest, g =>
    match o with
    | .ok _ => javaSteps os path text rest g
    | .err e => javaSteps os path text rest { g with err := some e }
    | .panic e => { gen := g, crash := some e }
  | .file o :: rest, g =>
    match g.err with
    | some _ => javaSteps os path text rest g
    | none =>
      match o with
      | .ok f => javaSteps os path text rest (g.writeFile os (path f) (text f))
      | .err e => javaSteps os path text rest { g with err := some e }
      | .panic e => { gen := g, crash := some e }

/-- The phases after the first one. -/
def javaPhases (os : OS) (path text : JavaFile → String) : List (List JavaStep) → JavaRun → JavaRun
  | [], r => r
  | p :: ps, r =>
    match r.crash, r.gen.err with
    | none, none => javaPhases os path text ps (javaSteps os path text p r.gen)
    | _, _ => r

end Sadl
