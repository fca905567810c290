import Verif.Spec.JavaRest
import Verif.Spec.GoExport
/-
Specification: the files that generating Java writes.
-/
namespace Sadl.Spec
open Sadl

/-- The class is thrown: it is the Java type of an exception of some action.  With `service-exception`, none is. -/
def JavaThrowable (s : Schema) (conf : JavaConf) (cls : String) : Prop :=
  conf.serviceException = false ∧ ∃ h ∈ s.http, ∃ x ∈ h.exceptions, ∃ t, JavaBare s conf.instants x.type true t ∧ t.text = cls

/-- The class for a type of the given name. -/
def JavaTypeClass (s : Schema) (conf : JavaConf) (cls : String) (ts : TypeSpec) (body : JavaBody) : Prop :=
  ∃ b : Bool, (b = true ↔ JavaThrowable s conf cls) ∧ JavaBodyFor s conf.instants conf.lombok conf.decText b cls ts body

/-- The class that holds the inputs or the outputs of an action. -/
def JavaMessageClass (s : Schema) (conf : JavaConf) (cls : String) (ps : List HttpParamSpec) (body : JavaBody) : Prop :=
  JavaBodyFor s conf.instants conf.lombok conf.decText false cls { type := "Struct", fields := ps.map HttpParamSpec.field } body

/-- The methods of a service: the name, and the classes of the response and of the request. -/
def JavaMethodsFor (https : List HttpDef) (ms : List (String × String × String)) : Prop :=
  List.Forall₂ (fun h x => JavaMethodName h x.1 ∧ x.2.1 = capitalize x.1 ++ "Response" ∧ x.2.2 = capitalize x.1 ++ "Request") https ms

/-- The root of the paths of a service. -/
def JavaRoot (s : Schema) : String := if s.base = "" then "/" else s.base

/-- The settings that say what is generated. -/
structure JavaParts where
  model : Bool
  server : Bool
  impl : Bool
  client : Bool
  maven : Bool

/-- The parts that a configuration asks for. -/
def JavaParts.of (config : Value) : JavaParts :=
  { model := configBool config "model" true, server := configBool config "server" false,
    impl := configBool config "example-implementation" false, client := configBool config "client" false,
    maven := configBool config "maven" false }

/-- The files of a generated Java project. -/
inductive JavaFileFor (s : Schema) (conf : JavaConf) (parts : JavaParts) : JavaFile → Prop
  | type {td body imports} : parts.model = true → td ∈ s.types → JavaTypeClass s conf (capitalize td.name) td.ts body →
      JavaFileFor s conf parts { name := capitalize td.name, pkg := conf.modelPackage, content := .pojo imports td.comment body }
  | interface {ms} : parts.model = true → conf.name ≠ "" → JavaMethodsFor s.http ms →
      JavaFileFor s conf parts { name := conf.name, pkg := conf.modelPackage, content := .interface conf.name ms }
  | request {h n body imports} : parts.model = true → conf.name ≠ "" → h ∈ s.http → JavaMethodName h n →
      JavaMessageClass s conf (capitalize n ++ "Request") h.inputs body →
      JavaFileFor s conf parts { name := capitalize n ++ "Request", pkg := conf.modelPackage, content := .pojo imports "" body }
  | response {h e n body imports} : parts.model = true → conf.name ≠ "" → h ∈ s.http → h.expected = some e → JavaMethodName h n →
      JavaMessageClass s conf (capitalize n ++ "Response") e.outputs body →
      JavaFileFor s conf parts { name := capitalize n ++ "Response", pkg := conf.modelPackage, content := .pojo imports "" body }
  /-- A class for timestamps, where it is used; it is in another package. -/
  | timestamp : parts.model = true → JavaFileFor s conf parts { name := "Timestamp", pkg := conf.pkg, content := .fixed javaTimestampText }
  /-- A class with helpers, where it is used. -/
  | util : parts.model = true → JavaFileFor s conf parts { name := "Util", pkg := conf.modelPackage, content := .fixed javaUtilText }
  | exception : parts.model = true → conf.serviceException = true →
      JavaFileFor s conf parts { name := "ServiceException", pkg := conf.modelPackage, content := .fixed javaExceptionText }
  | resources {rs} : parts.server = true → List.Forall₂ (JavaResourceFor s conf) s.http rs →
      JavaFileFor s conf parts
        { name := capitalize s.name ++ "Resources", pkg := conf.serverPackage, content := .fixed (javaResourcesText conf (capitalize s.name) (JavaRoot s) rs) }
  | main {instant} : parts.server = true → parts.impl = true →
      JavaFileFor s conf parts { name := "Main", pkg := "", content := .fixed (javaMainText conf (capitalize s.name) instant) }
  | controller {ms} : parts.server = true → parts.impl = true → JavaMethodsFor s.http ms →
      JavaFileFor s conf parts
        { name := capitalize s.name ++ "Controller", pkg := "", content := .fixed (javaImplText conf (capitalize s.name) ms) }
  | clientConfig : parts.client = true →
      JavaFileFor s conf parts { name := "ClientConfig", pkg := conf.clientPackage, content := .fixed javaClientConfigText }
  | client {cs} : parts.client = true → List.Forall₂ (JavaCallFor s conf) s.http cs →
      JavaFileFor s conf parts
        { name := capitalize s.name ++ "Client", pkg := conf.clientPackage, content := .fixed (javaClientText conf (capitalize s.name) (JavaRoot s) s.http cs) }
  | pom : parts.maven = true →
      JavaFileFor s conf parts { name := "pom", pkg := "", content := .pom (javaPomText conf.domain conf.name conf.lombok) }

/-- The classes that there must be, by package and name. -/
inductive JavaWanted (s : Schema) (conf : JavaConf) (parts : JavaParts) : String → String → Prop
  | type {td} : parts.model = true → td ∈ s.types → td.ts.type ∈ ["Struct", "Enum", "Union", "UnitValue"] →
      JavaWanted s conf parts conf.modelPackage (capitalize td.name)
  | interface : parts.model = true → conf.name ≠ "" → JavaWanted s conf parts conf.modelPackage conf.name
  | request {h n} : parts.model = true → conf.name ≠ "" → h ∈ s.http → JavaMethodName h n →
      JavaWanted s conf parts conf.modelPackage (capitalize n ++ "Request")
  | response {h n} : parts.model = true → conf.name ≠ "" → h ∈ s.http → JavaMethodName h n →
      JavaWanted s conf parts conf.modelPackage (capitalize n ++ "Response")
  | exception : parts.model = true → conf.serviceException = true → JavaWanted s conf parts conf.modelPackage "ServiceException"
  | resources : parts.server = true → JavaWanted s conf parts conf.serverPackage (capitalize s.name ++ "Resources")
  | main : parts.server = true → parts.impl = true → JavaWanted s conf parts "" "Main"
  | controller : parts.server = true → parts.impl = true → JavaWanted s conf parts "" (capitalize s.name ++ "Controller")
  | clientConfig : parts.client = true → JavaWanted s conf parts conf.clientPackage "ClientConfig"
  | client : parts.client = true → JavaWanted s conf parts conf.clientPackage (capitalize s.name ++ "Client")

/-- The classes of the types and of the messages can be written. -/
structure JavaModelReady (s : Schema) (conf : JavaConf) : Prop where
  exceptions : conf.serviceException = false → ∀ h ∈ s.http, ∀ x ∈ h.exceptions, ∃ t, JavaBare s conf.instants x.type true t
  types : ∀ td ∈ s.types, td.name ≠ "" ∧ (td.ts.type ∈ ["Struct", "Enum", "Union", "UnitValue"] →
    ∃ b : Bool, (b = true ↔ JavaThrowable s conf (capitalize td.name)) ∧
      JavaReady s conf.instants conf.lombok conf.immutable b (capitalize td.name) td.ts)
  actions : conf.name ≠ "" → ∀ h ∈ s.http, ∃ n, JavaMethodName h n ∧ n ≠ "" ∧
    JavaStructReady s conf.instants conf.lombok conf.immutable false (capitalize n ++ "Request") (h.inputs.map HttpParamSpec.field) ∧
    ∃ e, h.expected = some e ∧ JavaEntityReady s conf.instants e ∧
      JavaStructReady s conf.instants conf.lombok conf.immutable false (capitalize n ++ "Response") (e.outputs.map HttpParamSpec.field)

/-- All files can be generated. -/
structure JavaAllReady (s : Schema) (conf : JavaConf) (parts : JavaParts) : Prop where
  model : parts.model = true → JavaModelReady s conf
  server : parts.server = true → s.name ≠ "" ∧ ∀ h ∈ s.http, JavaResourceReady s conf h
  client : parts.client = true → s.name ≠ "" ∧ ∀ h ∈ s.http, JavaCallReady s conf h

end Sadl.Spec
