import Verif.Model.JavaExport
/-
java/java_server.go: the JAX-RS resources of the generated Java server.
-/
namespace Sadl

/-- Where the value of a parameter of a resource method comes from (java/java_server.go:196-202). -/
inductive JBind where
  | query (name : String)
  | header (name : String)
  | path (name : String)
  | entity
  deriving Repr, DecidableEq

/-- A parameter of a resource method. -/
structure JParam where
  bind : JBind
  default : Option String := none
  type : JTy
  name : String
  deriving Repr, DecidableEq

/-- A method of the resources, for one action. -/
structure JResource where
  verb : String
  path : String
  name : String
  request : String
  response : String
  params : List JParam
  status : Int
  /-- Whether the result of the implementation is looked at. -/
  result : Bool
  /-- The headers of the response: their names and those of the outputs. -/
  headers : List (String × String)
  /-- The output that is the body of the response, and whether it is a string that is written as JSON. -/
  entity : Option (String × Bool)
  /-- The exceptions: their Java types and statuses. -/
  exceptions : List (String × Int)
  deriving Repr, DecidableEq

/-- java/java_server.go:122-129 `methodPath`: the path up to the question mark. -/
def javaPath (path : String) : String := String.ofList (path.toList.takeWhile (· ≠ '?'))

/-- java/java_server.go:196-202: the annotation of a parameter. -/
def javaBind (p : HttpParamSpec) : JBind :=
  if p.query ≠ "" then .query p.query
  else if p.header ≠ "" then .header p.header
  else if p.path then .path p.field.name
  else .entity

/-- java/java_server.go:203-215: the default value of a parameter, as text. -/
def javaDefault (conf : JavaConf) (v : Value) : Out (Option String) :=
  match v with
  | .null => .ok none
  | .strPtr s => .ok (some s)
  | .dec d => .ok (some (conf.decText d))
  | .bool b => .ok (some (if b then "true" else "false"))
  | _ => .panic "HERE"

/-- java/java_server.go:190-221 `resourceSig`: a parameter. -/
def javaParam (m : Model) (conf : JavaConf) (p : HttpParamSpec) : Out (JParam × List JNote) :=
  (javaType m conf none p.field.ts.type false).bind fun t =>
  (javaDefault conf p.field.default).bind fun d =>
  .ok ({ bind := javaBind p, default := d, type := t.type, name := p.field.name }, t.notes)

/-- java/java_server.go:190-221 `resourceSig`: the parameters. -/
def javaParams (m : Model) (conf : JavaConf) : List HttpParamSpec → Out (List JParam × List JNote)
  | [] => .ok ([], [])
  | p :: ps =>
    (javaParam m conf p).bind fun x =>
    (javaParams m conf ps).bind fun xs => .ok (x.1 :: xs.1, x.2 ++ xs.2)

/-- java/java_server.go:258-262: the headers of the response. -/
def javaHeaders : List HttpParamSpec → Out (List (String × String))
  | [] => .ok []
  | p :: ps =>
    if p.header ≠ "" then
      (javaCapitalize p.field.name).bind fun _ =>
      (javaHeaders ps).bind fun xs => .ok ((p.header, p.field.name) :: xs)
    else javaHeaders ps

/-- java/java_server.go:279-295, 306-311: the exceptions, with their Java types. -/
def javaThrown (m : Model) (conf : JavaConf) : List HttpExceptionSpec → Out (List (String × Int) × List JNote)
  | [] => .ok ([], [])
  | x :: xs =>
    (javaType m conf none x.type true).bind fun t =>
    (javaThrown m conf xs).bind fun r => .ok ((t.type.text, x.status) :: r.1, t.notes ++ r.2)

/-- java/java_server.go:249-256: the body of the response; its getter needs a name. -/
def javaBodyOf (conf : JavaConf) (ename : String) (etype : JTy) : Out (Option (String × Bool)) :=
  if ename ≠ "void" ∧ ename ≠ "" then
    if conf.immutable then (javaCapitalize ename).bind fun _ => .ok (some (ename, decide (etype.text = "String")))
    else .ok (some (ename, decide (etype.text = "String")))
  else .ok none

/-- java/java_server.go:122-129 `methodPath`, 190-221 `resourceSig`, 222-318 `resourceBody`: the method for an action. -/
def javaResource (m : Model) (conf : JavaConf) (h : HttpDef) : Out (JResource × List JNote) :=
  (javaActionName h).bind fun name =>
  (javaParams m conf h.inputs).bind fun ps =>
  (javaRequestType name).bind fun req =>
  (javaResponseType name).bind fun res =>
  (javaEntity m conf h).bind fun ent =>
  match h.expected with
  | none => .panic nilDeref
  | some e =>
    (if e.outputs ≠ [] then
      (javaBodyOf conf ent.1 ent.2.1).bind fun b => (javaHeaders e.outputs).bind fun hs => .ok (true, hs, b)
     else .ok (false, [], none)).bind fun out =>
    (javaThrown m conf h.exceptions).bind fun xs =>
    .ok ({ verb := h.method, path := javaPath h.path, name := name, request := req, response := res, params := ps.1,
           status := e.status, result := out.1, headers := out.2.1, entity := out.2.2, exceptions := xs.1 },
         ps.2 ++ ent.2.2 ++ xs.2)

/-- java/java_server.go:391-398 `resourcesTemplate`: the methods. -/
def javaResources (m : Model) (conf : JavaConf) : List HttpDef → Out (List JResource × List JNote)
  | [] => .ok ([], [])
  | h :: hs =>
    (javaResource m conf h).bind fun x =>
    (javaResources m conf hs).bind fun xs => .ok (x.1 :: xs.1, x.2 ++ xs.2)

/-! ### Text -/

/-- java/java_server.go:190-221 `resourceSig`: the text of a parameter. -/
def JParam.text (p : JParam) : String :=
  (match p.default with | some d => "@DefaultValue(\"" ++ goQuote d ++ "\") " | none => "") ++
  (match p.bind with
   | .query n => "@QueryParam(\"" ++ n ++ "\") "
   | .header n => "@HeaderParam(\"" ++ n ++ "\") "
   | .path n => "@PathParam(\"" ++ n ++ "\") "
   | .entity => "") ++
  p.type.text ++ " " ++ p.name

/-- java/java_server.go:273-304: what is done about a `ServiceException`. -/
def javaServiceCatch (xs : List (String × Int)) : String :=
  let ys := xs.filter (·.1 ≠ "ServiceException")
  let none204 := fun (x : String × Int) => x.2 = 204 ∨ x.2 = 304
  "        } catch (ServiceException se) {\n" ++
  "            Object entity = se.entity == null? se : se.entity;\n" ++
  "            int status = 500;\n" ++
  catAll (ys.mapIdx fun i x =>
    (if i = 0 then "            if (entity instanceof " ++ x.1 ++ ") {\n" else "            } else if (entity instanceof " ++ x.1 ++ ") {\n") ++
    "                status = " ++ toString x.2 ++ ";\n" ++
    (if none204 x then "                entity = null;\n" else "")) ++
  (if ys ≠ [] then "            }\n" else "") ++
  (if ys.any none204 then
    "            if (entity == null) {\n" ++ "                throw new WebApplicationException(status);\n" ++ "            }\n" else "") ++
  "            throw new WebApplicationException(Response.status(status).entity(entity).build());\n"

/-- java/java_server.go:222-318 `resourceBody`, 492-500 `jsonWrapper`: the text of the body of a method. -/
def JResource.body (conf : JavaConf) (r : JResource) : String :=
  let impl := uncapitalize conf.name ++ "Controller"
  "        " ++ r.request ++ " req = " ++ (if conf.immutable then r.request ++ ".builder()" else "new " ++ r.request ++ "()") ++
  catAll (r.params.map fun p => "." ++ p.name ++ "(" ++ p.name ++ ")") ++
  (if conf.immutable then ".build()" else "") ++ ";\n" ++
  "        try {\n" ++
  (if r.result then
    "            " ++ r.response ++ " res = " ++ impl ++ "." ++ r.name ++ "(req);\n" ++
    "            return Response.status(" ++ toString r.status ++ ")" ++
    catAll (r.headers.map fun h => ".header(\"" ++ h.1 ++ "\", res.get" ++ capitalize h.2 ++ "())") ++
    (match r.entity with
     | some (n, json) =>
       let v := if conf.immutable then "res.get" ++ capitalize n ++ "()" else "res." ++ n
       ".entity(" ++ (if json then "Util.toJson(" ++ v ++ ")" else v) ++ ")"
     | none => "") ++
    ".build();\n"
   else
    "            " ++ impl ++ "." ++ r.name ++ "(req);\n" ++
    "            return Response.status(" ++ toString r.status ++ ").build();\n") ++
  (if conf.serviceException then javaServiceCatch r.exceptions
   else catAll (r.exceptions.map fun x =>
    "        } catch (" ++ x.1 ++ " e) {\n" ++
    "                throw new WebApplicationException(Response.status(" ++ toString x.2 ++ ").entity(e).build());\n")) ++
  "        } catch (Throwable th) {\n" ++
  "            return Response.status(500).build();\n" ++
  "        }\n"

/-- java/java_server.go:373-401 `resourcesTemplate`: the text of the resources.  `name` is the name of the service. -/
def javaResourcesText (conf : JavaConf) (name root : String) (rs : List JResource) : String :=
  "\n" ++ (if conf.modelPackage ≠ "" then "import " ++ conf.modelPackage ++ ".*;" else "") ++ "\n" ++
  "import java.util.*;\n" ++ "import java.time.Instant;\n" ++ "import javax.inject.Inject;\n" ++ "import javax.ws.rs.*;\n" ++
  "import javax.ws.rs.core.*;\n" ++ "import static javax.ws.rs.core.Response.Status;\n" ++
  "import com.fasterxml.jackson.annotation.JsonInclude;\n" ++ "import com.fasterxml.jackson.annotation.JsonInclude.Include;\n" ++
  "import com.fasterxml.jackson.databind.ObjectMapper;\n" ++ "import com.fasterxml.jackson.databind.SerializationFeature;\n" ++
  "import com.fasterxml.jackson.databind.DeserializationFeature;\n\n" ++
  "@Path(\"" ++ root ++ "\")\n" ++
  "public class " ++ name ++ "Resources {\n" ++
  "    @Inject\n" ++
  "    private " ++ name ++ " " ++ uncapitalize name ++ "Controller;\n" ++
  catAll (rs.map fun r =>
    "\n    \n    @" ++ r.verb ++ "\n    @Path(\"" ++ r.path ++ "\")\n    @Produces(MediaType.APPLICATION_JSON)\n" ++
    "    public Response " ++ r.name ++ "(" ++ String.intercalate ", " (r.params.map JParam.text) ++ ") {\n" ++
    r.body conf ++ "    }\n") ++
  "\n\n}\n"

/-- java/java_server.go:327-371 `mainTemplate`: the text of the launcher.  `ServerData.Interfaces` is never filled, so that
`implConstructors` and `implDecls` are empty. -/
def javaMainText (conf : JavaConf) (name : String) (instant : Bool) : String :=
  "\nimport org.eclipse.jetty.server.Server;\n" ++ "import org.glassfish.jersey.jetty.JettyHttpContainerFactory;\n" ++
  "import org.glassfish.jersey.server.ResourceConfig;\n" ++ "import org.glassfish.jersey.logging.LoggingFeature;\n" ++
  "import org.glassfish.hk2.utilities.binding.AbstractBinder;\n" ++ "import org.glassfish.jersey.jackson.JacksonFeature;\n" ++
  "import javax.ws.rs.core.UriBuilder;\n" ++ "import java.io.IOException;\n" ++ "import java.net.URI;\n" ++
  "import java.util.logging.Logger;\n" ++ "import java.util.logging.Level;\n" ++
  (if conf.modelPackage ≠ "" then "import " ++ conf.modelPackage ++ ".*;" else "") ++ "\n" ++
  (if conf.serverPackage ≠ "" then "import " ++ conf.serverPackage ++ ".*;" else "") ++ "\n\n" ++
  "// A placeholder implementation and launcher for the service\n" ++
  "public class Main {\n" ++
  "    public static String BASE_URI = \"http://localhost:8000/\";\n" ++
  "    public static void main(String[] args) {\n" ++
  "        try {\n" ++
  "            Server server = startServer();\n" ++
  "            server.join();\n" ++
  "        } catch (Exception e) {\n" ++
  "            System.err.println(\"*** \" + e);\n" ++
  "        }\n" ++
  "    }\n" ++
  "    public static Server startServer() throws Exception {\n" ++
  "        URI baseUri = UriBuilder.fromUri(BASE_URI).build();\n" ++
  "        ResourceConfig config = new ResourceConfig(" ++ name ++ "Resources.class);\n" ++
  "        config.register(new LoggingFeature(Logger.getLogger(LoggingFeature.DEFAULT_LOGGER_NAME),\n" ++
  "                                           Level.INFO, LoggingFeature.Verbosity.PAYLOAD_ANY, 10000));\n" ++
  "        " ++ (if instant then "config.register(Util.InstantConverterProvider.class);\n        " else "") ++
  "config.registerInstances(new AbstractBinder() {\n" ++
  "                @Override\n" ++
  "                protected void configure() {\n" ++
  "                    bind(" ++ name ++ "Controller.class).to(" ++ name ++ ".class);\n" ++
  "                }\n" ++
  "            });\n" ++
  "        Server server = JettyHttpContainerFactory.createServer(baseUri, config);\n" ++
  "        server.start();\n" ++
  "        System.out.println(String.format(\"Service started at %s\", BASE_URI));\n" ++
  "        return server;\n" ++
  "    }\n\n" ++
  "}\n"

/-- java/java_server.go:403-414 `implTemplate`: the text of the placeholder for the implementation. -/
def javaImplText (conf : JavaConf) (name : String) (ms : List (String × String × String)) : String :=
  "\n// Stubs for an implementation of the service follow\n" ++
  (if conf.modelPackage ≠ "" then "import " ++ conf.modelPackage ++ ".*;" else "") ++ "\n\n" ++
  "public class " ++ name ++ "Controller implements " ++ name ++ " {\n" ++
  catAll (ms.map fun (n, res, req) =>
    "\n    public " ++ res ++ " " ++ n ++ "(" ++ req ++ " req) {\n" ++
    "        return " ++ (if conf.immutable then res ++ ".builder().build()" else "new " ++ res ++ "()") ++ "; //implement me!\n" ++
    "    }\n") ++
  "\n}\n"

/-- java/java_server.go:41-53 `CreateServer`, 73-100, 321-324 `CreateServerDataAndFuncMap`: the steps of the server.  `impl` is
the setting `example-implementation`. -/
def javaServer (m : Model) (conf : JavaConf) (impl : Bool) (notes : List JNote) : List JavaStep :=
  let name := capitalize m.schema.name
  let root := if m.schema.base = "" then "/" else m.schema.base
  let rs := recovered (javaResources m conf m.schema.http)
  let noted := match rs with | .ok r => notes ++ r.2 | _ => notes
  .check (if m.schema.name = "" then .panic "no model name!" else .ok ()) ::
  .file (rs.bind fun r =>
    .ok { name := name ++ "Resources", pkg := conf.serverPackage, content := .fixed (javaResourcesText conf name root r.1) }) ::
  if impl then
    [.file (.ok { name := "Main", pkg := "", content := .fixed (javaMainText conf name (decide (.instant ∈ noted))) }),
     .file ((recovered (javaMethods m.schema.http)).bind fun ms =>
       .ok { name := name ++ "Controller", pkg := "", content := .fixed (javaImplText conf name ms) })]
  else []

end Sadl
