import Verif.Model.JavaServer
/-
java/java_client.go: the generated Java client.
-/
namespace Sadl

/-- What the client does with a response that has the expected status. -/
inductive JReturn where
  /-- It returns null. -/
  | nothing
  /-- It builds a response: from the body, if there is one (its name and type), and from headers (the header, the name and the type
  of the output, and whether it is read as an instant). -/
  | value (entity : Option (String × String)) (headers : List (String × String × String))
  deriving Repr, DecidableEq

/-- A method of the client, for one action. -/
structure JCall where
  name : String
  request : String
  response : String
  verb : String
  path : String
  /-- The inputs in the path. -/
  templates : List String
  /-- The inputs in the query: the name in the query and the name of the input. -/
  queries : List (String × String)
  headers : List (String × String)
  /-- The input that is the body of the request. -/
  entity : Option String
  status : Int
  result : JReturn
  /-- The exceptions: the status and the type. -/
  exceptions : List (Int × String)
  deriving Repr, DecidableEq

/-- java/java_client.go:100, 110: `Capitalize` of the names of the inputs that are used. -/
def javaGetters : List HttpParamSpec → Out Unit
  | [] => .ok ()
  | p :: ps => (javaCapitalize p.field.name).bind fun _ => javaGetters ps

/-- java/java_client.go:99-106: the inputs in the query. -/
def javaQueries (ps : List HttpParamSpec) : List (String × String) :=
  (ps.filter fun p => !p.path && p.query ≠ "").map fun p => (p.query, p.field.name)

/-- java/java_client.go:108-113: the inputs in headers. -/
def javaSentHeaders (ps : List HttpParamSpec) : List (String × String) :=
  (ps.filter fun p => p.header ≠ "").map fun p => (p.header, p.field.name)

/-- java/java_client.go:114-123: the body of the request. -/
def javaSent (h : HttpDef) : Out (Option String) :=
  if h.method = "PUT" ∨ h.method = "POST" then
    (javaActionInfo h).bind fun i => (javaCapitalize i.1).bind fun _ => .ok (some i.1)
  else if h.method = "GET" ∨ h.method = "DELETE" then .ok none
  else .panic ("fix me: method = " ++ h.method)

/-- java/java_client.go:133-139: the outputs in headers. -/
def javaReadHeaders (m : Model) (conf : JavaConf) : List HttpParamSpec → Out (List (String × String × String))
  | [] => .ok []
  | p :: ps =>
    if p.header ≠ "" then
      (javaType m conf none p.field.ts.type true).bind fun t =>
      (javaReadHeaders m conf ps).bind fun xs => .ok ((p.header, p.field.name, t.type.text) :: xs)
    else javaReadHeaders m conf ps

/-- java/java_client.go:126-151: what is returned. -/
def javaReturn (m : Model) (conf : JavaConf) (h : HttpDef) (e : HttpExpectedSpec) : Out JReturn :=
  if e.outputs = [] then .ok .nothing
  else
    (javaEntity m conf h).bind fun ent =>
    (javaReadHeaders m conf e.outputs).bind fun hs =>
    (javaResponseType h.name).bind fun _ =>
    .ok (.value (if ent.2.1.text = "void" then none else some (ent.1, ent.2.1.text)) hs)

/-- java/java_client.go:77-81 `handlerSig`, 93-161 `handlerBody`: the method for an action.  The class of the response is named
after `hact.Name` in one place (line 140) and after the action's name in another; for a name that is not empty these are the same. -/
def javaCall (m : Model) (conf : JavaConf) (h : HttpDef) : Out JCall :=
  (javaActionName h).bind fun name =>
  (javaResponseType name).bind fun res =>
  (javaRequestType name).bind fun req =>
  (javaGetters h.inputs).bind fun _ =>
  (javaSent h).bind fun ent =>
  match h.expected with
  | none => .panic nilDeref
  | some e =>
    (javaReturn m conf h e).bind fun r =>
    .ok { name := name, request := req, response := res, verb := h.method, path := javaPath h.path,
          templates := (h.inputs.filter (·.path)).map (·.field.name), queries := javaQueries h.inputs,
          headers := javaSentHeaders h.inputs, entity := ent, status := e.status, result := r,
          exceptions := h.exceptions.map fun x => (x.status, x.type) }

/-- java/java_client.go:204-207 `clientTemplate`: the methods. -/
def javaCalls (m : Model) (conf : JavaConf) : List HttpDef → Out (List JCall)
  | [] => .ok []
  | h :: hs => (javaCall m conf h).bind fun x => (javaCalls m conf hs).bind fun xs => .ok (x :: xs)

/-! ### Text -/

/-- java/java_client.go:66-73 `fromString`. -/
def javaFromString (type val : String) : String := if type = "Instant" then "Instant.parse(" ++ val ++ ")" else val

/-- java/java_client.go:93-161 `handlerBody`: the text of the body of a method. -/
def JCall.body (inputs : List HttpParamSpec) (c : JCall) : String :=
  let get := fun n => "req.get" ++ capitalize n ++ "()"
  "        WebTarget target = client.target(config.getTarget()).path(\"" ++ c.path ++ "\")" ++
  -- in the order of the inputs
  catAll (inputs.map fun p =>
    if p.path then "\n            .resolveTemplate(\"" ++ p.field.name ++ "\", " ++ get p.field.name ++ ", true)"
    else if p.query ≠ "" then "\n            .queryParam(\"" ++ p.query ++ "\", " ++ get p.field.name ++ ")"
    else "") ++
  ";\n        Invocation.Builder inv = target.request(MediaType.APPLICATION_JSON)" ++
  catAll (c.headers.map fun h => "\n            .header(\"" ++ h.1 ++ "\", " ++ get h.2 ++ ")") ++
  ";\n        Response response = inv." ++ lowerAscii c.verb ++ "(" ++
  (match c.entity with | some n => "Entity.entity(" ++ get n ++ ", MediaType.APPLICATION_JSON)" | none => "") ++ ");\n" ++
  "        switch (response.getStatus()) {\n" ++
  "        case " ++ toString c.status ++ ":\n" ++
  (match c.result with
   | .nothing => "            return null; //shoudn't this be void?!\n"
   | .value ent hs =>
     (match ent with
      | some (n, t) => "            " ++ t ++ " " ++ n ++ " = response.readEntity(" ++ t ++ ".class);\n"
      | none => "") ++
     catAll (hs.map fun (h, n, t) =>
       "            " ++ t ++ " " ++ n ++ " = " ++ javaFromString t ("response.getHeaderString(\"" ++ h ++ "\")") ++ ";\n") ++
     "            return " ++ c.response ++ ".builder()\n" ++
     (match ent with | some (n, _) => "                ." ++ n ++ "(" ++ n ++ ")\n" | none => "") ++
     catAll (hs.map fun (_, n, _) => "                ." ++ n ++ "(" ++ n ++ ")\n") ++
     "                .build();\n") ++
  catAll (c.exceptions.map fun x =>
    "        case " ++ toString x.1 ++ ":\n" ++ "            throw response.readEntity(" ++ x.2 ++ ".class);\n") ++
  "        default:\n" ++
  "            throw new RuntimeException(\"Unexpected service response status: \" + response.getStatus());\n" ++
  "        }\n"

/-- java/java_client.go:184-209 `clientTemplate`: the text of the client.  `name` is the name of the service. -/
def javaClientText (conf : JavaConf) (name root : String) (https : List HttpDef) (cs : List JCall) : String :=
  "\n" ++ (if conf.modelPackage ≠ "" then "import " ++ conf.modelPackage ++ ".*;" else "") ++ "\n" ++
  "import java.time.Instant;\n" ++ "import javax.ws.rs.client.Client;\n" ++ "import javax.ws.rs.client.ClientBuilder;\n" ++
  "import javax.ws.rs.client.Entity;\n" ++ "import javax.ws.rs.client.WebTarget;\n" ++ "import javax.ws.rs.client.Invocation;\n" ++
  "import javax.ws.rs.core.MediaType;\n" ++ "import javax.ws.rs.core.Response;\n" ++ "import javax.ws.rs.WebApplicationException;\n\n" ++
  "public class " ++ name ++ "Client implements " ++ name ++ " {\n" ++
  "    private static Client client = ClientBuilder.newClient();\n" ++
  "    private static final String base = \"" ++ root ++ "\";\n" ++
  "    private ClientConfig config;\n\n" ++
  "    public " ++ name ++ "Client(ClientConfig conf) {\n" ++
  "        config = conf;\n" ++
  "    }\n" ++
  catAll ((https.zip cs).map fun (h, c) =>
    "\n    public " ++ c.response ++ " " ++ c.name ++ "(" ++ c.request ++ " req) {\n" ++ c.body h.inputs ++ "    }\n") ++
  "\n}\n"

/-- java/java_client.go:25-34 `CreateClient`, 36-54 `CreateClientDataAndFuncMap`, 166-176 `CreateClientConfig`: the steps of the
client. -/
def javaClient (m : Model) (conf : JavaConf) : List JavaStep :=
  let name := capitalize m.schema.name
  let root := if m.schema.base = "" then "/" else m.schema.base
  [.check ((javaCapitalize m.schema.name).bind fun _ => .ok ()),
   .file (.ok { name := "ClientConfig", pkg := conf.clientPackage, content := .fixed javaClientConfigText }),
   .file ((recovered (javaCalls m conf m.schema.http)).bind fun cs =>
     .ok { name := name ++ "Client", pkg := conf.clientPackage,
           content := .fixed (javaClientText conf name root m.schema.http cs) })]

end Sadl
