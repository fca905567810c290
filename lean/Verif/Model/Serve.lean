import Verif.Model.HttpTrace
import Verif.Model.Text
/-
cmd/sadl/serve.go: the server that shows the OpenAPI document of a model in the Swagger user interface.

The export of the document, the zip format, the network and `http.ListenAndServe` are not modelled: the document is a text, the archive
a list of entries, and requests are `GET` requests without conditions and ranges.
-/
namespace Sadl
namespace Serve

/-- An entry of the archive, in the order of the archive; the contents are missing if `Open` fails. -/
structure Entry where
  name : List Char
  content : Option (List Char)

/-- cmd/sadl/serve.go:45-46: is this the entry that determines the prefix? -/
def isDist (f : Entry) : Bool :=
  match splitAll '/' f.name with
  | _ :: second :: _ => decide (second = "dist".toList)
  | _ => false

/-- cmd/sadl/serve.go:43-50: `prefix`. -/
def distPrefix (archive : List Entry) : List Char :=
  match archive.find? isDist with
  | some f => joinWith '/' ((splitAll '/' f.name).take 2)
  | none => "swagger-ui-3.43.0/dist/".toList

/-- cmd/sadl/serve.go:52-57: the map `files`, as the list of the assignments that were made, the last one first. -/
def distFiles (archive : List Entry) : List (List Char × Entry) :=
  let pre := distPrefix archive
  archive.foldl (fun files f => if pre.isPrefixOf f.name then (f.name.drop pre.length, f) :: files else files) []

/-- The effects of a request. -/
inductive Answer where
  /-- `http.ServeContent` with the reader of the document -/
  | document
  /-- `http.ServeContent` with these contents -/
  | content (text : List Char)
  | notFound
  /-- `rc` is nil after `Open` failed: the handler panics after the status 500 was sent -/
  | crash

/-- cmd/sadl/serve.go:73: the text that is replaced in the index file. -/
def petstoreUrl : List Char := "https://petstore.swagger.io/v2/swagger.json".toList

/-- cmd/sadl/serve.go:30: `apiName`. -/
def apiName (modelName : List Char) : List Char := modelName ++ ".json".toList

/-- cmd/sadl/serve.go:66-84: the files of the archive. -/
def serveFile (api : List Char) (files : List (List Char × Entry)) (path : List Char) : Answer :=
  match files.lookup path with
  | none => .notFound
  | some f =>
    match f.content with
    | none => .crash
    | some data => if path = "/index.html".toList then .content (replaceAll petstoreUrl api data) else .content data

/-- cmd/sadl/serve.go:59-85: the function that handles requests.  Go's `strings.HasSuffix(path, ".json")` is written with lists. -/
def handle (api : List Char) (files : List (List Char × Entry)) (path : List Char) : Answer :=
  if path = "/".toList then serveFile api files "/index.html".toList
  else if ".json".toList.isSuffixOf path then .document
  else serveFile api files path

/-- cmd/sadl/serve.go:21-87 `serveSwaggerUi`: the answer to a request for a path. -/
def serve (modelName : List Char) (archive : List Entry) (path : List Char) : Answer :=
  handle (apiName modelName) (distFiles archive) path

/-! ### The document under concurrent requests -/

/-- How far a call of `http.ServeContent` with the reader of the document (cmd/sadl/serve.go:63) has got.  It seeks to the end to know
the size, then to the start, and then copies that many bytes, read by read, until it has them or a read reports the end. -/
inductive Phase where
  | start
  | sized (size : Nat)
  | copying (left : Nat)
  | done
  deriving DecidableEq

/-- A request and the bytes it has sent. -/
structure Request (α : Type) where
  phase : Phase := .start
  out : List α := []

/-- The state of the server: the document, the position of the only reader of it (`docContent`, cmd/sadl/serve.go:28), which all requests
share, and the requests, of which each has a number. -/
structure Server (α : Type) where
  doc : List α
  pos : Nat := 0
  reqs : Nat → Request α := fun _ => {}

def Server.setReq {α : Type} (s : Server α) (i : Nat) (r : Request α) : Server α :=
  { s with reqs := fun j => if j = i then r else s.reqs j }

/-- One step of request `i`, which reads at most `k + 1` bytes at a time: `Seek` and `Read` of `bytes.Reader`.  Requests are served
concurrently (`http.Serve` starts a goroutine for each connection); a step is taken to be atomic, although `bytes.Reader` does not
synchronise anything. -/
def Server.step {α : Type} (s : Server α) (i k : Nat) : Server α :=
  let r := s.reqs i
  match r.phase with
  | .start => { s.setReq i { r with phase := .sized s.doc.length } with pos := s.doc.length }
  | .sized size => { s.setReq i { r with phase := .copying size } with pos := 0 }
  | .copying 0 => s.setReq i { r with phase := .done }
  | .copying (left + 1) =>
    if s.doc.length ≤ s.pos then s.setReq i { r with phase := .done }
    else
      let n := min (min (k + 1) (left + 1)) (s.doc.length - s.pos)
      { s.setReq i { phase := .copying (left + 1 - n), out := r.out ++ (s.doc.drop s.pos).take n } with pos := s.pos + n }
  | .done => s

/-- A schedule: which request makes a step, and how much it may read. -/
def Server.run {α : Type} (s : Server α) (schedule : List (Nat × Nat)) : Server α :=
  schedule.foldl (fun s x => s.step x.1 x.2) s

/-! ### The cached archive -/

/-- What `os.Stat` and the file system have at a path. -/
inductive Node (α : Type) where
  | absent
  | dir
  | file (content : List α)
  /-- `os.Stat` fails for another reason than that there is no such file -/
  | unreadable

/-- cmd/sadl/main.go:175-181 `fileExists`: the result of `os.Stat` is nil if it fails for another reason. -/
def fileExists {α : Type} : Node α → Out Bool
  | .absent => .ok false
  | .dir => .ok false
  | .file _ => .ok true
  | .unreadable => .panic "nil FileInfo"

/-- What the network does when the archive is fetched: `http.Get` fails, or there is a response, of any status; its body may fail
while it is read. -/
inductive Fetch (α : Type) where
  | fails
  | response (status : Nat) (body : List α) (complete : Bool)

/-- What the file system does when the archive is written: the file cannot be opened; or a number of bytes gets written, and then
the process goes on, or is killed. -/
inductive Write where
  | cannotOpen
  | writes (count : Nat) (killed : Bool)

/-- How a call ends: with a path, with an error, or not at all. -/
inductive Cached where
  | ok
  | error
  | killed
  | panic
  deriving DecidableEq

/-- cmd/sadl/serve.go:90-98: the path of the cached archive, from the environment. -/
def cachePath (release directory home : String) : String :=
  let version := if release = "" then "v3.43.0" else release
  let dir := if directory = "" then home ++ "/Downloads" else directory
  dir ++ "/" ++ version ++ ".zip"

/-- cmd/sadl/serve.go:99-112: the part of `cacheSwaggerDist` that uses the file at the path; the result is what is there afterwards,
whether the network was used, and how the call ends. -/
def cacheDist {α : Type} (node : Node α) (net : Fetch α) (w : Write) : Node α × Bool × Cached :=
  match fileExists node with
  | .panic _ => (node, false, .panic)
  | .err _ => (node, false, .error)
  | .ok true => (node, false, .ok)
  | .ok false =>
    match net with
    | .fails => (node, true, .error)
    | .response _ _ false => (node, true, .error)
    | .response _ body true =>
      match node, w with
      | .dir, _ => (node, true, .error)
      | _, .cannotOpen => (node, true, .error)
      | _, .writes n killed =>
        (.file (body.take n), true, if killed then .killed else if n < body.length then .error else .ok)

/-- Runs of the command, one after the other: what is at the path in the end, and how each run's call ended. -/
def cacheRuns {α : Type} (node : Node α) : List (Fetch α × Write) → Node α × List Cached
  | [] => (node, [])
  | (net, w) :: rest =>
    let r := cacheDist node net w
    let rs := cacheRuns r.1 rest
    (rs.1, r.2.2 :: rs.2)

end Serve
end Sadl
