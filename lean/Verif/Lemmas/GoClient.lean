import Verif.Spec.GoClient
import Verif.Lemmas.GoServerRules
/-
The generated Go client as an explicit function of the schema.
-/
namespace Sadl
open Sadl.Spec

/-- The argument for an input in the query. -/
def argOf (m : Model) (p : HttpParamSpec) : GoArg :=
  ⟨capitalize p.field.name, goNotSet m p.field.ts.type, p.field.name, goTypeFormat m p.field.ts.type⟩

/-- What is done for an output. -/
def outputOf (m : Model) (conf : GoConf) (p : HttpParamSpec) : GoOutput :=
  if p.header = "" then .body (capitalize p.field.name) (nativeOf m conf p.field.ts.type).1
  else .header (capitalize p.field.name) p.header ((nativeOf m conf p.field.ts.type).1.text = "*Timestamp")

/-- The field that is the body. -/
def readerOf (hd : HttpDef) : Option String :=
  if hd.method ∈ goBodyVerbs then (hd.inputs.find? BodyInput).map fun p => capitalize p.field.name else none

/-- The method for an action. -/
def callOf (m : Model) (conf : GoConf) (hd : HttpDef) : GoCall :=
  let e := hd.expected.getD {}
  { method := capitalize hd.name, path := goRoutePath hd.path, args := (hd.inputs.filter fun p => p.query ≠ "").map (argOf m)
    verb := hd.method, body := readerOf hd, json := hd.method ∈ goBodyVerbs, status := e.status
    outputs := e.outputs.map (outputOf m conf), cases := hd.exceptions.map fun x => ((nativeOf m conf x.type).1, x.status) }

/-- The notes for an action. -/
def callNotes (m : Model) (conf : GoConf) (hd : HttpDef) : List GoNote :=
  (if (readerOf hd).isSome then [.pack "bytes"] else []) ++ ((hd.expected.getD {}).outputs.flatMap fun p => (nativeOf m conf p.field.ts.type).2) ++
    hd.exceptions.flatMap fun x => (nativeOf m conf x.type).2

/-- The client. -/
def clientOf (m : Model) (conf : GoConf) : GoClient :=
  { pkg := conf.pkg, imports := (m.schema.http.flatMap (callNotes m conf)).foldl addImport goClientImports
    name := capitalize conf.name ++ "Client", calls := m.schema.http.map (callOf m conf) }

theorem goArgs_eq (m : Model) (l : List HttpParamSpec) : goArgs m l = (l.filter fun p => p.query ≠ "").map (argOf m) := by
  induction l with
  | nil => rfl
  | cons f l ih =>
    unfold goArgs
    by_cases hq : f.query = "" <;> simp [hq, ih, argOf]

theorem goReader_eq (l : List HttpParamSpec) : goReader l = (l.find? BodyInput).map fun p => capitalize p.field.name := by
  induction l with
  | nil => rfl
  | cons f l ih =>
    unfold goReader
    by_cases hb : f.path = false ∧ f.query = "" ∧ f.header = ""
    · have hf : BodyInput f = true := by simp [BodyInput, hb]
      rw [if_pos hb, List.find?_cons_of_pos hf]
      rfl
    · have hf : ¬ BodyInput f = true := by simpa [BodyInput] using hb
      rw [if_neg hb, List.find?_cons_of_neg hf, ih]

section
variable {s : Schema} {m : Model} (hm : newModel s = .ok m) (hne : ∀ td ∈ s.types, td.name ≠ "") (conf : GoConf)
include hm hne

theorem goOutputs_ok_iff (l : List HttpParamSpec) (r : List GoOutput × List GoNote) :
    goOutputs m conf l = .ok r ↔ (∀ p ∈ l, p.field.ts.type ≠ "Array" ∧ p.field.ts.type ≠ "Map") ∧
      r = (l.map (outputOf m conf), l.flatMap fun p => (nativeOf m conf p.field.ts.type).2) := by
  induction l generalizing r with
  | nil =>
    constructor
    · intro h; injection h with h; exact ⟨by simp, h.symm⟩
    · rintro ⟨_, rfl⟩; rfl
  | cons f l ih =>
    unfold goOutputs
    simp only [gbind_ok, goNativeType_ok_iff hm hne, ih]
    constructor
    · rintro ⟨_, ⟨h1, rfl⟩, _, ⟨h3, rfl⟩, h4⟩
      injection h4 with h4
      subst h4
      refine ⟨?_, rfl⟩
      intro g hg
      rcases List.mem_cons.1 hg with rfl | hg
      · exact h1
      · exact h3 g hg
    · rintro ⟨h, rfl⟩
      exact ⟨_, ⟨h f (by simp), rfl⟩, _, ⟨fun g hg => h g (by simp [hg]), rfl⟩, rfl⟩

theorem goCall_ok_iff (hd : HttpDef) (r : GoCall × List GoNote) :
    goCall m conf hd = .ok r ↔ GoCallable hd ∧ r = (callOf m conf hd, callNotes m conf hd) := by
  have hreader : (if hd.method ∈ goBodyVerbs then goReader hd.inputs else none) = readerOf hd := by
    unfold readerOf
    rw [goReader_eq]
  unfold goCall callOf callNotes
  simp only [goArgs_eq, hreader]
  cases he : hd.expected with
  | none =>
    constructor
    · intro h; cases h
    · rintro ⟨h, _⟩
      obtain ⟨e, h1, _⟩ := h.expected
      rw [he] at h1; cases h1
  | some e =>
    simp only [gbind_ok, goCases_ok_iff hm hne, goOutputs_ok_iff hm hne]
    constructor
    · rintro ⟨_, ⟨h4, rfl⟩, _, ⟨h5, rfl⟩, h6⟩
      injection h6 with h6; subst h6
      exact ⟨⟨⟨e, he, h4⟩, h5⟩, rfl⟩
    · rintro ⟨h, rfl⟩
      obtain ⟨e', h1, h4⟩ := h.expected
      rw [he] at h1; cases h1
      exact ⟨_, ⟨h4, rfl⟩, _, ⟨h.exceptions, rfl⟩, rfl⟩

theorem goCalls_ok_iff (l : List HttpDef) (r : List GoCall × List GoNote) :
    goCalls m conf l = .ok r ↔ (∀ hd ∈ l, GoCallable hd) ∧ r = (l.map (callOf m conf), l.flatMap (callNotes m conf)) := by
  induction l generalizing r with
  | nil =>
    constructor
    · intro h; injection h with h; exact ⟨by simp, h.symm⟩
    · rintro ⟨_, rfl⟩; rfl
  | cons f l ih =>
    unfold goCalls
    simp only [gbind_ok, goCall_ok_iff hm hne, ih]
    constructor
    · rintro ⟨_, ⟨h1, rfl⟩, _, ⟨h2, rfl⟩, h4⟩
      injection h4 with h4
      subst h4
      refine ⟨?_, rfl⟩
      intro g hg
      rcases List.mem_cons.1 hg with rfl | hg
      · exact h1
      · exact h2 g hg
    · rintro ⟨h, rfl⟩
      exact ⟨_, ⟨h f (by simp), rfl⟩, _, ⟨fun g hg => h g (by simp [hg]), rfl⟩, rfl⟩
end

theorem goClient_ok_iff {m : Model} (hm : newModel m.schema = .ok m) (hne : ∀ td ∈ m.schema.types, td.name ≠ "") (conf : GoConf)
    (cl : GoClient) : goClient m conf = .ok cl ↔ (∀ hd ∈ m.schema.http, GoCallable hd) ∧ cl = clientOf m conf := by
  unfold goClient
  simp only [goTemplate_ok, gbind_ok, goCalls_ok_iff hm hne]
  constructor
  · rintro ⟨_, ⟨h2, rfl⟩, h3⟩
    injection h3 with h3
    exact ⟨h2, h3.symm⟩
  · rintro ⟨h2, rfl⟩
    exact ⟨_, ⟨h2, rfl⟩, rfl⟩

end Sadl
