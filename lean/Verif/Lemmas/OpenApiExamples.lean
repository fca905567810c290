import Verif.Lemmas.OpenApi
import Mathlib.Data.List.Forall2
/-
The loop over the examples of a model changes nothing in the exported document but examples.
-/
namespace Sadl
open Sadl.Spec

/-- The schema without example. -/
def OSchema.bare (s : OSchema) : OSchema := { s with «example» := .null }
/-- The content without examples. -/
def OMedia.bare (mt : OMedia) : OMedia := { schema := mt.schema }
def OParam.bare (p : OParam) : OParam := { p with «example» := .null, examples := [] }
def bareContent (c : GoMap OMedia) : GoMap OMedia := c.map (fun e => (e.1, e.2.bare))
def OResponse.bare (r : OResponse) : OResponse := { r with content := bareContent r.content }
def OBody.bare (b : OBody) : OBody := { b with content := bareContent b.content }
def bareResponses (rs : GoMap OResponse) : GoMap OResponse := rs.map (fun e => (e.1, e.2.bare))
/-- The operation without examples. -/
def OOperation.bare (op : OOperation) : OOperation :=
  { op with parameters := op.parameters.map OParam.bare, requestBody := op.requestBody.map OBody.bare,
            responses := bareResponses op.responses }

theorem map_mset {α β : Type} (f : α → β) (m : GoMap α) (k : String) (v v' : α) (h : mget m k = some v) (hf : f v' = f v) :
    (mset m k v').map (fun e => (e.1, f e.2)) = m.map (fun e => (e.1, f e.2)) := by
  induction m with
  | nil => cases h
  | cons e r ih =>
    obtain ⟨k', w⟩ := e
    unfold mget at h
    unfold mset
    split at h
    · next hk => cases h; simp [hk, hf]
    · next hk => simp [hk, ih h]

theorem mget_map {α β : Type} (f : α → β) (m : GoMap α) (k : String) :
    mget (m.map (fun e => (e.1, f e.2))) k = (mget m k).map f := by
  induction m with
  | nil => rfl
  | cons e r ih =>
    obtain ⟨k', w⟩ := e
    simp only [List.map_cons, mget]
    split
    · rfl
    · exact ih

theorem addExample_bare (name : String) (v : Value) (mt : OMedia) : (mt.addExample name v).bare = mt.bare := by
  unfold OMedia.addExample; split <;> rfl

theorem paramExample_bare (name k : String) (v : Value) (p : OParam) : (paramExample name k v p).bare = p.bare := by
  unfold paramExample
  split
  · split <;> rfl
  · rfl

theorem contentExample_bare {name : String} {v : Value} {c c' : GoMap OMedia} (h : contentExample name v c = .ok c') :
    bareContent c' = bareContent c := by
  unfold contentExample at h
  split at h
  · cases h
  · next mt hm => cases h; exact map_mset OMedia.bare c _ mt _ hm (addExample_bare name v mt)

theorem requestBody_bare {name : String} {v : Value} {op op' : OOperation} (h : requestBodyExample name v op = .ok op') :
    op'.bare = op.bare := by
  unfold requestBodyExample at h
  split at h
  · cases h
  · next b hb =>
    obtain ⟨c, hc, h⟩ := Ran.bind_eq_ok.1 h
    cases h
    simp only [OOperation.bare, hb, Option.map_some, OBody.bare, contentExample_bare hc]

theorem responseBody_bare {m : Model} {hn name : String} {v : Value} {op op' : OOperation}
    (h : responseBodyExample m hn name v op = .ok op') : op'.bare = op.bare := by
  unfold responseBodyExample at h
  split at h
  · cases h
  · split at h
    · cases h
    · next r hr =>
      obtain ⟨c, hc, h⟩ := Ran.bind_eq_ok.1 h
      cases h
      have : bareResponses (mset op.responses _ { r with content := c }) = bareResponses op.responses :=
        map_mset OResponse.bare _ _ r _ hr (by simp only [OResponse.bare, contentExample_bare hc])
      simp only [OOperation.bare, this]

theorem members_bare {body : Value → OOperation → Ran OOperation}
    (hb : ∀ v op op', body v op = .ok op' → op'.bare = op.bare) {name : String} {kvs : List (String × Value)}
    {op op' : OOperation} (h : membersExample body name kvs op = .ok op') : op'.bare = op.bare := by
  induction kvs generalizing op with
  | nil => cases h; rfl
  | cons e r ih =>
    obtain ⟨k, v⟩ := e
    unfold membersExample at h
    split at h
    · obtain ⟨op1, h1, h⟩ := Ran.bind_eq_ok.1 h
      rw [ih h, hb _ _ _ h1]
    · rw [ih h]
      simp only [OOperation.bare, List.map_map]
      congr 1
      apply List.map_congr_left
      intro p _
      exact paramExample_bare name k v p

theorem first_op {pi : OPathItem} {k : OMethod} {op : OOperation} (h : pi.first = some (k, op)) : pi.op k = some op := by
  unfold OPathItem.first at h
  split at h <;> first | cases h; assumption | cases h

theorem findOperation_ok {opId : String} {l : GoMap OPathItem} {p : String} {k : OMethod}
    (h : findOperation opId l = .ok (some (p, k))) : ∃ pi op, (p, pi) ∈ l ∧ pi.op k = some op ∧ op.operationId = opId := by
  induction l with
  | nil => cases h
  | cons e r ih =>
    obtain ⟨q, pi⟩ := e
    unfold findOperation at h
    split at h
    · cases h
    · next k' op hf =>
      split at h
      · next hid => cases h; exact ⟨pi, op, by simp, first_op hf, hid⟩
      · obtain ⟨pi', op', h1, h2⟩ := ih h
        exact ⟨pi', op', by simp [h1], h2⟩

/-- The two documents differ in examples only. -/
structure SameButExamples (d d' : ODoc) : Prop where
  ops : ∀ p k, (pathOp d'.paths p k).map OOperation.bare = (pathOp d.paths p k).map OOperation.bare
  schemas : d'.schemas.map (fun e => (e.1, e.2.bare)) = d.schemas.map (fun e => (e.1, e.2.bare))
  distinct : d'.paths.Distinct
  head : d'.openapi = d.openapi ∧ d'.title = d.title ∧ d'.description = d.description ∧ d'.version = d.version ∧
    d'.license = d.license ∧ d'.servers = d.servers

theorem SameButExamples.refl {d : ODoc} (h : d.paths.Distinct) : SameButExamples d d :=
  ⟨fun _ _ => rfl, rfl, h, rfl, rfl, rfl, rfl, rfl, rfl⟩

theorem SameButExamples.trans {a b c : ODoc} (h1 : SameButExamples a b) (h2 : SameButExamples b c) : SameButExamples a c :=
  ⟨fun p k => (h2.ops p k).trans (h1.ops p k), h2.schemas.trans h1.schemas, h2.distinct,
   h2.head.1.trans h1.head.1, h2.head.2.1.trans h1.head.2.1, h2.head.2.2.1.trans h1.head.2.2.1,
   h2.head.2.2.2.1.trans h1.head.2.2.2.1, h2.head.2.2.2.2.1.trans h1.head.2.2.2.2.1, h2.head.2.2.2.2.2.trans h1.head.2.2.2.2.2⟩

theorem same_setOp {d : ODoc} (hd : d.paths.Distinct) {p : String} {k : OMethod} {op op' : OOperation}
    (h : pathOp d.paths p k = some op) (hb : op'.bare = op.bare) : SameButExamples d (d.setOp p k op') := by
  refine ⟨?_, rfl, distinct_mset hd _ _, rfl, rfl, rfl, rfl, rfl, rfl⟩
  intro q j
  unfold ODoc.setOp
  simp only
  rw [pathOp_mset, op_setOp]
  by_cases hq : q = p
  · subst hq
    by_cases hj : j = k
    · subst hj
      simp [h, hb]
    · simp [hj, pathOp]
  · simp [hq]

theorem exportExample_same {lib : OLib} (hord : ∀ l, (lib.order l).Perm l) {m : Model} {ed : ExampleDef} {d d' : ODoc}
    (hd : d.paths.Distinct) (h : exportExample lib m ed d = .ok d') : SameButExamples d d' := by
  have place : ∀ {id p k}, findOperation id (lib.order d.paths) = .ok (some (p, k)) →
      ∃ op, pathOp d.paths p k = some op ∧ d.opAt p k = some op := by
    intro id p k hf
    obtain ⟨pi, op, h1, h2, _⟩ := findOperation_ok hf
    have := mget_of_mem hd ((hord _).mem_iff.1 h1)
    have h3 : pathOp d.paths p k = some op := by unfold pathOp; rw [this]; exact h2
    exact ⟨op, h3, h3⟩
  unfold exportExample at h
  split at h
  · next s hs =>
    cases h
    refine ⟨fun _ _ => rfl, ?_, hd, rfl, rfl, rfl, rfl, rfl, rfl⟩
    exact map_mset OSchema.bare _ _ s _ hs rfl
  · split at h
    · obtain ⟨x, hx, h⟩ := Ran.bind_eq_ok.1 h
      split at h
      · cases h; exact .refl hd
      · next p k =>
        obtain ⟨op, h1, h2⟩ := place hx
        obtain ⟨kvs, _, h⟩ := Ran.bind_eq_ok.1 h
        obtain ⟨op', h3, h⟩ := Ran.bind_eq_ok.1 h
        cases h
        rw [h2] at h3
        exact same_setOp hd h1 (members_bare (fun _ _ _ => requestBody_bare) h3)
    · split at h
      · obtain ⟨x, hx, h⟩ := Ran.bind_eq_ok.1 h
        split at h
        · cases h
        · next p k =>
          obtain ⟨op, h1, h2⟩ := place hx
          obtain ⟨kvs, _, h⟩ := Ran.bind_eq_ok.1 h
          obtain ⟨op', h3, h⟩ := Ran.bind_eq_ok.1 h
          cases h
          rw [h2] at h3
          exact same_setOp hd h1 (members_bare (fun _ _ _ => responseBody_bare) h3)
      · cases h; exact .refl hd

theorem exportExamples_same {lib : OLib} (hord : ∀ l, (lib.order l).Perm l) {m : Model} {eds : List ExampleDef} {d d' : ODoc}
    (hd : d.paths.Distinct) (h : exportExamples lib m eds d = .ok d') : SameButExamples d d' := by
  induction eds generalizing d with
  | nil => cases h; exact .refl hd
  | cons ed rest ih =>
    unfold exportExamples at h
    obtain ⟨d1, h1, h⟩ := Ran.bind_eq_ok.1 h
    have := exportExample_same hord hd h1
    exact this.trans (ih this.distinct h)

/-! ### What does not depend on examples -/

theorem describes_bare {h : HttpDef} {op : OOperation} : Describes h op.bare ↔ Describes h op := by
  have hresp : ∀ k, mget op.bare.responses k = (mget op.responses k).map OResponse.bare := fun k => mget_map OResponse.bare _ _
  have hpar : List.Forall₂ ParamMatches (h.inputs.filter (fun p => !BodyInput p)) op.bare.parameters ↔
      List.Forall₂ ParamMatches (h.inputs.filter (fun p => !BodyInput p)) op.parameters := by
    unfold OOperation.bare
    simp only [List.forall₂_map_right_iff]
    constructor
    · exact List.Forall₂.imp fun p q hq => ⟨hq.comment, hq.schema, hq.place⟩
    · exact List.Forall₂.imp fun p q hq => ⟨hq.comment, hq.schema, hq.place⟩
  have hbody : op.bare.requestBody.isSome = op.requestBody.isSome := by simp [OOperation.bare]
  have hcont : ∀ (r : OResponse) (k : String), mget r.bare.content k = (mget r.content k).map OMedia.bare :=
    fun r k => mget_map OMedia.bare _ _
  have hexc : ∀ x (r : OResponse), ExceptionMatches x r.bare ↔ ExceptionMatches x r := by
    intro x r
    unfold ExceptionMatches
    rw [hcont]
    constructor
    · rintro ⟨h1, mt, s, h2, h3, h4⟩
      refine ⟨h1, ?_⟩
      cases hm : mget r.content "application/json" with
      | none => rw [hm] at h2; cases h2
      | some mt' => rw [hm] at h2; cases h2; exact ⟨mt', s, rfl, h3, h4⟩
    · rintro ⟨h1, mt, s, h2, h3, h4⟩
      exact ⟨h1, mt.bare, s, by rw [h2]; rfl, h3, h4⟩
  constructor
  · intro hd
    refine ⟨hd.name, hd.comment, hd.resource, hpar.1 hd.params, hbody ▸ hd.body, ?_, ?_⟩
    · obtain ⟨e, he, h1⟩ := hd.expected
      refine ⟨e, he, fun hx => ?_⟩
      obtain ⟨r, h2, h3, h4, h5⟩ := h1 hx
      rw [hresp] at h2
      cases hm : mget op.responses (String.ofList (showInt e.status)) with
      | none => rw [hm] at h2; cases h2
      | some r' =>
        rw [hm] at h2
        cases h2
        rw [hcont] at h4
        exact ⟨r', rfl, h3, by simpa using h4, h5⟩
    · intro hn x hx
      obtain ⟨r, h2, h3⟩ := hd.exceptions hn x hx
      rw [hresp] at h2
      cases hm : mget op.responses (statusKey x.status) with
      | none => rw [hm] at h2; cases h2
      | some r' => rw [hm] at h2; cases h2; exact ⟨r', rfl, (hexc x r').1 h3⟩
  · intro hd
    refine ⟨hd.name, hd.comment, hd.resource, hpar.2 hd.params, hbody.trans hd.body, ?_, ?_⟩
    · obtain ⟨e, he, h1⟩ := hd.expected
      refine ⟨e, he, fun hx => ?_⟩
      obtain ⟨r, h2, h3, h4, h5⟩ := h1 hx
      exact ⟨r.bare, by rw [hresp, h2]; rfl, h3, by rw [hcont]; simpa using h4, h5⟩
    · intro hn x hx
      obtain ⟨r, h2, h3⟩ := hd.exceptions hn x hx
      exact ⟨r.bare, by rw [hresp, h2]; rfl, (hexc x r).2 h3⟩

theorem opSchema_bare {op : OOperation} {s : OSchema} (h : OpSchema op s) : OpSchema op.bare s := by
  cases h with
  | param h1 h2 => exact .param (p := OParam.bare _) (List.mem_map.2 ⟨_, h1, rfl⟩) h2
  | body h1 h2 h3 =>
    exact .body (b := OBody.bare _) (mt := OMedia.bare _) (by simp only [OOperation.bare, h1, Option.map_some])
      (List.mem_map.2 ⟨_, h2, rfl⟩) h3
  | header h1 h2 h3 => exact .header (r := OResponse.bare _) (List.mem_map.2 ⟨_, h1, rfl⟩) h2 h3
  | response h1 h2 h3 =>
    exact .response (r := OResponse.bare _) (mt := OMedia.bare _) (List.mem_map.2 ⟨_, h1, rfl⟩) (List.mem_map.2 ⟨_, h2, rfl⟩) h3

theorem opSchema_of_bare {op : OOperation} {s : OSchema} (h : OpSchema op.bare s) : OpSchema op s := by
  cases h with
  | param h1 h2 =>
    obtain ⟨p, h3, rfl⟩ := List.mem_map.1 h1
    exact .param h3 h2
  | body h1 h2 h3 =>
    cases hb : op.requestBody with
    | none => simp [OOperation.bare, hb] at h1
    | some b =>
      simp only [OOperation.bare, hb, Option.map_some, Option.some.injEq] at h1
      subst h1
      obtain ⟨e, h4, h5⟩ := List.mem_map.1 h2
      cases h5
      exact .body hb h4 h3
  | header h1 h2 h3 =>
    obtain ⟨e, h4, h5⟩ := List.mem_map.1 h1
    cases h5
    exact .header h4 h2 h3
  | response h1 h2 h3 =>
    obtain ⟨e, h4, h5⟩ := List.mem_map.1 h1
    cases h5
    obtain ⟨e', h6, h7⟩ := List.mem_map.1 h2
    cases h7
    exact .response h4 h6 h3

/-- The outcome of a whole export, taken apart. -/
theorem exportOas_ok {n : Nat} {lib : OLib} (hord : ∀ l, (lib.order l).Perm l) {m : Model} {d : ODoc}
    (h : exportOasN n lib m = .ok d) :
    ∃ schemas paths, exportTypesN n lib m m.schema.types [] = .ok schemas ∧ exportHttpN n lib m m.schema.http [] = .ok paths ∧
      paths.Distinct ∧ SameButExamples { exportHead m.schema with schemas := schemas, paths := paths } d := by
  unfold exportOasN at h
  obtain ⟨schemas, h1, h⟩ := Ran.bind_eq_ok.1 h
  obtain ⟨paths, h2, h⟩ := Ran.bind_eq_ok.1 h
  have hd : paths.Distinct := (exportHttp_ok h2).2.2.2.2.2.1 (by simp [GoMap.Distinct])
  exact ⟨schemas, paths, h1, h2, hd, exportExamples_same hord hd h⟩

end Sadl
