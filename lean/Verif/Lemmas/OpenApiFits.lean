import Verif.Lemmas.OpenApiRefs
import Verif.Lemmas.Valid
/-
When the examples of a schema can be written to the exported document.
-/
namespace Sadl
open Sadl.Spec

/-! ### What an operation has for the examples -/

/-- The operation has a JSON request body. -/
def OOperation.reqJson (op : OOperation) : Bool := (op.requestBody.bind (fun b => mget b.content "application/json")).isSome
/-- The response of that status has a JSON body. -/
def respJson (rs : GoMap OResponse) (st : String) : Bool := ((mget rs st).bind (fun r => mget r.content "application/json")).isSome

theorem reqJson_bare (op : OOperation) : op.bare.reqJson = op.reqJson := by
  unfold OOperation.reqJson OOperation.bare
  cases op.requestBody with
  | none => rfl
  | some b => simp [OBody.bare, bareContent, mget_map OMedia.bare]

theorem respJson_bare (op : OOperation) (st : String) : respJson op.bare.responses st = respJson op.responses st := by
  unfold respJson OOperation.bare bareResponses
  simp only [mget_map OResponse.bare]
  cases mget op.responses st with
  | none => rfl
  | some r => simp [OResponse.bare, bareContent, mget_map OMedia.bare]

/-- The operation has what the examples of the action need. -/
structure OpFor (h : HttpDef) (op : OOperation) : Prop where
  name : op.operationId = h.name
  request : op.reqJson = h.inputs.any BodyInput
  response : ∀ e, h.expected = some e → respJson op.responses (sprintInt e.status) =
    (e.outputs.any BodyOutput || h.exceptions.any fun x => statusKey x.status == String.ofList (showInt e.status))

theorem opFor_bare {h : HttpDef} {op op' : OOperation} (e : op'.bare = op.bare) (ho : OpFor h op) : OpFor h op' where
  name := by have := congrArg OOperation.operationId e; exact this.trans ho.name
  request := by rw [← reqJson_bare, e, reqJson_bare]; exact ho.request
  response x hx := by rw [← respJson_bare, e, respJson_bare]; exact ho.response x hx

theorem exportInputs_json {conv : TypeSpec → String → Ran OSchema} {ins : List HttpParamSpec} {op op' : OOperation}
    (h : exportInputs conv ins op = .ok op') : op'.reqJson = (op.reqJson || ins.any BodyInput) := by
  induction ins generalizing op with
  | nil => cases h; simp
  | cons p rest ih =>
    unfold exportInputs at h
    obtain ⟨s, hs, h⟩ := Ran.bind_eq_ok.1 h
    rw [ih h, List.any_cons, ← Bool.or_assoc]
    congr 1
    by_cases hp : p.path = true
    · simp [exportInput, hp, BodyInput, OOperation.reqJson]
    · by_cases hq : p.query = ""
      · by_cases hh : p.header = ""
        · simp [exportInput, hp, hq, hh, BodyInput, OOperation.reqJson, jsonContent, mget]
        · simp [exportInput, hp, hq, hh, BodyInput, OOperation.reqJson]
      · simp [exportInput, hp, hq, BodyInput, OOperation.reqJson]

theorem exportExceptions_json (xs : List HttpExceptionSpec) (rs : GoMap OResponse) (st : String) :
    respJson (exportExceptions xs rs) st = (respJson rs st || xs.any fun x => statusKey x.status == st) := by
  induction xs generalizing rs with
  | nil => simp [exportExceptions]
  | cons x rest ih =>
    unfold exportExceptions
    rw [ih, List.any_cons, ← Bool.or_assoc]
    congr 1
    unfold respJson
    rw [mget_mset, exportException_key]
    by_cases h : st = statusKey x.status
    · rw [if_pos h]
      simp [h, exportException, jsonContent, mget]
    · rw [if_neg h]
      have : (statusKey x.status == st) = false := by simpa using fun e => h e.symm
      simp [this]

theorem exportOp_for {conv : TypeSpec → String → Ran OSchema} {h : HttpDef} {op : OOperation}
    (ho : exportOp conv h = .ok op) : OpFor h op := by
  have hn := (exportOp_ok ho).name
  unfold exportOp at ho
  obtain ⟨op1, h1, ho⟩ := Ran.bind_eq_ok.1 ho
  cases he : h.expected with
  | none => rw [he] at ho; simp at ho
  | some e =>
    rw [he] at ho
    obtain ⟨r, h2, ho⟩ := Ran.bind_eq_ok.1 ho
    cases ho
    refine ⟨hn, ?_, ?_⟩
    · have := exportInputs_json h1
      simpa [OOperation.reqJson] using this
    · intro e' he'
      obtain rfl : e = e' := by rw [he] at he'; exact Option.some.inj he'
      simp only
      rw [exportExceptions_json]
      congr 1
      have := (exportOutputs_ok h2).2.1
      simpa [respJson, mget] using this

/-! ### The members of an example -/

theorem members_iff {body : Value → OOperation → Ran OOperation} {P : OOperation → Prop}
    (hpar : ∀ op ps, P { op with parameters := ps } ↔ P op) (hbody : ∀ v op, (∃ op', body v op = .ok op') ↔ P op)
    (hkeep : ∀ v op op', body v op = .ok op' → P op') (name : String) (kvs : List (String × Value)) (op : OOperation) :
    (∃ op', membersExample body name kvs op = .ok op') ↔ ((∃ b, ("body", b) ∈ kvs) → P op) := by
  induction kvs generalizing op with
  | nil => simp [membersExample]
  | cons e rest ih =>
    obtain ⟨k, v⟩ := e
    by_cases hk : k = "body"
    · subst hk
      have e : membersExample body name (("body", v) :: rest) op = (body v op >>= fun o => membersExample body name rest o) := by
        rw [membersExample, if_pos rfl]
      rw [e]
      constructor
      · rintro ⟨op', h⟩ _
        obtain ⟨op1, h1, _⟩ := Ran.bind_eq_ok.1 h
        exact (hbody v op).1 ⟨op1, h1⟩
      · intro h
        obtain ⟨op1, h1⟩ := (hbody v op).2 (h ⟨v, by simp⟩)
        obtain ⟨op', h2⟩ := (ih op1).2 fun _ => hkeep v op op1 h1
        exact ⟨op', Ran.bind_eq_ok.2 ⟨op1, h1, h2⟩⟩
    · have e : membersExample body name ((k, v) :: rest) op =
          membersExample body name rest { op with parameters := op.parameters.map (paramExample name k v) } := by
        rw [membersExample, if_neg hk]
      rw [e, ih, hpar]
      have : (∃ b, ("body", b) ∈ (k, v) :: rest) ↔ ∃ b, ("body", b) ∈ rest := by
        simp [fun b => show ¬ ("body" = k ∧ b = v) from fun h => hk h.1.symm]
      rw [this]

theorem contentExample_iff (name : String) (v : Value) (c : GoMap OMedia) :
    (∃ c', contentExample name v c = .ok c') ↔ (mget c "application/json").isSome = true := by
  unfold contentExample
  cases mget c "application/json" <;> simp

theorem requestBody_iff (name : String) (v : Value) (op : OOperation) :
    (∃ op', requestBodyExample name v op = .ok op') ↔ op.reqJson = true := by
  unfold requestBodyExample OOperation.reqJson
  cases hb : op.requestBody with
  | none => simp
  | some b =>
    simp only [Option.bind_some]
    rw [← contentExample_iff name v b.content]
    constructor
    · rintro ⟨op', h⟩
      obtain ⟨c, hc, _⟩ := Ran.bind_eq_ok.1 h
      exact ⟨c, hc⟩
    · rintro ⟨c, hc⟩
      exact ⟨_, Ran.bind_eq_ok.2 ⟨c, hc, rfl⟩⟩

theorem responseBody_iff {m : Model} {hn : String} {e : HttpExpectedSpec} (he : (m.findHttp hn).bind (·.expected) = some e)
    (name : String) (v : Value) (op : OOperation) :
    (∃ op', responseBodyExample m hn name v op = .ok op') ↔ respJson op.responses (sprintInt e.status) = true := by
  unfold responseBodyExample respJson
  rw [he]
  simp only
  cases hr : mget op.responses (sprintInt e.status) with
  | none => simp
  | some r =>
    simp only [Option.bind_some]
    rw [← contentExample_iff name v r.content]
    constructor
    · rintro ⟨op', h⟩
      obtain ⟨c, hc, _⟩ := Ran.bind_eq_ok.1 h
      exact ⟨c, hc⟩
    · rintro ⟨c, hc⟩
      exact ⟨_, Ran.bind_eq_ok.2 ⟨c, hc, rfl⟩⟩

/-! ### The operation of a path -/

/-- The order in which the operations of a path are looked at. -/
def OMethod.rank : OMethod → Nat
  | .get => 0
  | .put => 1
  | .delete => 2
  | .post => 3
  | .head => 4
  | .patch => 5

theorem first_none {pi : OPathItem} : pi.first = none ↔ ∀ k, pi.op k = none := by
  obtain ⟨g, pu, po, de, he, pa⟩ := pi
  unfold OPathItem.first
  cases g <;> cases pu <;> cases de <;> cases po <;> cases he <;> cases pa <;>
    first
    | (refine ⟨fun _ k => by cases k <;> rfl, fun _ => rfl⟩)
    | (refine ⟨fun h => by simp at h, fun h => ?_⟩
       have h1 := h .get; have h2 := h .put; have h3 := h .delete; have h4 := h .post; have h5 := h .head; have h6 := h .patch
       simp [OPathItem.op] at h1 h2 h3 h4 h5 h6)

theorem first_least {pi : OPathItem} {k : OMethod} {op : OOperation} (h : pi.first = some (k, op)) (j : OMethod)
    (hj : j.rank < k.rank) : pi.op j = none := by
  obtain ⟨g, pu, po, de, he, pa⟩ := pi
  unfold OPathItem.first at h
  cases g <;> cases pu <;> cases de <;> cases po <;> cases he <;> cases pa <;> simp at h <;>
    obtain ⟨rfl, _⟩ := h <;> cases j <;> first | rfl | (simp [OMethod.rank] at hj)

theorem first_of_least {pi : OPathItem} {k : OMethod} {op : OOperation} (h : pi.op k = some op)
    (hl : ∀ j : OMethod, j.rank < k.rank → pi.op j = none) : pi.first = some (k, op) := by
  cases hf : pi.first with
  | none => rw [first_none.1 hf k] at h; cases h
  | some r =>
    obtain ⟨k', op'⟩ := r
    have h1 := first_op hf
    have : k' = k := by
      by_contra hne
      rcases Nat.lt_or_gt_of_ne (show k'.rank ≠ k.rank from fun e => hne (by cases k' <;> cases k <;> first | rfl | (simp [OMethod.rank] at e))) with hlt | hlt
      · rw [hl k' hlt] at h1; cases h1
      · rw [first_least hf k hlt] at h; cases h
    subst this
    rw [h1] at h; cases h; rfl

/-! ### The search for an operation -/

theorem findOperation_all {opId : String} {l : GoMap OPathItem} (hl : ∀ e ∈ l, e.2.first ≠ none) :
    (findOperation opId l = .ok none ∧ ∀ e ∈ l, ∀ k op, e.2.first = some (k, op) → op.operationId ≠ opId) ∨
    ∃ e ∈ l, ∃ k op, findOperation opId l = .ok (some (e.1, k)) ∧ e.2.first = some (k, op) ∧ op.operationId = opId := by
  induction l with
  | nil => exact .inl ⟨rfl, by simp⟩
  | cons e rest ih =>
    obtain ⟨q, pi⟩ := e
    cases hf : pi.first with
    | none => exact absurd hf (hl (q, pi) (by simp))
    | some r =>
      obtain ⟨k, op⟩ := r
      by_cases hid : op.operationId = opId
      · refine .inr ⟨(q, pi), by simp, k, op, ?_, hf, hid⟩
        simp [findOperation, hf, hid]
      · have e1 : findOperation opId ((q, pi) :: rest) = findOperation opId rest := by simp [findOperation, hf, hid]
        rw [e1]
        rcases ih (fun e he => hl e (by simp [he])) with ⟨h1, h2⟩ | ⟨e, he, k', op', h1, h2, h3⟩
        · refine .inl ⟨h1, fun e he k' op' h' => ?_⟩
          rcases List.mem_cons.1 he with rfl | he
          · rw [hf] at h'; cases h'; exact hid
          · exact h2 e he k' op' h'
        · exact .inr ⟨e, by simp [he], k', op', h1, h2, h3⟩

/-- The map with the entries of one key first. -/
def frontOrder (p : String) (l : GoMap OPathItem) : GoMap OPathItem := l.filter (fun e => e.1 == p) ++ l.filter (fun e => !(e.1 == p))

theorem frontOrder_perm (p : String) (l : GoMap OPathItem) : (frontOrder p l).Perm l := List.filter_append_perm _ l

theorem frontOrder_cons {p : String} {pi : OPathItem} {l : GoMap OPathItem} (hd : l.Distinct) (h : (p, pi) ∈ l) :
    ∃ rest, frontOrder p l = (p, pi) :: rest := by
  unfold frontOrder
  have : (p, pi) ∈ l.filter (fun e => e.1 == p) := by simp [h]
  cases hf : l.filter (fun e => e.1 == p) with
  | nil => rw [hf] at this; cases this
  | cons e r =>
    have he : e ∈ l.filter (fun e => e.1 == p) := by rw [hf]; simp
    simp only [List.mem_filter, beq_iff_eq] at he
    obtain ⟨h1, h2⟩ := he
    obtain ⟨q, pi'⟩ := e
    simp only at h2
    subst h2
    have e1 := mget_of_mem hd h1
    have e2 := mget_of_mem hd h
    rw [e1] at e2; cases e2
    exact ⟨_, rfl⟩

/-! ### The paths of a document -/

/-- The paths are those of the actions of the schema, and their operations have what the examples need. -/
structure PathsFor (s : Schema) (paths : GoMap OPathItem) : Prop where
  distinct : paths.Distinct
  keys : ∀ p, p ∈ paths.map Prod.fst ↔ ∃ h ∈ s.http, p = oasPath s.base h
  ops : ∀ p k op, pathOp paths p k = some op → ∃ h ∈ s.http, p = oasPath s.base h ∧ oasMethod h.method = some k
  all : ∀ h ∈ s.http, ∀ k, oasMethod h.method = some k → ∃ op, pathOp paths (oasPath s.base h) k = some op ∧ OpFor h op

theorem exportHttp_keys {n : Nat} {lib : OLib} {m : Model} {hs : List HttpDef} {paths paths' : GoMap OPathItem}
    (h : exportHttpN n lib m hs paths = .ok paths') (p : String) :
    p ∈ paths'.map Prod.fst ↔ p ∈ paths.map Prod.fst ∨ ∃ a ∈ hs, p = oasPath m.schema.base a := by
  have step : ∀ (paths : GoMap OPathItem) (q : String) (pi : OPathItem), p ∈ (mset paths q pi).map Prod.fst ↔ p ∈ paths.map Prod.fst ∨ p = q := by
    intro paths q pi
    rw [keys_mset]
    split
    · next hq => exact ⟨.inl, fun h => h.elim id (fun e => e ▸ hq)⟩
    · simp
  induction hs generalizing paths with
  | nil => cases h; simp
  | cons a rest ih =>
    unfold exportHttpN at h
    simp only at h
    have fin : ∀ pi, exportHttpN n lib m rest (mset paths (oasPath m.schema.base a) pi) = .ok paths' →
        (p ∈ paths'.map Prod.fst ↔ p ∈ paths.map Prod.fst ∨ ∃ b ∈ a :: rest, p = oasPath m.schema.base b) := by
      intro pi h
      refine (ih h).trans ?_
      rw [step]
      simp only [List.mem_cons, exists_eq_or_imp, or_assoc]
    cases hm : oasMethod a.method with
    | none =>
      rw [hm] at h
      obtain ⟨op0, h0, h⟩ := Ran.bind_eq_ok.1 h
      exact fin _ h
    | some k0 =>
      rw [hm] at h
      simp only at h
      cases hop : OPathItem.op ((mget paths (oasPath m.schema.base a)).getD {}) k0 with
      | some x => rw [hop] at h; simp at h
      | none =>
        rw [hop] at h
        obtain ⟨op0, h0, h⟩ := Ran.bind_eq_ok.1 h
        exact fin _ h

theorem exportHttp_for {n : Nat} {lib : OLib} {m : Model} {paths : GoMap OPathItem}
    (h : exportHttpN n lib m m.schema.http [] = .ok paths) : PathsFor m.schema paths := by
  obtain ⟨_, h2, h3, _, _, h6, _⟩ := exportHttp_ok h
  refine ⟨h6 (by simp [GoMap.Distinct]), fun p => ?_, fun p k op hp => ?_, fun a ha k hk => ?_⟩
  · rw [exportHttp_keys h]; simp
  · rcases h3 p k op hp with h | ⟨a, ha, h4, h5, _⟩
    · cases k <;> simp [pathOp, mget, OPathItem.op] at h
    · exact ⟨a, ha, h4, h5⟩
  · obtain ⟨op, h4, h5⟩ := h2 a ha k hk
    exact ⟨op, h4, exportOp_for h5⟩

/-- Changes of examples only. -/
theorem PathsFor.same {s : Schema} {d d' : ODoc} (h : PathsFor s d.paths) (hs : SameButExamples d d')
    (hk : d'.paths.map Prod.fst = d.paths.map Prod.fst) : PathsFor s d'.paths where
  distinct := hs.distinct
  keys p := by rw [hk]; exact h.keys p
  ops p k op ho := by
    have := hs.ops p k
    rw [ho] at this
    obtain ⟨op', h1, _⟩ := Option.map_eq_some_iff.1 this.symm
    exact h.ops p k op' h1
  all a ha k hm := by
    obtain ⟨op, h1, h2⟩ := h.all a ha k hm
    have := hs.ops (oasPath s.base a) k
    rw [h1] at this
    obtain ⟨op', h3, h4⟩ := Option.map_eq_some_iff.1 this
    exact ⟨op', h3, opFor_bare h4 h2⟩

theorem exportExample_keys {lib : OLib} (hord : ∀ l, (lib.order l).Perm l) {m : Model} {ed : ExampleDef} {d d' : ODoc}
    (h : exportExample lib m ed d = .ok d') :
    d'.paths.map Prod.fst = d.paths.map Prod.fst ∧ d'.schemas.map Prod.fst = d.schemas.map Prod.fst := by
  have set : ∀ {id p k} op, findOperation id (lib.order d.paths) = .ok (some (p, k)) →
      (d.setOp p k op).paths.map Prod.fst = d.paths.map Prod.fst := by
    intro id p k op hf
    obtain ⟨pi, _, h1, _, _⟩ := findOperation_ok hf
    have : p ∈ d.paths.map Prod.fst := List.mem_map.2 ⟨_, (hord _).mem_iff.1 h1, rfl⟩
    unfold ODoc.setOp
    simp only
    rw [keys_mset, if_pos this]
  unfold exportExample at h
  split at h
  · next s hs =>
    cases h
    refine ⟨rfl, ?_⟩
    simp only
    rw [keys_mset, if_pos (List.mem_map.2 ⟨_, mget_mem hs, rfl⟩)]
  · split at h
    · obtain ⟨x, hx, h⟩ := Ran.bind_eq_ok.1 h
      split at h
      · cases h; exact ⟨rfl, rfl⟩
      · obtain ⟨kvs, _, h⟩ := Ran.bind_eq_ok.1 h
        obtain ⟨op', h3, h⟩ := Ran.bind_eq_ok.1 h
        cases h
        exact ⟨set _ hx, rfl⟩
    · split at h
      · obtain ⟨x, hx, h⟩ := Ran.bind_eq_ok.1 h
        split at h
        · cases h
        · obtain ⟨kvs, _, h⟩ := Ran.bind_eq_ok.1 h
          obtain ⟨op', h3, h⟩ := Ran.bind_eq_ok.1 h
          cases h
          exact ⟨set _ hx, rfl⟩
      · cases h; exact ⟨rfl, rfl⟩

theorem foremost_iff {s : Schema} {h : HttpDef} : Foremost s h ↔
    ∃ k, oasMethod h.method = some k ∧
      ∀ g ∈ s.http, ∀ j, oasMethod g.method = some j → j.rank < k.rank → oasPath s.base h ≠ oasPath s.base g := by
  have lives : ∀ g, (∀ path, LivesAt s.base h path → ¬ LivesAt s.base g path) ↔ oasPath s.base h ≠ oasPath s.base g := by
    intro g
    constructor
    · intro hh he
      exact hh _ ((livesAt_iff _ _ _).2 rfl) ((livesAt_iff _ _ _).2 he)
    · intro hne path h1 h2
      exact hne (((livesAt_iff _ _ _).1 h1).symm.trans ((livesAt_iff _ _ _).1 h2))
  have split : ∀ before after : List String, ["GET", "PUT", "DELETE", "POST"] = before ++ h.method :: after ↔
      (h.method = "GET" ∧ before = [] ∧ after = ["PUT", "DELETE", "POST"]) ∨
      (h.method = "PUT" ∧ before = ["GET"] ∧ after = ["DELETE", "POST"]) ∨
      (h.method = "DELETE" ∧ before = ["GET", "PUT"] ∧ after = ["POST"]) ∨
      (h.method = "POST" ∧ before = ["GET", "PUT", "DELETE"] ∧ after = []) := by
    intro before after
    constructor
    · intro e
      match before, e with
      | [], e => simp at e; exact .inl ⟨e.1.symm, rfl, e.2.symm⟩
      | [a], e => simp at e; exact .inr (.inl ⟨e.2.1.symm, by rw [e.1], e.2.2.symm⟩)
      | [a, b], e => simp at e; exact .inr (.inr (.inl ⟨e.2.2.1.symm, by rw [e.1, e.2.1], e.2.2.2.symm⟩))
      | [a, b, c], e => simp at e; exact .inr (.inr (.inr ⟨e.2.2.2.1.symm, by rw [e.1, e.2.1, e.2.2.1], e.2.2.2.2⟩))
      | a :: b :: c :: d :: r, e => simp at e
    · rintro (⟨h1, rfl, rfl⟩ | ⟨h1, rfl, rfl⟩ | ⟨h1, rfl, rfl⟩ | ⟨h1, rfl, rfl⟩) <;> simp [h1]
  have before : ∀ (g : HttpDef) (k : OMethod) (l : List String), l = (["GET", "PUT", "DELETE", "POST"].take k.rank) → k.rank < 4 →
      (g.method ∈ l ↔ ∃ j, oasMethod g.method = some j ∧ j.rank < k.rank) := by
    rintro g k l rfl hk
    constructor
    · intro hg
      cases k <;> simp [OMethod.rank] at hg hk
      · exact ⟨.get, by rw [hg]; rfl, by simp [OMethod.rank]⟩
      · rcases hg with hg | hg | hg <;> rw [hg]
        · exact ⟨.get, rfl, by simp [OMethod.rank]⟩
        · exact ⟨.put, rfl, by simp [OMethod.rank]⟩
        · exact ⟨.delete, rfl, by simp [OMethod.rank]⟩
      · rcases hg with hg | hg <;> rw [hg]
        · exact ⟨.get, rfl, by simp [OMethod.rank]⟩
        · exact ⟨.put, rfl, by simp [OMethod.rank]⟩
    · rintro ⟨j, hj, hlt⟩
      have := ((oasMethod_iff _ _).1 hj).1
      rw [this]
      cases k <;> cases j <;> simp [OMethod.rank, methodName] at hlt hk ⊢
  have main : ∀ (k : OMethod) (l : List String), l = (["GET", "PUT", "DELETE", "POST"].take k.rank) → k.rank < 4 →
      ((∀ g ∈ s.http, g.method ∈ l → ∀ path, LivesAt s.base h path → ¬ LivesAt s.base g path) ↔
        ∀ g ∈ s.http, ∀ j, oasMethod g.method = some j → j.rank < k.rank → oasPath s.base h ≠ oasPath s.base g) := by
    intro k l hl hk
    constructor
    · intro hh g hg j hj hlt
      exact (lives g).1 (hh g hg ((before g k l hl hk).2 ⟨j, hj, hlt⟩))
    · intro hh g hg hgl
      obtain ⟨j, hj, hlt⟩ := (before g k l hl hk).1 hgl
      exact (lives g).2 (hh g hg j hj hlt)
  constructor
  · rintro ⟨bs, as, e, hh⟩
    rcases (split bs as).1 e with ⟨h1, rfl, rfl⟩ | ⟨h1, rfl, rfl⟩ | ⟨h1, rfl, rfl⟩ | ⟨h1, rfl, rfl⟩
    · exact ⟨.get, by rw [h1]; rfl, (main .get _ rfl (by decide)).1 hh⟩
    · exact ⟨.put, by rw [h1]; rfl, (main .put _ rfl (by decide)).1 hh⟩
    · exact ⟨.delete, by rw [h1]; rfl, (main .delete _ rfl (by decide)).1 hh⟩
    · exact ⟨.post, by rw [h1]; rfl, (main .post _ rfl (by decide)).1 hh⟩
  · rintro ⟨k, hk, hh⟩
    have hm := (oasMethod_iff _ _).1 hk
    cases k with
    | get => exact ⟨_, _, (split _ _).2 (.inl ⟨hm.1, rfl, rfl⟩), (main .get _ rfl (by decide)).2 hh⟩
    | put => exact ⟨_, _, (split _ _).2 (.inr (.inl ⟨hm.1, rfl, rfl⟩)), (main .put _ rfl (by decide)).2 hh⟩
    | delete => exact ⟨_, _, (split _ _).2 (.inr (.inr (.inl ⟨hm.1, rfl, rfl⟩))), (main .delete _ rfl (by decide)).2 hh⟩
    | post => exact ⟨_, _, (split _ _).2 (.inr (.inr (.inr ⟨hm.1, rfl, rfl⟩))), (main .post _ rfl (by decide)).2 hh⟩
    | head => rw [hm.1] at hm; simp [methodName, ExportedMethods] at hm
    | patch => rw [hm.1] at hm; simp [methodName, ExportedMethods] at hm

/-- The operation that is looked at first on the path of an action. -/
theorem PathsFor.first {s : Schema} {paths : GoMap OPathItem} (hp : PathsFor s paths) {p : String} {pi : OPathItem}
    (h : (p, pi) ∈ paths) (k : OMethod) (op : OOperation) :
    pi.first = some (k, op) ↔ pi.op k = some op ∧
      ∃ a ∈ s.http, Foremost s a ∧ p = oasPath s.base a ∧ oasMethod a.method = some k ∧ OpFor a op := by
  have look : ∀ j, pathOp paths p j = pi.op j := fun j => by unfold pathOp; rw [mget_of_mem hp.distinct h]; rfl
  constructor
  · intro hf
    have h1 := first_op hf
    refine ⟨h1, ?_⟩
    obtain ⟨a, ha, h2, h3⟩ := hp.ops p k op ((look k).trans h1)
    obtain ⟨op', h4, h5⟩ := hp.all a ha k h3
    rw [← h2, look k, h1] at h4
    cases h4
    refine ⟨a, ha, foremost_iff.2 ⟨k, h3, fun g hg j hj hlt he => ?_⟩, h2, h3, h5⟩
    obtain ⟨op', h6, _⟩ := hp.all g hg j hj
    rw [← he, ← h2, look j, first_least hf j hlt] at h6
    cases h6
  · rintro ⟨h1, a, ha, hfa, h2, h3, h4⟩
    refine first_of_least h1 fun j hlt => ?_
    obtain ⟨k', hk', hall⟩ := foremost_iff.1 hfa
    rw [h3] at hk'; cases hk'
    cases ho : pi.op j with
    | none => rfl
    | some o =>
      obtain ⟨g, hg, h5, h6⟩ := hp.ops p j o ((look j).trans ho)
      exact absurd (h2.symm.trans h5) (hall g hg j h6 hlt)

theorem PathsFor.inUse {s : Schema} {paths : GoMap OPathItem} (hp : PathsFor s paths) :
    PathsInUse s ↔ ∀ e ∈ paths, e.2.first ≠ none := by
  have look : ∀ {p pi}, (p, pi) ∈ paths → ∀ j, pathOp paths p j = pi.op j :=
    fun h j => by unfold pathOp; rw [mget_of_mem hp.distinct h]; rfl
  constructor
  · rintro hu ⟨p, pi⟩ he hf
    obtain ⟨a, ha, h1⟩ := (hp.keys p).1 (List.mem_map.2 ⟨_, he, rfl⟩)
    obtain ⟨g, hg, h2, path, h3, h4⟩ := hu a ha
    obtain ⟨k, hk⟩ : ∃ k, oasMethod g.method = some k := by
      cases ho : oasMethod g.method with
      | none => exact absurd h2 ((oasMethod_none_iff _).1 ho)
      | some k => exact ⟨k, rfl⟩
    obtain ⟨op, h5, _⟩ := hp.all g hg k hk
    rw [← (livesAt_iff _ _ _).1 h4, (livesAt_iff _ _ _).1 h3, ← h1, look he k, first_none.1 hf k] at h5
    cases h5
  · intro hall a ha
    obtain ⟨e, he, h1⟩ := List.mem_map.1 ((hp.keys _).2 ⟨a, ha, rfl⟩)
    obtain ⟨p, pi⟩ := e
    simp only at h1
    subst h1
    cases hf : pi.first with
    | none => exact absurd hf (hall _ he)
    | some r =>
      obtain ⟨k, op⟩ := r
      obtain ⟨_, g, hg, _, h2, h3, _⟩ := (hp.first he k op).1 hf
      exact ⟨g, hg, ((oasMethod_iff _ _).1 h3).2, _, (livesAt_iff _ _ _).2 rfl, (livesAt_iff _ _ _).2 h2⟩

/-! ### One example -/

/-- The document has the types and the actions of the schema. -/
structure DocFor (s : Schema) (d : ODoc) : Prop where
  paths : PathsFor s d.paths
  schemas : ∀ n, mget d.schemas n ≠ none ↔ Named s n

theorem DocFor.next {s : Schema} {d d' : ODoc} (h : DocFor s d) {lib : OLib} (hord : ∀ l, (lib.order l).Perm l) {m : Model}
    {ex : ExampleDef} (he : exportExample lib m ex d = .ok d') : DocFor s d' := by
  obtain ⟨h1, h2⟩ := exportExample_keys hord he
  refine ⟨h.paths.same (exportExample_same hord h.paths.distinct he) h1, fun n => ?_⟩
  rw [← h.schemas n, Ne, Ne, mget_none_iff, mget_none_iff, h2]

/-- The members of an example, if the operation is that of the action. -/
theorem asObject_members {body : Value → OOperation → Ran OOperation} {P : OOperation → Prop}
    (hpar : ∀ op ps, P { op with parameters := ps } ↔ P op) (hbody : ∀ v op, (∃ op', body v op = .ok op') ↔ P op)
    (hkeep : ∀ v op op', body v op = .ok op' → P op') (name : String) (v : Value) (op : OOperation) :
    (∃ op', (asObject v >>= fun kvs => membersExample body name kvs op) = .ok op') ↔ BodyOnlyIf v (P op) := by
  unfold BodyOnlyIf
  cases v with
  | obj kvs =>
    simp only [asObject, Ran.bind_ok]
    rw [members_iff hpar hbody hkeep]
    simp
  | _ => simp [asObject]

theorem bodyOnlyIf_congr {v : Value} {a b : Prop} (h : a ↔ b) : BodyOnlyIf v a ↔ BodyOnlyIf v b := by rw [propext h]

section
variable {s : Schema} {m : Model} (hm : newModel s = .ok m) {lib : OLib} (hord : ∀ l, (lib.order l).Perm l)
  {ex : ExampleDef} {d : ODoc} (hd : DocFor s d) (hn : ¬ Named s ex.target)
include hd hn

theorem not_in_schemas : mget d.schemas ex.target = none := by
  by_contra h
  exact hn ((hd.schemas _).1 h)

theorem request_step {base : String} (ht : ex.target = base ++ "Request") :
    exportExample lib m ex d = (findOperation (uncapitalize base) (lib.order d.paths) >>= fun r => match r with
      | none => pure d
      | some (p, k) => (asObject ex.example >>= fun kvs =>
          membersExample (requestBodyExample ex.name) ex.name kvs ((d.opAt p k).getD {})) >>= fun op => pure (d.setOp p k op)) := by
  unfold exportExample
  rw [not_in_schemas hd hn, cutSuffixS_iff.2 ht]
  simp only
  congr 1
  funext r
  cases r with
  | none => rfl
  | some pk =>
    obtain ⟨p, k⟩ := pk
    cases asObject ex.example <;> rfl

theorem response_step {base : String} (ht : ex.target = base ++ "Response") :
    exportExample lib m ex d = (findOperation (uncapitalize base) (lib.order d.paths) >>= fun r => match r with
      | none => .panic "no"
      | some (p, k) => (asObject ex.example >>= fun kvs =>
          membersExample (responseBodyExample m (uncapitalize base) ex.name) ex.name kvs ((d.opAt p k).getD {})) >>=
            fun op => pure (d.setOp p k op)) := by
  have hr : cutSuffixS "Request" ex.target = none := by
    cases h : cutSuffixS "Request" ex.target with
    | none => rfl
    | some b =>
      have := cutSuffixS_iff.1 h
      rw [ht] at this
      have := congrArg (fun t : String => t.toList.reverse.take 3) this
      simp [String.toList_append, List.reverse_append, show "Response".toList = ['R', 'e', 's', 'p', 'o', 'n', 's', 'e'] from rfl,
        show "Request".toList = ['R', 'e', 'q', 'u', 'e', 's', 't'] from rfl] at this
  unfold exportExample
  rw [not_in_schemas hd hn, hr, cutSuffixS_iff.2 ht]
  simp only
  congr 1
  funext r
  cases r with
  | none => rfl
  | some pk =>
    obtain ⟨p, k⟩ := pk
    cases asObject ex.example <;> rfl

omit hn in
theorem opAt_first {p : String} {pi : OPathItem} (hp : (p, pi) ∈ d.paths) {k : OMethod} {op : OOperation} (hf : pi.first = some (k, op)) :
    d.opAt p k = some op := by
  unfold ODoc.opAt
  rw [mget_of_mem hd.paths.distinct hp]
  exact first_op hf

theorem request_found {base : String} (ht : ex.target = base ++ "Request") {p : String} {pi : OPathItem} (hp : (p, pi) ∈ d.paths)
    {k : OMethod} {op : OOperation} (hf : pi.first = some (k, op))
    (hfind : findOperation (uncapitalize base) (lib.order d.paths) = .ok (some (p, k))) {a : HttpDef} (ho : OpFor a op) :
    (∃ d', exportExample lib m ex d = .ok d') ↔ BodyOnlyIf ex.example (∃ p ∈ a.inputs, BodyInput p = true) := by
  rw [request_step hd hn ht, hfind]
  simp only [Ran.bind_ok, opAt_first hd hp hf, Option.getD_some]
  have : (∃ p ∈ a.inputs, BodyInput p = true) ↔ op.reqJson = true := by rw [ho.request, List.any_eq_true]
  rw [bodyOnlyIf_congr this, ← asObject_members (body := requestBodyExample ex.name) (P := fun o => o.reqJson = true) (fun _ _ => Iff.rfl)
    (fun v o => requestBody_iff ex.name v o)
    (fun v o o' h => by rw [← reqJson_bare, requestBody_bare h, reqJson_bare]; exact (requestBody_iff ex.name v o).1 ⟨_, h⟩) ex.name]
  constructor
  · rintro ⟨d', h⟩
    obtain ⟨op', h1, _⟩ := Ran.bind_eq_ok.1 h
    exact ⟨op', h1⟩
  · rintro ⟨op', h⟩
    exact ⟨_, Ran.bind_eq_ok.2 ⟨op', h, rfl⟩⟩

include hm in
theorem response_found {base : String} (ht : ex.target = base ++ "Response") {p : String} {pi : OPathItem} (hp : (p, pi) ∈ d.paths)
    {k : OMethod} {op : OOperation} (hf : pi.first = some (k, op))
    (hfind : findOperation (uncapitalize base) (lib.order d.paths) = .ok (some (p, k))) {a : HttpDef} (ho : OpFor a op)
    (ha : a ∈ s.http) (hna : a.name = uncapitalize base) {e : HttpExpectedSpec} (he : a.expected = some e) :
    (∃ d', exportExample lib m ex d = .ok d') ↔ BodyOnlyIf ex.example ((∃ p ∈ e.outputs, BodyOutput p = true) ∨
      ∃ x ∈ a.exceptions, statusKey x.status = String.ofList (showInt e.status)) := by
  rw [response_step hd hn ht, hfind]
  simp only [Ran.bind_ok, opAt_first hd hp hf, Option.getD_some]
  have hexp : (m.findHttp (uncapitalize base)).bind (·.expected) = some e := by
    rw [(findHttp_iff hm).2 ⟨ha, hna⟩]; exact he
  have : ((∃ p ∈ e.outputs, BodyOutput p = true) ∨ ∃ x ∈ a.exceptions, statusKey x.status = String.ofList (showInt e.status)) ↔
      respJson op.responses (sprintInt e.status) = true := by
    rw [ho.response e he, Bool.or_eq_true, List.any_eq_true, List.any_eq_true]
    simp
  rw [bodyOnlyIf_congr this, ← asObject_members (body := responseBodyExample m (uncapitalize base) ex.name)
    (P := fun o => respJson o.responses (sprintInt e.status) = true) (fun _ _ => Iff.rfl)
    (fun v o => responseBody_iff hexp ex.name v o)
    (fun v o o' h => by rw [← respJson_bare, responseBody_bare h, respJson_bare]; exact (responseBody_iff hexp ex.name v o).1 ⟨_, h⟩) ex.name]
  constructor
  · rintro ⟨d', h⟩
    obtain ⟨op', h1, _⟩ := Ran.bind_eq_ok.1 h
    exact ⟨op', h1⟩
  · rintro ⟨op', h⟩
    exact ⟨_, Ran.bind_eq_ok.2 ⟨op', h, rfl⟩⟩
end

section
variable {s : Schema} {m : Model} (hm : newModel s = .ok m) {lib : OLib} (hord : ∀ l, (lib.order l).Perm l)
  {ex : ExampleDef} {d : ODoc} (hd : DocFor s d)
include hm hord hd

/-- An example that fits is written. -/
theorem example_written (hf : ExampleFits s ex) : ∃ d', exportExample lib m ex d = .ok d' := by
  by_cases hn : Named s ex.target
  · have := (hd.schemas _).2 hn
    cases hg : mget d.schemas ex.target with
    | none => exact absurd hg this
    | some sc => exact ⟨_, by unfold exportExample; rw [hg]⟩
  cases hf with
  | type h => exact absurd h hn
  | other h =>
    unfold exportExample
    rw [not_in_schemas hd hn]
    cases h1 : cutSuffixS "Request" ex.target with
    | some b => exact absurd (cutSuffixS_iff.1 h1) (h b).1
    | none =>
      cases h2 : cutSuffixS "Response" ex.target with
      | some b => exact absurd (cutSuffixS_iff.1 h2) (h b).2
      | none => exact ⟨d, rfl⟩
  | @request base ht hu hb =>
    have hall : ∀ e ∈ lib.order d.paths, e.2.first ≠ none := fun e he => hd.paths.inUse.1 hu e ((hord _).mem_iff.1 he)
    rcases findOperation_all (opId := uncapitalize base) hall with ⟨h1, _⟩ | ⟨⟨p, pi⟩, h1, k, op, h2, h3, h4⟩
    · exact ⟨d, by rw [request_step hd hn ht, h1]; rfl⟩
    · have hp := (hord _).mem_iff.1 h1
      obtain ⟨_, a, ha, hfa, _, _, ho⟩ := (hd.paths.first hp k op).1 h3
      exact (request_found hd hn ht hp h3 h2 ho).2 (hb a ha (ho.name.symm.trans h4) hfa)
  | @response base a e ht hu ha hna hfa he hb =>
    have hall : ∀ e ∈ lib.order d.paths, e.2.first ≠ none := fun e he => hd.paths.inUse.1 hu e ((hord _).mem_iff.1 he)
    rcases findOperation_all (opId := uncapitalize base) hall with ⟨_, h1⟩ | ⟨⟨p, pi⟩, h1, k, op, h2, h3, h4⟩
    · exfalso
      obtain ⟨k, hk, _⟩ := foremost_iff.1 hfa
      obtain ⟨op, h2, h3⟩ := hd.paths.all a ha k hk
      obtain ⟨⟨p, pi⟩, h4, h5⟩ := List.mem_map.1 ((hd.paths.keys _).2 ⟨a, ha, rfl⟩)
      simp only at h5
      subst h5
      have h6 : pi.op k = some op := by
        unfold pathOp at h2; rw [mget_of_mem hd.paths.distinct h4] at h2; exact h2
      exact h1 _ ((hord _).mem_iff.2 h4) k op ((hd.paths.first h4 k op).2 ⟨h6, a, ha, hfa, rfl, hk, h3⟩) (h3.name.trans hna)
    · have hp := (hord _).mem_iff.1 h1
      obtain ⟨_, b, hb', hfb, _, _, ho⟩ := (hd.paths.first hp k op).1 h3
      have hnb := ho.name.symm.trans h4
      obtain rfl : b = a := findHttp_unique hm hb' ha (hnb.trans hna.symm)
      exact (response_found hm hd hn ht hp h3 h2 ho ha hna he).2 hb

/-- Examples that fit are written. -/
theorem examples_written (l : List ExampleDef) (hl : ∀ ex ∈ l, ExampleFits s ex) :
    ∃ d', exportExamples lib m l d = .ok d' := by
  induction l generalizing d with
  | nil => exact ⟨d, rfl⟩
  | cons ex rest ih =>
    obtain ⟨d1, h1⟩ := example_written hm hord hd (hl ex (by simp))
    obtain ⟨d2, h2⟩ := ih (hd.next hord h1) (fun x hx => hl x (by simp [hx]))
    exact ⟨d2, Ran.bind_eq_ok.2 ⟨d1, h1, h2⟩⟩

omit hm in
/-- Each example is written to a document of the schema. -/
theorem examples_mid {l : List ExampleDef} {d' : ODoc} (h : exportExamples lib m l d = .ok d') (hx : ex ∈ l) :
    ∃ d1 d2, DocFor s d1 ∧ exportExample lib m ex d1 = .ok d2 := by
  induction l generalizing d with
  | nil => cases hx
  | cons x rest ih =>
    obtain ⟨d1, h1, h2⟩ := Ran.bind_eq_ok.1 h
    rcases List.mem_cons.1 hx with rfl | hx
    · exact ⟨d, d1, hd, h1⟩
    · exact ih (hd.next hord h1) h2 hx
end

/-- An example that is written whatever the order of the paths fits. -/
theorem example_fits {s : Schema} {m : Model} (hm : newModel s = .ok m) {ex : ExampleDef} (hexp : ∀ h ∈ s.http, h.expected ≠ none)
    (hw : ∀ order : GoMap OPathItem → GoMap OPathItem, (∀ l, (order l).Perm l) →
      ∃ lib d d', lib.order = order ∧ DocFor s d ∧ exportExample lib m ex d = .ok d') : ExampleFits s ex := by
  by_cases hn : Named s ex.target
  · exact .type hn
  by_cases hreq : ∃ base, ex.target = base ++ "Request"
  · obtain ⟨base, ht⟩ := hreq
    have front : ∀ p, (∃ h ∈ s.http, p = oasPath s.base h) → ∃ lib d d' pi k op, DocFor s d ∧ exportExample lib m ex d = .ok d' ∧
        (p, pi) ∈ d.paths ∧ pi.first = some (k, op) ∧ (op.operationId = uncapitalize base →
          findOperation (uncapitalize base) (lib.order d.paths) = .ok (some (p, k))) := by
      intro p hpath
      obtain ⟨lib, d, d', ho, hd, h⟩ := hw (frontOrder p) (frontOrder_perm p)
      obtain ⟨⟨q, pi⟩, h1, h2⟩ := List.mem_map.1 ((hd.paths.keys p).2 hpath)
      simp only at h2
      subst h2
      obtain ⟨rest, hr⟩ := frontOrder_cons hd.paths.distinct h1
      cases hf : pi.first with
      | none =>
        have hx := h
        rw [request_step hd hn ht, ho, hr] at hx
        simp [findOperation, hf] at hx
      | some r =>
        obtain ⟨k, op⟩ := r
        refine ⟨lib, d, d', pi, k, op, hd, h, h1, hf, fun hid => ?_⟩
        rw [ho, hr]
        simp [findOperation, hf, hid]
    refine .request ht ?_ ?_
    · intro a ha
      obtain ⟨lib, d, d', pi, k, op, hd, h, h1, hf, _⟩ := front _ ⟨a, ha, rfl⟩
      obtain ⟨_, g, hg, _, h2, h3, _⟩ := (hd.paths.first h1 k op).1 hf
      exact ⟨g, hg, ((oasMethod_iff _ _).1 h3).2, _, (livesAt_iff _ _ _).2 rfl, (livesAt_iff _ _ _).2 h2⟩
    · intro a ha hna hfa
      obtain ⟨lib, d, d', pi, k, op, hd, h, h1, hf, hfind⟩ := front _ ⟨a, ha, rfl⟩
      obtain ⟨k', hk', _⟩ := foremost_iff.1 hfa
      obtain ⟨op', h2, h3⟩ := hd.paths.all a ha k' hk'
      have h6 : pi.op k' = some op' := by
        unfold pathOp at h2; rw [mget_of_mem hd.paths.distinct h1] at h2; exact h2
      have hf' := (hd.paths.first h1 k' op').2 ⟨h6, a, ha, hfa, rfl, hk', h3⟩
      rw [hf] at hf'; cases hf'
      exact (request_found hd hn ht h1 hf (hfind (h3.name.trans hna)) h3).1 ⟨d', h⟩
  by_cases hres : ∃ base, ex.target = base ++ "Response"
  · obtain ⟨base, ht⟩ := hres
    have use : PathsInUse s := by
      intro a ha
      obtain ⟨lib, d, d', ho, hd, h⟩ := hw (frontOrder (oasPath s.base a)) (frontOrder_perm _)
      obtain ⟨⟨q, pi⟩, h1, h2⟩ := List.mem_map.1 ((hd.paths.keys _).2 ⟨a, ha, rfl⟩)
      simp only at h2
      subst h2
      obtain ⟨rest, hr⟩ := frontOrder_cons hd.paths.distinct h1
      cases hf : pi.first with
      | none =>
        rw [response_step hd hn ht, ho, hr] at h
        simp [findOperation, hf] at h
      | some r =>
        obtain ⟨k, op⟩ := r
        obtain ⟨_, g, hg, _, h2, h3, _⟩ := (hd.paths.first h1 k op).1 hf
        exact ⟨g, hg, ((oasMethod_iff _ _).1 h3).2, _, (livesAt_iff _ _ _).2 rfl, (livesAt_iff _ _ _).2 h2⟩
    obtain ⟨lib, d, d', ho, hd, h⟩ := hw id (fun _ => .refl _)
    have hord : ∀ l, (lib.order l).Perm l := fun l => by rw [ho]; exact .refl _
    have hall : ∀ e ∈ lib.order d.paths, e.2.first ≠ none := fun e he => hd.paths.inUse.1 use e ((hord _).mem_iff.1 he)
    rcases findOperation_all (opId := uncapitalize base) hall with ⟨h1, _⟩ | ⟨⟨p, pi⟩, h1, k, op, h2, h3, h4⟩
    · rw [response_step hd hn ht, h1] at h
      cases h
    · have hp := (hord _).mem_iff.1 h1
      obtain ⟨_, a, ha, hfa, _, _, hop⟩ := (hd.paths.first hp k op).1 h3
      have hna := hop.name.symm.trans h4
      cases he : a.expected with
      | none => exact absurd he (hexp a ha)
      | some e => exact .response ht use ha hna hfa he ((response_found hm hd hn ht hp h3 h2 hop ha hna he).1 ⟨d', h⟩)
  · exact .other fun base => ⟨fun h => hreq ⟨base, h⟩, fun h => hres ⟨base, h⟩⟩

end Sadl
