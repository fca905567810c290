import Verif.Props.OpenApiFile
import Verif.Props.GoServer
import Verif.Props.JavaRest
import Verif.Lemmas.OpenApiRules
/-
C115: the operations of an exported OpenAPI document obey the rules of OpenAPI.
-/
namespace Sadl.Props
open Sadl Sadl.Spec

/-- Every operation of an exported document, and the action it was written for. -/
theorem operation_written {lib : OLib} (hord : ∀ l, (lib.order l).Perm l) {m : Model} {d : ODoc} (hd : Exports lib m (.ok d))
    {path : String} {k : OMethod} {op : OOperation} (ho : OperationAt d path k op) :
    ∃ h ∈ m.schema.http, h.method = methodName k ∧ LivesAt m.schema.base h path ∧ Describes h op ∧ ∃ e, h.expected = some e ∧
      (∀ k r, (k, r) ∈ op.responses → r.description ≠ "") ∧
      ∀ k, k ∈ op.responses.map Prod.fst ↔ k = String.ofList (showInt e.status) ∨ ∃ x ∈ h.exceptions, statusKey x.status = k := by
  obtain ⟨n, hn⟩ := exports_run hd
  obtain ⟨schemas, paths, _, h2, h3, h4⟩ := exportOas_ok hord hn
  have h5 := h4.ops path k
  rw [(operationAt_iff h4.distinct _ _ _).1 ho] at h5
  obtain ⟨op', h6, h7⟩ := Option.map_eq_some_iff.1 h5.symm
  rcases (exportHttp_ok h2).2.2.1 path k op' h6 with h | ⟨a, ha, hp, hk, hop⟩
  · cases k <;> simp [pathOp, mget, OPathItem.op] at h
  · obtain ⟨e, he, r1, r2⟩ := exportOp_responses hop
    have hr := responses_of_bare h7.symm r1 r2
    refine ⟨a, ha, ((oasMethod_iff _ _).1 hk).1, (livesAt_iff _ _ _).2 hp, ?_, e, he, hr.1, hr.2⟩
    rw [← describes_bare, ← h7, describes_bare]
    exact exportOp_ok hop

/-- The part of a path before its query part, below a base path without one. -/
theorem livesAt_base {base path : String} {h : HttpDef} (hb : '?' ∉ base.toList) (hp : LivesAt base h path) :
    path.toList = base.toList ++ pathPart h.path.toList := by
  obtain ⟨q, hq⟩ := hp
  obtain ⟨h1, h2⟩ := pathAndQuery h.path.toList
  refine pathAndQuery_path_unique hq (q' := queryPart h.path.toList) ⟨?_, ?_⟩
  · rw [List.mem_append]; exact fun h => h.elim hb h1
  · rw [String.toList_append]
    rcases h2 with h2 | ⟨h2, h3⟩
    · left; conv_lhs => rw [h2]
      rw [List.append_assoc]
    · right; refine ⟨?_, h3⟩; conv_lhs => rw [h2]

/-- C115: of every accepted source, every operation of the document has a response, all its responses have descriptions, and all its parameters
have a name, a place and a schema, and are required if they are in the path. -/
theorem C115_rules (plib : PLib) (lib : OLib) (hord : ∀ l, (lib.order l).Perm l) (m : Model) (hm : Accepted plib m) (d : ODoc)
    (hd : Exports lib m (.ok d)) (path : String) (k : OMethod) (op : OOperation) (ho : OperationAt d path k op) : OperationRules op := by
  obtain ⟨h, hh, -, -, hdes, e, he, r1, r2⟩ := operation_written hord hd ho
  have hname := accepted_namedParams hm h hh
  refine ⟨?_, r1, ?_, ?_, ?_, ?_⟩
  · intro h0
    have := (r2 _).2 (.inl rfl)
    rw [h0] at this
    cases this
  all_goals
    intro q hq
    obtain ⟨p, hp, hmatch⟩ := param_of hdes.params hq
    have hin := (List.mem_filter.1 hp).1
  · rcases hmatch.place with ⟨_, _, h3, _⟩ | ⟨_, h2, _, h4, _⟩ | ⟨_, _, h3, _, h5, _⟩
    · rw [h3]; exact hname.1 p hin
    · rw [h4]; exact h2
    · rw [h5]; exact h3
  · rcases hmatch.place with ⟨_, h2, _⟩ | ⟨_, _, h3, _⟩ | ⟨_, _, _, h4, _⟩
    · exact .inl h2
    · exact .inr (.inl h3)
    · exact .inr (.inr h4)
  · exact hmatch.schema
  · intro hpath
    rcases hmatch.place with ⟨_, _, _, h4⟩ | ⟨_, _, h3, _⟩ | ⟨_, _, _, h4, _⟩
    · exact h4
    · rw [h3] at hpath; exact absurd hpath (by decide)
    · rw [h4] at hpath; exact absurd hpath (by decide)

/-- C115: of every accepted source whose base path has no question mark, every parameter in the path has a variable there. -/
theorem C115_variables (plib : PLib) (lib : OLib) (hord : ∀ l, (lib.order l).Perm l) (m : Model) (hm : Accepted plib m)
    (hb : '?' ∉ m.schema.base.toList) (d : ODoc) (hd : Exports lib m (.ok d)) (path : String) (k : OMethod) (op : OOperation)
    (ho : OperationAt d path k op) (q : OParam) (hq : q ∈ op.parameters) (hin : q.in = "path") : Occurs (braced q.name) path.toList := by
  obtain ⟨h, hh, -, hl, hdes, -⟩ := operation_written hord hd ho
  obtain ⟨p, hp, hmatch⟩ := param_of hdes.params hq
  have hplaced := (accepted_http hm h hh).placed p (List.mem_filter.1 hp).1
  rcases hmatch.place with ⟨h1, _, h3, _⟩ | ⟨_, _, h3, _⟩ | ⟨_, _, _, h4, _⟩
  · obtain ⟨a, b, hab⟩ := hplaced h1
    rw [livesAt_base hb hl, h3, hab]
    exact ⟨m.schema.base.toList ++ a, b, by simp⟩
  · rw [h3] at hin; exact absurd hin (by decide)
  · rw [h4] at hin; exact absurd hin (by decide)

/-- C115: the further rules hold for all operations exactly if all exported actions are orderly. -/
theorem C115_further_iff (lib : OLib) (hord : ∀ l, (lib.order l).Perm l) (m : Model) (d : ODoc) (hd : Exports lib m (.ok d)) :
    (∀ path k op, OperationAt d path k op → FurtherRules path op) ↔
      ∀ h ∈ m.schema.http, h.method ∈ ExportedMethods → ∀ path, LivesAt m.schema.base h path → Orderly path h := by
  have hshare : ∀ a ∈ m.schema.http, ∀ b ∈ m.schema.http, ∀ k path, a.method = methodName k → b.method = methodName k → a.method ∈ ExportedMethods →
      LivesAt m.schema.base a path → LivesAt m.schema.base b path → a = b := by
    intro a ha b hb k path ha1 hb1 hex ha2 hb2
    obtain ⟨n, hn⟩ := exports_run hd
    obtain ⟨schemas, paths, _, h2, _⟩ := exportOas_ok hord hn
    have hpw := (exportHttp_ok h2).2.2.2.2.1
    have hab : a.method = b.method := ha1.trans hb1.symm
    have hpath : oasPath m.schema.base a = oasPath m.schema.base b := ((livesAt_iff _ _ _).1 ha2).symm.trans ((livesAt_iff _ _ _).1 hb2)
    have hnone : oasMethod a.method ≠ none := fun h0 => (oasMethod_none_iff _).1 h0 hex
    by_contra hne
    obtain ⟨i, hi, rfl⟩ := List.mem_iff_getElem.1 ha
    obtain ⟨j, hj, rfl⟩ := List.mem_iff_getElem.1 hb
    rw [List.pairwise_iff_getElem] at hpw
    rcases Nat.lt_trichotomy i j with hlt | rfl | hlt
    · exact hpw i j hi hj hlt hnone (by rw [hab]) hpath
    · exact hne rfl
    · exact hpw j i hj hi hlt (hab ▸ hnone) (by rw [hab]) hpath.symm
  constructor
  · intro hall h hh hm path hl
    obtain ⟨k, op, h1, h2, -⟩ := C44_operations_partial lib hord m d hd h hh hm path hl
    obtain ⟨h', hh', h3, h4, hdes, e, he, -, r2⟩ := operation_written hord hd h2
    have : h = h' := hshare h hh h' hh' k path h1 h3 hm hl h4
    subst this
    exact (further_iff hdes he r2 path).1 (hall path k op h2)
  · intro hall path k op ho
    obtain ⟨h, hh, h3, h4, hdes, e, he, -, r2⟩ := operation_written hord hd ho
    have hex : h.method ∈ ExportedMethods := by
      rw [h3]
      obtain ⟨n, hn⟩ := exports_run hd
      obtain ⟨schemas, paths, _, g2, g3, g4⟩ := exportOas_ok hord hn
      have h5 := g4.ops path k
      rw [(operationAt_iff g4.distinct _ _ _).1 ho] at h5
      obtain ⟨op', h6, -⟩ := Option.map_eq_some_iff.1 h5.symm
      rcases (exportHttp_ok g2).2.2.1 path k op' h6 with h | ⟨a, _, _, hk, _⟩
      · cases k <;> simp [pathOp, mget, OPathItem.op] at h
      · have := (oasMethod_iff _ _).1 hk
        rw [← this.1]
        by_contra hno
        rw [(oasMethod_none_iff _).2 hno] at hk
        cases hk
    exact (further_iff hdes he r2 path).2 (hall h hh hex path h4)

/-- C115: no two operations have the same identifier. -/
theorem C115_identifiers (lib : OLib) (hord : ∀ l, (lib.order l).Perm l) (m : Model) (hm : newModel m.schema = .ok m) (d : ODoc) (hd : Exports lib m (.ok d))
    (path path' : String) (k k' : OMethod) (op op' : OOperation) (ho : OperationAt d path k op) (ho' : OperationAt d path' k' op')
    (hid : op.operationId = op'.operationId) : path = path' ∧ k = k' := by
  obtain ⟨h, hh, h1, h2, hdes, -⟩ := operation_written hord hd ho
  obtain ⟨h', hh', h1', h2', hdes', -⟩ := operation_written hord hd ho'
  have hn := ((newModel_ok_iff _ _).1 hm).2.2.1
  have : h = h' := List.inj_on_of_nodup_map hn hh hh' (by rw [← hdes.name, ← hdes'.name, hid])
  subst this
  refine ⟨?_, ?_⟩
  · rw [(livesAt_iff _ _ _).1 h2, (livesAt_iff _ _ _).1 h2']
  · rw [h1] at h1'
    cases k <;> cases k' <;> first | rfl | (exact absurd h1' (by decide))

/-! ### An example -/

/-- The variables of a path with a single one. -/
theorem single_variable {path : String} {a w b : List Char} (hp : path.toList = a ++ '{' :: (w ++ '}' :: b)) (ha : '{' ∉ a) (hw : '{' ∉ w) (hb : '{' ∉ b)
    (hw' : '}' ∉ w) {v : String} (hv : PathVariable path v) : v.toList = w := by
  obtain ⟨h1, h2, c, e, h3⟩ := hv
  rw [hp] at h3
  have cut : ∀ (x : Char) (l r : List Char), x ∉ l → (l ++ x :: r).takeWhile (· != x) = l ∧ (l ++ x :: r).dropWhile (· != x) = x :: r := by
    intro x l r hl
    induction l with
    | nil => simp
    | cons y l ih =>
      have hy : y ≠ x := fun h => hl (by simp [h])
      have := ih fun h => hl (by simp [h])
      simp [hy, this]
  have hcount : ((a ++ '{' :: (w ++ '}' :: b)).count '{') = 1 := by
    simp [List.count_append, List.count_cons, List.count_eq_zero_of_not_mem ha, List.count_eq_zero_of_not_mem hw, List.count_eq_zero_of_not_mem hb]
  have hc : '{' ∉ c := by
    rw [h3] at hcount
    simp only [braced, List.count_append, List.count_cons, List.cons_append] at hcount
    simp at hcount
    intro hmem
    have := List.count_pos_iff.2 hmem
    omega
  have h4 : c ++ '{' :: (v.toList ++ '}' :: e) = a ++ '{' :: (w ++ '}' :: b) := by rw [h3]; simp [braced]
  have h5 := congrArg (List.dropWhile (· != '{')) h4
  rw [(cut _ _ _ hc).2, (cut _ _ _ ha).2] at h5
  have h6 := congrArg (List.takeWhile (· != '}')) (List.cons.inj h5).2
  rw [(cut _ _ _ h2).1, (cut _ _ _ hw').1] at h6
  exact h6

/-- The actions of the example schema are orderly. -/
theorem desk_orderly : ∀ h ∈ desk.http, h.method ∈ ExportedMethods → ∀ path, LivesAt desk.base h path → Orderly path h := by
  intro h hh _ path hl
  have hvar : ∀ w, path = "/v1/tickets/{id}" → PathVariable path w → w = "id" := by
    rintro w rfl hw
    have := single_variable (a := "/v1/tickets/".toList) (w := "id".toList) (b := []) (by decide) (by decide) (by decide) (by decide) (by decide) hw
    exact String.toList_inj.1 this
  rw [livesAt_iff] at hl
  simp only [desk, List.mem_cons, List.not_mem_nil, or_false] at hh
  rcases hh with rfl | rfl
  · have hp : path = "/v1/tickets/{id}" := by rw [hl]; decide +kernel
    refine ⟨by decide, fun w hw => ?_, fun e he => ?_, by simp⟩
    · rw [hvar w hp hw]; simp
    · cases he; decide
  · have hp : path = "/v1/tickets/{id}" := by rw [hl]; decide +kernel
    refine ⟨by decide, fun w hw => ?_, fun e he => ?_, by simp⟩
    · rw [hvar w hp hw]; simp
    · cases he; decide

/-- All rules for the further operations of the example. -/
example : ∃ m d, m.schema = desk ∧ Exports plainO m (.ok d) ∧ ∀ path k op, OperationAt d path k op → FurtherRules path op := by
  have h : exportsB plainO desk 5 (fun _ => true) = true := by decide +kernel
  unfold exportsB at h
  split at h
  · next m hm =>
    have hs : m.schema = desk := by obtain ⟨_, _, _, rfl⟩ := (newModel_ok_iff _ _).1 hm; rfl
    split at h
    · next d hd => exact ⟨m, d, hs, ⟨by simp, 5, hd⟩, (C115_further_iff plainO (fun _ => .rfl) m d ⟨by simp, 5, hd⟩).2 (hs ▸ desk_orderly)⟩
    · simp at h
  · simp at h

/-- Exports and looks at an operation. -/
def opB (path : String) (k : OMethod) (q : OOperation → Bool) (m : Model) : Bool :=
  match exportOasN 9 plainO m with
  | .ok d => match mget d.paths path with
    | some pi => match pi.op k with
      | some op => q op
      | none => false
    | none => false
  | _ => false

theorem op_of (toks : List Token) (path : String) (k : OMethod) (q : OOperation → Bool)
    (h1 : toks.all (fun t => decide (t.type = .symbol → t.text ≠ "")) = true) (h : accepts noLib toks (opB path k q) = true) :
    ∃ m d op, Accepted noLib m ∧ Exports plainO m (.ok d) ∧ OperationAt d path k op ∧ q op = true := by
  obtain ⟨m, hm, h⟩ := accepted_of noLib toks _ h1 h
  unfold opB at h
  split at h
  · next d hd =>
    split at h
    · next pi hpi =>
      split at h
      · next op hop => exact ⟨m, d, op, hm, ⟨by simp, 9, hd⟩, ⟨pi, mget_mem hpi, hop⟩, h⟩
      · cases h
    · cases h
  · cases h

/-- An accepted source with an operation that has a parameter in the path, one in a header, and two responses. -/
example : ∃ m d op, Accepted noLib m ∧ Exports plainO m (.ok d) ∧ OperationAt d "/v1/foo/{id}" .get op ∧
    op.parameters.map (fun p => (p.in, p.name)) = [("path", "id"), ("header", "X-A")] ∧ op.responses.map Prod.fst = ["200", "404"] := by
  obtain ⟨m, d, op, h1, h2, h3, h4⟩ := op_of
    ([sym "base", str "/v1", nl] ++ typeFoo [sym "String"] ++
      [sym "http", sym "GET", str "/foo/{id}", punct .openBrace, nl, sym "id", sym "String", nl,
       sym "xa", sym "String", punct .openParen, sym "header", punct .equals, str "X-A", punct .closeParen, nl,
       sym "expect", num "200", punct .openBrace, nl, sym "body", sym "Foo", nl, punct .closeBrace, nl,
       sym "except", num "404", sym "Foo", nl, punct .closeBrace, nl])
    "/v1/foo/{id}" .get (fun op => decide (op.parameters.map (fun p => (p.in, p.name)) = [("path", "id"), ("header", "X-A")] ∧ op.responses.map Prod.fst = ["200", "404"]))
    (by decide +kernel) (by decide +kernel)
  exact ⟨m, d, op, h1, h2, h3, of_decide_eq_true h4⟩

/-! ### What is false -/

/-- A GET action with these inputs. -/
def getWith (path : String) (inputs : List Token) (status : String) : List Token :=
  [sym "http", sym "GET", str path, punct .openParen, sym "operation", punct .equals, sym "getFoo", punct .closeParen, punct .openBrace, nl] ++ inputs ++
  [sym "expect", num status, punct .openBrace, nl, punct .closeBrace, nl, punct .closeBrace, nl]

/-- C115 is false: a variable of the path without a parameter is accepted and exported. -/
theorem C115_refuted_variable : ∃ m d op, Accepted noLib m ∧ Exports plainO m (.ok d) ∧ OperationAt d "/foo/{id}" .get op ∧
    PathVariable "/foo/{id}" "id" ∧ op.parameters = [] := by
  obtain ⟨m, d, op, h1, h2, h3, h4⟩ := op_of (getWith "/foo/{id}" [] "204") "/foo/{id}" .get (fun op => op.parameters.isEmpty) (by decide +kernel) (by decide +kernel)
  exact ⟨m, d, op, h1, h2, h3, ⟨by decide, by decide, "/foo/".toList, [], by decide⟩, List.isEmpty_iff.1 h4⟩

/-- C115 is false: the same header twice is accepted and exported. -/
theorem C115_refuted_twice : ∃ m d op, Accepted noLib m ∧ Exports plainO m (.ok d) ∧ OperationAt d "/foo" .get op ∧
    op.parameters.map (fun p => (p.in, p.name)) = [("header", "X-A"), ("header", "X-A")] := by
  obtain ⟨m, d, op, h1, h2, h3, h4⟩ := op_of
    (getWith "/foo" [sym "a", sym "String", punct .openParen, sym "header", punct .equals, str "X-A", punct .closeParen, nl,
      sym "b", sym "String", punct .openParen, sym "header", punct .equals, str "X-A", punct .closeParen, nl] "204") "/foo" .get
    (fun op => decide (op.parameters.map (fun p => (p.in, p.name)) = [("header", "X-A"), ("header", "X-A")])) (by decide +kernel) (by decide +kernel)
  exact ⟨m, d, op, h1, h2, h3, of_decide_eq_true h4⟩

/-- C115 is false: a response is listed under a number that is no status. -/
theorem C115_refuted_status : ∃ m d op, Accepted noLib m ∧ Exports plainO m (.ok d) ∧ OperationAt d "/foo" .get op ∧
    op.responses.map Prod.fst = ["7"] := by
  obtain ⟨m, d, op, h1, h2, h3, h4⟩ := op_of (getWith "/foo" [] "7") "/foo" .get (fun op => decide (op.responses.map Prod.fst = ["7"])) (by decide +kernel) (by decide +kernel)
  exact ⟨m, d, op, h1, h2, h3, of_decide_eq_true h4⟩

/-- C115 is false: with a question mark in the base path, the path of the document lacks the variable of its parameter. -/
theorem C115_refuted_base : ∃ m d op, Accepted noLib m ∧ Exports plainO m (.ok d) ∧ OperationAt d "/v1" .get op ∧
    op.parameters.map (fun p => (p.in, p.name)) = [("path", "id")] := by
  obtain ⟨m, d, op, h1, h2, h3, h4⟩ := op_of ([sym "base", str "/v1?a", nl] ++ getWith "/foo/{id}" [sym "id", sym "String", nl] "204") "/v1" .get
    (fun op => decide (op.parameters.map (fun p => (p.in, p.name)) = [("path", "id")])) (by decide +kernel) (by decide +kernel)
  exact ⟨m, d, op, h1, h2, h3, of_decide_eq_true h4⟩

end Sadl.Props
