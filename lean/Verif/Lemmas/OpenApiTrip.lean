import Verif.Lemmas.OpenApiActions
/-
Actions through the export to OpenAPI and the import from it.
-/
namespace Sadl
open Spec

section
variable {s : Schema} {m : Model} (hm : newModel s = .ok m) {lib : OLib}
include hm

theorem body_back {n : Nat} {uri method : String} {ins : List HttpParamSpec} (hk : ∀ p ∈ ins, OasInputKept s method uri p)
    (h1 : (ins.filter BodyInput).length ≤ 1) {rb rb' : Option OBody}
    (h2 : ins.filter BodyInput = [] → rb = none)
    (h3 : ∀ p, ins.filter BodyInput = [p] → ∃ sc, oasSchemaN n lib m p.field.ts "" = .ok sc ∧ rb = some (writtenBody p sc))
    (hrel : Option.Rel SameBody rb rb') :
    List.Forall₂ OasSameInput (ins.filter BodyInput) (importBody method rb') := by
  match hb : ins.filter BodyInput with
  | [] =>
    rw [h2 hb] at hrel
    cases hrel
    exact .nil
  | [p] =>
    obtain ⟨sc, hsc, he⟩ := h3 p hb
    rw [he] at hrel
    have hpm : p ∈ ins.filter BodyInput := by rw [hb]; simp
    obtain ⟨hp, hbody⟩ := List.mem_filter.1 hpm
    have hkp := hk p hp
    obtain ⟨b1, b2, td, b3, b4, b5⟩ := hkp.body hbody
    rw [b5] at hsc
    have hsc' : sc = { ref := refPrefix ++ td.name } := by
      cases n with
      | zero => simp [oasSchemaN] at hsc
      | succ n => rw [oasSchemaN_succ, named_step hm b3] at hsc; cases hsc; rfl
    subst hsc'
    cases hrel with
    | @some _ b' hsame =>
      have hc : (mget b'.content "application/json").bind (·.schema) = some { ref := refPrefix ++ td.name } := by
        have := hsame.content.2 "application/json"
        simp only [writtenBody, jsonContent, mget, if_true] at this
        generalize hg : mget b'.content "application/json" = o at this
        cases this with
        | some h => simp [h]
      have hmeth : method = "POST" ∨ method = "PUT" ∨ method = "PATCH" := by
        simp only [List.mem_cons, List.not_mem_nil, or_false] at b1
        tauto
      simp only [importBody, hmeth, if_true, hc, oasTypeRef_ref _ { ref := refPrefix ++ td.name } rfl, ne_eq, b4, not_false_eq_true]
      refine .cons ?_ .nil
      obtain ⟨a1, a2⟩ := hkp.bare
      have hd := hsame.description
      have hr := hsame.required
      simp only [writtenBody] at hd hr
      rw [hd, hr]
      obtain ⟨hd, qu, pa, ⟨fn, fc, fa, fd, fr, fts⟩⟩ := p
      simp only [BodyInput, Bool.and_eq_true, Bool.not_eq_true', decide_eq_true_eq, beq_iff_eq] at hbody
      dsimp only at a1 a2 b2 b5
      obtain ⟨rfl, rfl, rfl⟩ := hbody
      subst a1 a2 b2 b5
      simp [OasSameInput, BodyInput]
  | p :: q :: r => rw [hb] at h1; simp at h1

/-- An exported action is read as the action it was, up to the changes of `OasSameAction`. -/
theorem oas_action_back {n : Nat} {h : HttpDef} {op op' : OOperation} (hk : OasActionKept lib s h)
    (hop : exportOp (oasSchemaN n lib m) h = .ok op) (hs : SameOperation op op') :
    ∃ h' exs, convertOasPath (oasPath s.base h) op' h.method = .ok (h', exs) ∧ OasSameAction s.base h h' := by
  obtain ⟨uri, u1, u2, u3, u4⟩ := hk.uri
  obtain ⟨e, e1, e2, e3, e4, e5⟩ := hk.expected
  obtain ⟨x1, x2⟩ := hk.exceptions
  rw [oasPath_uri u1 u3]
  unfold exportOp at hop
  obtain ⟨op1, h1, hop⟩ := Ran.bind_eq_ok.1 hop
  rw [e1] at hop
  obtain ⟨r, h2, hop⟩ := Ran.bind_eq_ok.1 hop
  cases hop
  obtain ⟨i1, i2, i3, i4, ⟨qs, i5, i6⟩, i7, i8⟩ := exportInputs_written h1
  obtain ⟨o1, o2, o3, o4, o5⟩ := exportOutputs_written e5 h2
  obtain ⟨s1, s2, s3, s4, s5, s6⟩ := hs
  dsimp only at s1 s2 s3 s4 s5 s6
  -- inputs
  simp only [List.nil_append] at i5
  rw [i5] at s4
  have hkin : ∀ p ∈ h.inputs.filter (fun p => !BodyInput p), OasInputKept s h.method uri p ∧ BodyInput p = false := by
    intro p hp
    obtain ⟨h1, h2⟩ := List.mem_filter.1 hp
    exact ⟨u4 p h1, by simpa using h2⟩
  have hparams : List.Forall₂ (fun p q => ∃ sc, oasSchemaN n lib m p.field.ts "" = .ok sc ∧
      q = { writtenParam p sc with «example» := q.example, examples := q.examples }) (h.inputs.filter (fun p => !BodyInput p)) op'.parameters := by
    clear i5 hkin
    generalize h.inputs.filter (fun p => !BodyInput p) = ps at i6
    generalize op'.parameters = qs' at s4
    induction i6 generalizing qs' with
    | nil => cases s4; exact .nil
    | cons a _ ih =>
      cases s4 with
      | cons b hb =>
        obtain ⟨sc, a1, rfl⟩ := a
        exact .cons ⟨sc, a1, b⟩ (ih _ hb)
  obtain ⟨ps', p1, p2⟩ := params_back hm hkin hparams
  have hq := queries_back hkin (hparams.imp fun _ _ ⟨sc, _, h⟩ => ⟨sc, h⟩)
  rw [query_filter_body] at hq
  have hpath : (if importQueries op'.parameters = [] then s.base ++ uri
      else s.base ++ uri ++ "?" ++ String.ofList (joinWith '&' (importQueries op'.parameters))) = s.base ++ h.path := by
    rw [u3, queryText_join, hq]
    simp only
    split
    · simp
    · simp only [String.append_assoc]
  have hbody := body_back hm u4 hk.oneBody (fun h => (i7 h)) (fun p h => i8 p h) s5
  -- statuses
  have hst := status_text (n := e.status) ⟨e2, by omega⟩
  have hkey : ∀ x ∈ h.exceptions, statusKey x.status ≠ sprintInt e.status := by
    intro x hx he
    obtain ⟨b1, b2, b3⟩ := exception_key (x1 x hx).2
    rw [he, if_neg hst.2.2.1, hst.1] at b2
    have := Option.some_injective _ b2
    rcases (x1 x hx).2 with h | h <;> omega
  have xnd : (h.exceptions.map fun x => statusKey x.status).Nodup := by
    rw [show (fun x : HttpExceptionSpec => statusKey x.status) = statusKey ∘ (·.status) from rfl, ← List.map_map]
    refine List.Nodup.map_on ?_ x2
    intro a ha b hb heq
    obtain ⟨y, hy, rfl⟩ := List.mem_map.1 ha
    obtain ⟨z, hz, rfl⟩ := List.mem_map.1 hb
    exact exception_key_inj (x1 y hy).2 (x1 z hz).2 heq
  obtain ⟨s6, s7⟩ := s6
  have hexp : ∃ r', mget op'.responses (sprintInt e.status) = some r' ∧ SameResponse r r' := by
    have := s7 (sprintInt e.status)
    rw [exportExceptions_other _ _ _ hkey] at this
    simp only [mget, if_true] at this
    generalize mget op'.responses (sprintInt e.status) = o at this
    cases this with
    | some h => exact ⟨_, rfl, h⟩
  obtain ⟨r', r1, r2⟩ := hexp
  have hexc : ∀ k r'', (k, r'') ∈ op'.responses → k ≠ sprintInt e.status →
      ∃ x ∈ h.exceptions, statusKey x.status = k ∧ SameResponse (exportException x).2 r'' := by
    intro k r'' hmem hne
    have hg := mget_of_mem s6 hmem
    have := s7 k
    rw [hg] at this
    by_cases hx : ∃ x ∈ h.exceptions, statusKey x.status = k
    · obtain ⟨x, hx, rfl⟩ := hx
      rw [exportExceptions_mem _ _ xnd x hx] at this
      cases this with
      | some h => exact ⟨x, hx, rfl, h⟩
    · rw [exportExceptions_other _ _ _ (fun x hx' he => hx ⟨x, hx', he⟩)] at this
      simp only [mget, hne.symm, if_false] at this
      cases this
  have hfirst : expectedStatus op'.responses = sprintInt e.status := by
    refine expectedStatus_eq (mget_mem_keys r1) (hst.2.2.2.1.2 e3) ?_
    intro k hk' hp
    by_contra hne
    obtain ⟨⟨k, r''⟩, hmem, rfl⟩ := List.mem_map.1 hk'
    obtain ⟨x, hx, rfl, _⟩ := hexc k r'' hmem hne
    rcases (x1 x hx).2 with h0 | h0
    · rw [h0] at hp
      exact absurd hp (by dsimp only; decide +kernel)
    · have := (status_text (n := x.status) ⟨by omega, h0.2⟩).2.2.2.1
      have hs : statusKey x.status = sprintInt x.status := by unfold statusKey sprintInt; rw [if_neg (by omega)]
      dsimp only at hp
      rw [hs] at hp
      have := this.1 hp
      omega
  have hcode : expectedCode (sprintInt e.status) = .ok e.status := by
    unfold expectedCode
    rw [if_pos ⟨hst.2.2.1, hst.2.1⟩, hst.1]
  -- outputs
  have hhead : ∀ k d, (k, d) ∈ r'.headers → ∃ p ∈ e.outputs, p.header = k ∧ k ≠ "" ∧ ∃ sc, oasSchemaN n lib m p.field.ts "" = .ok sc ∧
      d = { description := p.field.comment, schema := some sc } := by
    intro k d hmem
    have hg := mget_of_mem r2.headers.1 hmem
    have := r2.headers.2 k
    rw [hg] at this
    by_cases hx : k ≠ "" ∧ ∃ p ∈ e.outputs, p.header = k
    · obtain ⟨hne, p, hp, rfl⟩ := hx
      obtain ⟨sc, k1, k2⟩ := o2 p hp hne
      rw [k2] at this
      cases this with
      | some h => exact ⟨p, hp, rfl, hne, sc, k1, h.symm⟩
    · rw [o3 k (by
        by_cases h0 : k = ""
        · exact .inl h0
        · right
          intro hc
          obtain ⟨p, hp, he⟩ := List.mem_map.1 hc
          exact hx ⟨h0, p, hp, he⟩)] at this
      simp only [mget] at this
      cases this
  obtain ⟨outs1, t1, t2⟩ := headers_back hm e5 e4 op'.operationId r'.headers hhead
  have hct : (mget r'.content "application/json").map (·.schema) = (mget r.content "application/json").map (·.schema) := by
    have := r2.content.2 "application/json"
    generalize mget r.content "application/json" = a at this
    generalize mget r'.content "application/json" = b at this
    cases this with
    | none => rfl
    | some h => simp [h]
  obtain ⟨outs2, t3, t4⟩ := result_back hm e5 e4 op'.operationId (c := r'.content)
    (fun p hp he => by
      obtain ⟨sc, k1, k2⟩ := o4 p hp he
      rw [k2] at hct
      refine ⟨sc, k1, ?_⟩
      cases hg : mget r'.content "application/json" with
      | none => rw [hg] at hct; simp at hct
      | some mt => rw [hg] at hct; simp at hct; simp [hct])
    (fun hne => by
      rw [o5 hne] at hct
      simpa [mget] using hct)
  obtain ⟨xs', t5, t6⟩ := exceptions_back xnd x1 (sprintInt e.status) op'.responses hexc
  obtain ⟨g1, g2⟩ := tags_back hk.tags
  unfold convertOasPath
  simp only [p1, hfirst, r1, hcode, t1, t3, t5, Out.bind, hpath, s1, i3, g1, g2]
  refine ⟨_, _, rfl, ?_⟩
  constructor
  · exact s3.trans i1
  · rfl
  · rfl
  · exact s2.trans i2
  · rfl
  · rfl
  · exact List.rel_append p2 hbody
  · refine ⟨e, _, _, e1, rfl, hst.2.2.2.2, fun hc => ?_, ?_, List.rel_append t2 t4⟩
    · dsimp only
      rw [r2.description, o1]
      simp [hc]
    · have hnil : "" ∉ r'.headers.map Prod.fst := by
        intro hc
        obtain ⟨⟨k, d⟩, hmem, he⟩ := List.mem_map.1 hc
        obtain ⟨p, _, _, hne, _⟩ := hhead k d hmem
        exact hne he
      have hp := filter_key_perm (fun p : HttpParamSpec => p.header) e.outputs (r'.headers.map Prod.fst ++ [""])
        (List.nodup_append.2 ⟨r2.headers.1, by simp, fun a ha b hb => by
          simp only [List.mem_singleton] at hb; subst hb; rintro rfl; exact hnil ha⟩)
        (fun p hp => by
          by_cases hne : p.header = ""
          · simp [hne]
          · obtain ⟨sc, k1, k2⟩ := o2 p hp hne
            have := r2.headers.2 p.header
            rw [k2] at this
            generalize hg : mget r'.headers p.header = o at this
            cases this with
            | some h => exact List.mem_append_left _ (mget_mem_keys hg))
      rw [List.flatMap_append] at hp
      simpa using hp
  · refine ⟨_, ?_, t6⟩
    refine filter_key_perm (fun x : HttpExceptionSpec => statusKey x.status) h.exceptions _ (s6.filter _) fun x hx => ?_
    refine List.mem_filter.2 ⟨?_, by simpa using hkey x hx⟩
    have := s7 (statusKey x.status)
    rw [exportExceptions_mem _ _ xnd x hx] at this
    generalize hg : mget op'.responses (statusKey x.status) = o at this
    cases this with
    | some h => exact mget_mem_keys hg

/-! ### All actions -/

theorem setEq_bare {α β : Type} {f : α → β} {a b : Option α} (h : a.map f = b.map f) : Option.Rel (fun x y => f x = f y) a b := by
  cases a <;> cases b <;> simp at h
  · exact .none
  · exact .some h

end

theorem sameContent_of_bare {a b c : GoMap OMedia} (h : bareContent b = bareContent a) (hs : SameContent b c) : SameContent a c := by
  refine ⟨hs.1, fun k => ?_⟩
  have h1 := hs.2 k
  have h2 : (mget b k).map OMedia.bare = (mget a k).map OMedia.bare := by
    rw [← mget_map, ← mget_map]
    exact congrArg (mget · k) h
  generalize mget a k = x at h2
  generalize mget b k = y at h1 h2
  generalize mget c k = z at h1
  cases h1 with
  | none => cases x <;> simp at h2; exact .none
  | some h =>
    cases x with
    | none => simp at h2
    | some x =>
      refine .some ?_
      simp only [Option.map_some, Option.some.injEq, OMedia.bare, OMedia.mk.injEq, and_true] at h2
      rw [h, h2]

theorem sameOperation_of_bare {a b c : OOperation} (h : b.bare = a.bare) (hs : SameOperation b c) : SameOperation a c := by
  simp only [OOperation.bare, OOperation.mk.injEq] at h
  obtain ⟨h1, h2, h3, h4, h5, h6⟩ := h
  obtain ⟨s1, s2, s3, s4, s5, s6⟩ := hs
  refine ⟨s1.trans h1, s2.trans h2, s3.trans h3, ?_, ?_, s6.1, fun k => ?_⟩
  · generalize a.parameters = pa at h4
    generalize b.parameters = pb at h4 s4
    generalize c.parameters = pc at s4
    induction s4 generalizing pa with
    | nil =>
      cases pa with
      | nil => exact .nil
      | cons => simp at h4
    | cons x _ ih =>
      cases pa with
      | nil => simp at h4
      | cons y r =>
        simp only [List.map_cons, List.cons.injEq] at h4
        refine .cons ?_ (ih r h4.2)
        rw [x]
        have := h4.1
        simp only [OParam.bare, OParam.mk.injEq, and_true] at this
        obtain ⟨e1, e2, e3, e4, e5⟩ := this
        simp only [e1, e2, e3, e4, e5]
  · generalize a.requestBody = x at h5
    generalize b.requestBody = y at h5 s5
    generalize c.requestBody = z at s5
    cases s5 with
    | none => cases x <;> simp at h5; exact .none
    | some hb =>
      cases x with
      | none => simp at h5
      | some x =>
        simp only [Option.map_some, Option.some.injEq, OBody.bare, OBody.mk.injEq] at h5
        exact .some ⟨hb.description.trans h5.1, hb.required.trans h5.2.1, sameContent_of_bare h5.2.2 hb.content⟩
  · have h7 : (mget b.responses k).map OResponse.bare = (mget a.responses k).map OResponse.bare := by
      rw [← mget_map, ← mget_map]
      exact congrArg (mget · k) h6
    have h8 := s6.2 k
    generalize mget a.responses k = x at h7
    generalize mget b.responses k = y at h7 h8
    generalize mget c.responses k = z at h8
    cases h8 with
    | none => cases x <;> simp at h7; exact .none
    | some hr =>
      cases x with
      | none => simp at h7
      | some x =>
        simp only [Option.map_some, Option.some.injEq, OResponse.bare, OResponse.mk.injEq] at h7
        exact .some ⟨hr.description.trans h7.1, h7.2.1 ▸ hr.headers, sameContent_of_bare h7.2.2 hr.content⟩

theorem importMethods_name {e : String × OMethod} (h : e ∈ importMethods) : e.1 = methodName e.2 := by
  simp only [importMethods, List.mem_cons, List.not_mem_nil, or_false] at h
  rcases h with rfl | rfl | rfl | rfl | rfl <;> rfl

/-- The actions at a place. -/
def actionsAt (base : String) (hs : List HttpDef) (path : String) (k : OMethod) : List HttpDef :=
  hs.filter fun h => decide ((oasPath base h, oasMethod h.method) = (path, some k))

section
variable {s : Schema} {m : Model} (hm : newModel s = .ok m) {lib : OLib}
include hm

theorem path_back {n : Nat} {hs : List HttpDef} (hk : ∀ h ∈ hs, OasActionKept lib s h) {path : String} {pi' : OPathItem}
    (ms : List (String × OMethod)) (hms : ∀ e ∈ ms, e.1 = methodName e.2)
    (h : ∀ e ∈ ms, (pi'.op e.2 = none ∧ actionsAt s.base hs path e.2 = []) ∨
      ∃ a op op', actionsAt s.base hs path e.2 = [a] ∧ pi'.op e.2 = some op' ∧ exportOp (oasSchemaN n lib m) a = .ok op ∧ SameOperation op op') :
    ∃ hs' exs, importPath path pi' ms = .ok (hs', exs) ∧
      List.Forall₂ (OasSameAction s.base) (ms.flatMap fun e => actionsAt s.base hs path e.2) hs' := by
  induction ms with
  | nil => exact ⟨[], [], rfl, .nil⟩
  | cons e rest ih =>
    obtain ⟨method, k⟩ := e
    obtain ⟨hs', exs, i1, i2⟩ := ih (fun e he => hms e (by simp [he])) (fun e he => h e (by simp [he]))
    rcases h (method, k) (by simp) with ⟨h1, h2⟩ | ⟨a, op, op', h1, h2, h3, h4⟩
    · dsimp only at h1 h2
      simp only [importPath, h1]
      exact ⟨hs', exs, i1, by simpa [h2] using i2⟩
    · dsimp only at h1 h2
      have ha : a ∈ actionsAt s.base hs path k := by rw [h1]; simp
      obtain ⟨ha1, ha2⟩ := List.mem_filter.1 ha
      simp only [Prod.mk.injEq, decide_eq_true_eq] at ha2
      obtain ⟨rfl, hmk⟩ := ha2
      have hka := hk a ha1
      have hmeth : method = a.method := by
        exact (hms (method, k) (by simp)).trans ((oasMethod_iff _ _).1 hmk).1.symm
      obtain ⟨h', exs', b1, b2⟩ := oas_action_back hm hka h3 h4
      obtain ⟨uri, u1, u2, u3, _⟩ := hka.uri
      have hpre : hasPrefix (oasPath s.base a) "x-" = false := by
        rw [oasPath_uri u1 u3]
        unfold hasPrefix
        rw [Bool.eq_false_iff]
        intro hc
        exact u2 (List.isPrefixOf_iff_prefix.1 hc)
      simp only [importPath, h2, hpre, Bool.false_eq_true, if_false, hmeth, b1, i1, Out.bind]
      refine ⟨_, _, rfl, ?_⟩
      rw [List.flatMap_cons, h1]
      exact .cons b2 i2

theorem paths_back {n : Nat} {hs : List HttpDef} (hk : ∀ h ∈ hs, OasActionKept lib s h) (l : GoMap OPathItem)
    (h : ∀ path pi', (path, pi') ∈ l → ∀ e ∈ importMethods, (pi'.op e.2 = none ∧ actionsAt s.base hs path e.2 = []) ∨
      ∃ a op op', actionsAt s.base hs path e.2 = [a] ∧ pi'.op e.2 = some op' ∧ exportOp (oasSchemaN n lib m) a = .ok op ∧ SameOperation op op') :
    ∃ hs' exs, importPaths l = .ok (hs', exs) ∧
      List.Forall₂ (OasSameAction s.base) (l.flatMap fun e => importMethods.flatMap fun f => actionsAt s.base hs e.1 f.2) hs' := by
  induction l with
  | nil => exact ⟨[], [], rfl, .nil⟩
  | cons e rest ih =>
    obtain ⟨path, pi'⟩ := e
    obtain ⟨hs2, exs2, i1, i2⟩ := ih fun p pi hp => h p pi (by simp [hp])
    obtain ⟨hs1, exs1, j1, j2⟩ := path_back hm hk importMethods (fun e he => importMethods_name he) (h path pi' (by simp))
    simp only [importPaths, j1, i1, Out.bind]
    exact ⟨_, _, rfl, List.rel_append j2 i2⟩

/-- The actions of an exported document are read back, in some order. -/
theorem oas_actions_back (hord : ∀ l, (lib.order l).Perm l) {n : Nat} {d : ODoc} (hd : exportOasN n lib m = .ok d)
    (hk : ∀ h ∈ s.http, OasActionKept lib s h) {l : GoMap OPathItem} (hl : SamePaths d.paths l) :
    ∃ hs hs' exs, importPaths l = .ok (hs', exs) ∧ hs.Perm s.http ∧ List.Forall₂ (OasSameAction s.base) hs hs' := by
  have hsch : m.schema = s := by obtain ⟨_, _, _, rfl⟩ := (newModel_ok_iff s m).1 hm; rfl
  obtain ⟨schemas, paths, _, h2, h3, h4⟩ := exportOas_ok hord hd
  obtain ⟨_, a2, a3, _, a5, _, _⟩ := exportHttp_ok h2
  rw [hsch] at a2 a3 a5
  have hpath : ∀ path k, pathOp d.paths path k = (mget d.paths path).bind (fun pi => pi.op k) := by
    intro path k
    unfold pathOp
    cases mget d.paths path with
    | none => cases k <;> rfl
    | some pi => rfl
  have hsome : ∀ a ∈ s.http, ∃ k, oasMethod a.method = some k := by
    intro a ha
    cases ho : oasMethod a.method with
    | none => exact absurd (hk a ha).method ((oasMethod_none_iff _).1 ho)
    | some k => exact ⟨k, rfl⟩
  have hone : ∀ a ∈ s.http, ∀ k, oasMethod a.method = some k → actionsAt s.base s.http (oasPath s.base a) k = [a] := by
    intro a ha k hak
    unfold actionsAt
    have := filter_key_one (f := fun h : HttpDef => (oasPath s.base h, oasMethod h.method)) (l := s.http) ?_ ha
    · simpa only [hak] using this
    · rw [List.Nodup, List.pairwise_map]
      refine List.Pairwise.imp_of_mem ?_ a5
      intro x y hx _ hxy he
      obtain ⟨k, hk'⟩ := hsome x hx
      simp only [Prod.mk.injEq] at he
      exact hxy (by simp [hk']) he.2 he.1
  have key : ∀ path pi', (path, pi') ∈ l → ∀ e ∈ importMethods, (pi'.op e.2 = none ∧ actionsAt s.base s.http path e.2 = []) ∨
      ∃ a op op', actionsAt s.base s.http path e.2 = [a] ∧ pi'.op e.2 = some op' ∧ exportOp (oasSchemaN n lib m) a = .ok op ∧ SameOperation op op' := by
    intro path pi' hmem e he
    have hg := mget_of_mem hl.1 hmem
    have hrel := hl.2 path
    rw [hg] at hrel
    generalize hdp : mget d.paths path = o at hrel
    cases hrel with
    | @some pi _ hrel =>
      have hrel := hrel e.2
      have hops := h4.ops path e.2
      rw [hpath, hdp, Option.bind_some] at hops
      generalize pi.op e.2 = x at hrel hops
      generalize pi'.op e.2 = y at hrel
      cases hrel with
      | none =>
        left
        refine ⟨rfl, List.filter_eq_nil_iff.2 fun a ha => ?_⟩
        simp only [Prod.mk.injEq, decide_eq_true_eq, not_and]
        intro hp hak
        obtain ⟨op, hop, _⟩ := a2 a ha e.2 hak
        rw [hp] at hop
        dsimp only at hops
        rw [hop] at hops
        simp at hops
      | @some op1 op' hsame =>
        right
        simp only [Option.map_some] at hops
        obtain ⟨op0, hop0, hbare⟩ := Option.map_eq_some_iff.1 hops.symm
        rcases a3 path e.2 op0 hop0 with hc | ⟨a, ha, hp, hak, hop⟩
        · cases hk2 : e.2 <;> rw [hk2] at hc <;> simp [pathOp, mget, OPathItem.op] at hc
        · subst hp
          exact ⟨a, op0, op', hone a ha _ hak, rfl, hop, sameOperation_of_bare hbare.symm hsame⟩
  obtain ⟨hs', exs, h5, h6⟩ := paths_back hm hk l key
  refine ⟨_, hs', exs, h5, ?_, h6⟩
  have hflat : (l.flatMap fun e => importMethods.flatMap fun f => actionsAt s.base s.http e.1 f.2) =
      (l.flatMap fun e => importMethods.map fun f => (e.1, some f.2)).flatMap
        fun k => s.http.filter fun h => decide ((oasPath s.base h, oasMethod h.method) = k) := by
    rw [List.flatMap_assoc]
    refine List.flatMap_congr fun e _ => ?_
    rw [List.flatMap_map]
    rfl
  rw [hflat]
  refine filter_key_perm _ _ _ ?_ ?_
  · rw [List.nodup_flatMap]
    refine ⟨fun e _ => ?_, ?_⟩
    · exact List.Nodup.map (by intro a b h; simpa using h) (by decide) |> fun (h : (List.map (fun k => (e.1, some k)) (importMethods.map Prod.snd)).Nodup) => by
        rwa [List.map_map] at h
    · have hd := hl.1
      unfold GoMap.Distinct at hd
      rw [List.Nodup, List.pairwise_map] at hd
      refine hd.imp fun {a b} hab => ?_
      intro x hx hx'
      obtain ⟨f, _, rfl⟩ := List.mem_map.1 hx
      obtain ⟨g, _, he⟩ := List.mem_map.1 hx'
      simp only [Prod.mk.injEq] at he
      exact hab he.1.symm
  · intro a ha
    obtain ⟨k, hak⟩ := hsome a ha
    obtain ⟨op, hop, _⟩ := a2 a ha k hak
    have hops := h4.ops (oasPath s.base a) k
    dsimp only at hops
    rw [hop, hpath] at hops
    have hrel := hl.2 (oasPath s.base a)
    generalize hdp : mget d.paths (oasPath s.base a) = x at hops hrel
    generalize hlp : mget l (oasPath s.base a) = y at hrel
    cases hrel with
    | none => simp at hops
    | some _ =>
      refine List.mem_flatMap.2 ⟨_, mget_mem hlp, List.mem_map.2 ?_⟩
      rw [hak]
      have : k = .get ∨ k = .put ∨ k = .post ∨ k = .delete := by
        obtain ⟨h1, h2⟩ := (oasMethod_iff _ _).1 hak
        rw [h1] at h2
        revert h2
        cases k <;> decide
      rcases this with rfl | rfl | rfl | rfl
      · exact ⟨("GET", .get), by simp [importMethods], rfl⟩
      · exact ⟨("PUT", .put), by simp [importMethods], rfl⟩
      · exact ⟨("POST", .post), by simp [importMethods], rfl⟩
      · exact ⟨("DELETE", .delete), by simp [importMethods], rfl⟩

end

end Sadl
