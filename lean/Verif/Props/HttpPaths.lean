import Verif.Lemmas.Http
import Verif.Lemmas.ParserHttp
import Verif.Lemmas.ParserRun
import Verif.Props.Parsing
/-
C24 path templates, C25 parameter sources, C27 responses, C28 action names.
-/
namespace Sadl.Props
open Sadl Sadl.Spec

/-! ### C24 -/

/-- C24: a path template is accepted exactly when the part before the query is well-formed. -/
theorem C24_template_exact (path : String) (p q : List Char) (h : PathAndQuery path.toList p q) :
    pathTemplateOk path = true ↔ Template p := by
  rw [(pathAndQuery_unique h).1]
  exact pathLoop_iff _

/-- Every template has such a part. -/
theorem C24_template_split (path : String) : ∃ p q, PathAndQuery path.toList p q :=
  ⟨_, _, pathAndQuery _⟩

example : PathAndQuery "/a/{b}?c={d".toList "/a/{b}".toList "c={d".toList ∧ Template "/a/{b}".toList :=
  ⟨⟨by decide, .inl (by decide)⟩, (pathLoop_iff _).1 (by decide)⟩

example : ¬ Template "/a/{b/c}".toList := by rw [← pathLoop_iff]; decide

/-! ### C25 -/

/-- The item `key={name}` of a query, possibly followed by `=` and more. -/
def NamesParam (name : String) (item key : List Char) : Prop :=
  '=' ∉ key ∧ (item = key ++ '=' :: braced name ∨ ∃ more, item = key ++ '=' :: braced name ++ '=' :: more)

theorem split_item {name : String} (hn : '=' ∉ name.toList) (item k : List Char) :
    (∃ more, splitAll '=' item = k :: braced name :: more) ↔ NamesParam name item k := by
  have hb : '=' ∉ braced name := by simp [braced, hn]
  constructor
  · rintro ⟨more, h⟩
    have hj := joinWith_splitAll '=' item
    have hk : '=' ∉ k := not_mem_splitAll '=' item k (by rw [h]; simp)
    rw [h] at hj
    refine ⟨hk, ?_⟩
    cases more with
    | nil => exact .inl (by rw [← hj]; rfl)
    | cons m ms => exact .inr ⟨joinWith '=' (m :: ms), by rw [← hj]; simp [joinWith]⟩
  · rintro ⟨hk, rfl | ⟨more, rfl⟩⟩
    · exact ⟨[], by rw [splitAll_append hk, splitAll_not_mem hb]⟩
    · exact ⟨splitAll '=' more, by
        rw [List.append_assoc, List.cons_append, splitAll_append hk, splitAll_append hb]⟩

/-- C25: the source of a parameter is exactly one of the four, and which one is decided by
the header option, the path, and the first query item naming the parameter.  (The query
item may go on after `key={name}=`, see `C25_refuted`.) -/
theorem C25_source_exact (path name header : String) (p q : List Char) (items : List (List Char))
    (hn : '=' ∉ name.toList) (hpq : PathAndQuery path.toList p q) (hi : Pieces '&' q items) :
    (∀ h, parameterSource path name header = .header h ↔ header ≠ "" ∧ h = header) ∧
    (parameterSource path name header = .path ↔ header = "" ∧ Occurs (braced name) p) ∧
    (∀ k, parameterSource path name header = .query k ↔ header = "" ∧ ¬ Occurs (braced name) p ∧
      ∃ before item after, items = before ++ item :: after ∧ NamesParam name item k.toList ∧
        ∀ i ∈ before, ∀ k', ¬ NamesParam name i k') ∧
    (parameterSource path name header = .body ↔ header = "" ∧ ¬ Occurs (braced name) p ∧
      ∀ i ∈ items, ∀ k', ¬ NamesParam name i k') := by
  obtain ⟨rfl, rfl⟩ := pathAndQuery_unique hpq
  have hI := pieces_unique hi
  subst hI
  rw [parameterSource_eq]
  by_cases hh : header = ""
  · simp only [hh, ne_eq, not_true, if_false, false_and, true_and]
    by_cases ho : containsSub (braced name) (pathPart path.toList) = true
    · have ho' := (containsSub_iff _ _).1 ho
      simp [ho', ho]
    · have ho' : ¬ Occurs (braced name) (pathPart path.toList) := fun h => ho ((containsSub_iff _ _).2 h)
      simp only [ho, ho', not_false_eq_true, true_and, Bool.false_eq_true, if_false, and_false]
      have hq := queryKey_some (braced name) (splitAll '&' (queryPart path.toList))
      cases hk : queryKey (braced name) (splitAll '&' (queryPart path.toList)) with
      | none =>
        have hall : ∀ i ∈ splitAll '&' (queryPart path.toList), ∀ k', ¬ NamesParam name i k' := by
          intro i hi' k' hnk
          -- the first item that names the parameter would be found
          have : ∀ (l : List (List Char)), (∃ i ∈ l, ∃ k', NamesParam name i k') → queryKey (braced name) l ≠ none := by
            intro l
            induction l with
            | nil => simp
            | cons x r ih =>
              rintro ⟨i, hi, k', hk'⟩ hnone
              rw [queryKey] at hnone
              rcases List.mem_cons.1 hi with rfl | hi
              · obtain ⟨m, hm⟩ := (split_item hn i k').2 hk'
                rw [hm] at hnone; simp at hnone
              · refine ih ⟨i, hi, k', hk'⟩ ?_
                split at hnone
                · split_ifs at hnone; exact hnone
                · exact hnone
          exact this _ ⟨i, hi', k', hnk⟩ hk
        refine ⟨by simp, by simp, ?_, by simpa using hall⟩
        intro k
        constructor
        · intro h; cases h
        · rintro ⟨b, i, a, h1, h2, _⟩
          exact absurd h2 (hall i (by rw [h1]; simp) _)
      | some k0 =>
        obtain ⟨b, i, a, h1, h2, h3⟩ := (hq k0).1 hk
        have h2' := (split_item hn i k0).1 h2
        refine ⟨by simp, by simp, ?_, ?_⟩
        · intro k
          simp only [ParamSource.query.injEq]
          constructor
          · intro h
            have hk0 : k0 = k.toList := by rw [← h, String.toList_ofList]
            subst hk0
            refine ⟨b, i, a, h1, h2', ?_⟩
            intro j hj k' hjk
            obtain ⟨m, hm⟩ := (split_item hn j k').2 hjk
            exact h3 j hj k' m hm
          · rintro ⟨b', i', a', g1, g2, g3⟩
            have := (hq k.toList).2 ⟨b', i', a', g1, (split_item hn i' _).2 g2,
              fun j hj k' m hm => g3 j hj k' ((split_item hn j k').1 ⟨m, hm⟩)⟩
            rw [hk] at this
            injection this with this
            rw [this, String.ofList_toList]
        · simp only [reduceCtorEq, false_iff]
          intro hall
          exact hall i (by rw [h1]; simp) k0 h2'
  · simp only [ne_eq, hh, not_false_eq_true, if_true, ParamSource.header.injEq, true_and, reduceCtorEq, false_and,
      iff_false, not_false_eq_true, implies_true, and_true]
    exact fun h => ⟨fun e => e.symm, fun e => e.symm⟩

/-- C25: as claimed, when no query item has a second `=`. -/
theorem C25_query_whole_item (path name header : String) (p q : List Char) (items : List (List Char))
    (hn : '=' ∉ name.toList) (hpq : PathAndQuery path.toList p q) (hi : Pieces '&' q items)
    (h1 : ∀ i ∈ items, i.count '=' ≤ 1) (k : String) (hk : parameterSource path name header = .query k) :
    k.toList ++ '=' :: braced name ∈ items := by
  obtain ⟨_, _, b, i, a, e, hi', _⟩ := (C25_source_exact path name header p q items hn hpq hi).2.2.1 k |>.1 hk
  have hm : i ∈ items := by rw [e]; simp
  obtain ⟨_, rfl | ⟨more, rfl⟩⟩ := hi'
  · exact hm
  · have := h1 _ hm
    simp only [List.count_append, List.count_cons_self] at this
    omega

/-- C25 is false as stated: an item that goes on after `key={name}` also makes the
parameter a query parameter. -/
theorem C25_refuted : parameterSource "/x?k={a}=b" "a" "" = .query "k" := by decide +kernel

/-- The parameter records its source, and no other. -/
theorem C25_recorded_once (path name comment : String) (ts : TypeSpec) (o : Options) :
    let p := mkParam path name comment ts o
    (p.path = true → p.query = "" ∧ p.header = "") ∧ (p.query ≠ "" → p.path = false ∧ p.header = "") ∧
    (p.header ≠ "" → p.path = false ∧ p.query = "") := by
  intro p
  simp only [p, mkParam]
  cases parameterSource path name o.header <;> simp

example : parameterSource "/a/{b}?k={d}&x={b}" "b" "" = .path ∧ parameterSource "/a/{b}?k={d}&x={b}" "d" "" = .query "k" ∧
    parameterSource "/a/{b}?k={d}&x={b}" "e" "" = .body ∧ parameterSource "/a/{b}" "b" "X-B" = .header "X-B" := by
  decide +kernel

/-! ### C27 -/

/-- C27: no action of a parsed file, or of the files it includes, declares an exception type
twice; its method is one of the seven known ones. -/
theorem C27_exceptions_distinct (lib : PLib) (files : String → Option (List Token)) (n : Nat) (f : String) (m : Model)
    (h : parseFileN lib files n f = some (.ok m)) :
    ∀ x ∈ m.schema.http, (x.exceptions.map (·.type)).Nodup ∧
      x.method ∈ ["GET", "PUT", "POST", "DELETE", "PATCH", "HEAD", "OPTIONS"] := by
  intro x hx
  have := parsedHttp_of_file h x hx
  refine ⟨this.exceptions, ?_⟩
  have hm := this.method
  simp only [httpMethods, List.mem_cons, List.not_mem_nil, or_false] at hm ⊢
  tauto

/-- C27: a second `expect` in the body of an action is an error. -/
theorem C27_second_expect (lib : PLib) (op : HttpDef) (e : HttpExpectedSpec) (c : String) (rest : List Token)
    (l1 l2 : Option Token) (h : op.expected = some e) :
    ∃ msg s', parseHttpSpec lib op c { toks := sym "expect" :: rest, last := l1, prevLast := l2 } = .err msg s' := by
  have e1 : parseHttpSpec lib op c { toks := sym "expect" :: rest, last := l1, prevLast := l2 } =
      parseHttpExpectedSpec lib op c { toks := rest, last := some (sym "expect"), prevLast := l1 } := rfl
  rw [e1]
  unfold parseHttpExpectedSpec
  rw [h]
  exact ⟨_, _, rfl⟩

/-- C27: a repeated exception type is an error. -/
theorem C27_second_exception (lib : PLib) (op : HttpDef) (c ty : String) (rest : List Token)
    (l1 l2 : Option Token) (h : ∃ x ∈ op.exceptions, x.type = ty) :
    ∃ msg s', parseHttpSpec lib op c { toks := sym "except" :: sym ty :: rest, last := l1, prevLast := l2 } = .err msg s' := by
  have h' : op.exceptions.any (fun exc => exc.type == ty) = true := by
    obtain ⟨x, hx, he⟩ := h
    exact List.any_eq_true.2 ⟨x, hx, by simp [he]⟩
  have e1 : parseHttpSpec lib op c { toks := sym "except" :: sym ty :: rest, last := l1, prevLast := l2 } =
      (if op.exceptions.any (fun exc => exc.type == ty) then P.fail "Duplicate HTTP action exception type"
        else do
          let options ← parseOptions lib []
          let c ← endOfStatement! c
          pure { op with exceptions := op.exceptions ++
            [{ type := ty, status := 0, annotations := options.annotations, comment := c }] } : P HttpDef)
        { toks := rest, last := some (sym ty), prevLast := some (sym "except") } := rfl
  rw [e1, if_pos h']
  exact ⟨_, _, rfl⟩

/-- a file with an action and two exceptions -/
example : (match parseFileN noLib (fun _ => some [sym "http", sym "GET", str "/foo", punct .openBrace, nl,
      sym "except", sym "A", nl, sym "except", sym "B", nl, punct .closeBrace, nl]) 1 "f" with
    | some (.ok m) => m.schema.http.map (fun h => (h.name, h.exceptions.map (·.type))) | _ => []) =
    [("getFoo", ["A", "B"])] := by decide +kernel

/-! ### C28 -/

/-- C28: an action without a name and resource gets the lower-cased method followed by the
capitalised last segment without a variable, when that segment is not empty. -/
theorem C28_default_name (h : HttpDef) (before after : List (List Char)) (seg : List Char) (hn : h.name = "")
    (hr : h.resource = "") (hp : Pieces '/' h.path.toList (before ++ seg :: after)) (hs : '{' ∉ seg)
    (ha : ∀ a ∈ after, '{' ∈ a) (hne : seg ≠ []) :
    (ensureActionName h).name = lowerS h.method ++ capitalize (String.ofList seg) ∧
    (ensureActionName h).resource = String.ofList seg := by
  have e : resourceName h.path = String.ofList seg := by
    unfold resourceName
    rw [← pieces_unique hp, resourceNameL_eq rfl hs ha]
  have hne' : String.ofList seg ≠ "" := by
    intro h'
    have := congrArg String.toList h'
    rw [String.toList_ofList] at this
    exact hne this
  unfold ensureActionName ensureResourceName actionName
  rw [if_pos hn, if_pos hr, e]
  simp [hne']

/-- C28: a resource option takes the place of the segment; an explicit name is kept. -/
theorem C28_explicit (h : HttpDef) :
    (h.name ≠ "" → ensureActionName h = h) ∧
    (h.name = "" → h.resource ≠ "" → (ensureActionName h).name = lowerS h.method ++ capitalize h.resource) := by
  unfold ensureActionName ensureResourceName actionName
  constructor
  · intro hn; rw [if_neg hn]
  · intro hn hr; rw [if_pos hn, if_neg hr, if_neg hr]

/-- C28 (part): the name is not empty if the action has a name, or a method and either a
resource or a non-empty last segment without a variable. -/
theorem C28_name_not_empty_partial (h : HttpDef) (hm : h.method ≠ "")
    (hx : h.name ≠ "" ∨ h.resource ≠ "" ∨ resourceName h.path ≠ "") : (ensureActionName h).name ≠ "" := by
  have hl : ∀ r : String, lowerS h.method ++ capitalize r ≠ "" := by
    intro r h'
    have := congrArg String.toList h'
    simp only [String.toList_append, lowerS, String.toList_ofList, String.toList_empty, List.append_eq_nil_iff,
      List.map_eq_nil_iff] at this
    exact hm (String.toList_inj.1 (by simpa using this.1))
  unfold ensureActionName ensureResourceName actionName
  by_cases hn : h.name = ""
  · rw [if_pos hn]
    by_cases hr : h.resource = ""
    · have hp : resourceName h.path ≠ "" := by
        rcases hx with h' | h' | h'
        · exact absurd hn h'
        · exact absurd hr h'
        · exact h'
      simp only [hr, if_true, hp, if_false]
      exact hl _
    · simp only [hr, if_false]
      exact hl _
  · rw [if_neg hn]; exact hn

/-- C28, from the source: an `http` directive without options, whatever its body, defines an
action with the default name. -/
theorem C28_unnamed_action (lib : PLib) (c mth path : String) (rest : List Token) (l1 l2 : Option Token) (h : HttpDef)
    (s' : TState) (before after : List (List Char)) (seg : List Char)
    (hrun : parseHttpDirective lib c
      { toks := sym mth :: str path :: punct .openBrace :: rest, last := l1, prevLast := l2 } = .ok h s')
    (hp : Pieces '/' path.toList (before ++ seg :: after)) (hs : '{' ∉ seg)
    (ha : ∀ a ∈ after, '{' ∈ a) (hne : seg ≠ []) :
    h.method = upperS mth ∧ h.path = path ∧ h.name = lowerS (upperS mth) ++ capitalize (String.ofList seg) := by
  by_cases hm : upperS mth ∈ httpMethods
  · -- the run up to the opening brace
    have hrun' : (do
        let c' ← parseTrailingComment c
        let op ← P.loop (httpStep lib) { method := upperS mth, path := path, comment := c' }
        let r ← endOfStatement op.comment
        pure (ensureRequiredParams (ensureActionName { op with comment := r.1 })) : P HttpDef)
          { toks := rest, last := some (punct .openBrace), prevLast := some (str path) } = .ok h s' := by
      rw [← hrun]
      have e : parseHttpDirective lib c
          { toks := sym mth :: str path :: punct .openBrace :: rest, last := l1, prevLast := l2 } =
          (if upperS mth ∉ httpMethods then P.fail "HTTP 'method' invalid"
          else do
            let path ← expectString
            let options ← parseOptions lib ["action", "operation", "resource"]
            let op : HttpDef := { method := upperS mth, path := path, name := options.action, resource := options.resource, annotations := options.annotations }
            let tok ← nextToken
            if tok.type = .openBrace then do
              let c ← parseTrailingComment c
              let op ← P.loop (httpStep lib) { op with comment := c }
              let r ← endOfStatement op.comment
              pure (ensureRequiredParams (ensureActionName { op with comment := r.1 }))
            else syntaxError : P HttpDef)
            { toks := str path :: punct .openBrace :: rest, last := some (sym mth), prevLast := l1 } := rfl
      rw [e, if_neg (not_not.2 hm)]
      rfl
    have hret : Ret (do
        let c' ← parseTrailingComment c
        let op ← P.loop (httpStep lib) { method := upperS mth, path := path, comment := c' }
        let r ← endOfStatement op.comment
        pure (ensureRequiredParams (ensureActionName { op with comment := r.1 })) : P HttpDef)
        (fun h => h.method = upperS mth ∧ h.path = path ∧
          h.name = lowerS (upperS mth) ++ capitalize (String.ofList seg)) := by
      refine ret_bind' (fun c' => ?_)
      refine ret_bind (ret_httpLoop lib _ ⟨rfl, rfl, rfl, rfl, by simp, by simp⟩) (fun op hop => ?_)
      refine ret_bind' (fun r => ret_pure ?_)
      have he := ensureActionName_head { op with comment := r.1 }
      have hp' := hop.path
      have hd := C28_default_name { op with comment := r.1 } before after seg (by simpa using hop.name)
        (by simpa using hop.resource) (by simpa [hp'] using hp) hs ha hne
      rw [(ensureRequiredParams_head _).1, (ensureRequiredParams_head _).2.1, (ensureRequiredParams_head _).2.2.1,
        he.1, he.2.1, hd.1]
      exact ⟨hop.method, hp', by rw [show ({ op with comment := r.1 } : HttpDef).method = op.method from rfl, hop.method]⟩
    exact hret _ _ _ hrun'
  · exfalso
    unfold parseHttpDirective at hrun
    have e : expectIdentifier { toks := sym mth :: str path :: punct .openBrace :: rest, last := l1, prevLast := l2 } =
      .ok mth { toks := str path :: punct .openBrace :: rest, last := some (sym mth), prevLast := l1 } := rfl
    rw [bind_ok e] at hrun
    dsimp only at hrun
    rw [if_pos hm] at hrun
    cases hrun

/-- C28 (part), from the source: only when the path ends in no literal segment can an
action of a parsed file be without a name. -/
theorem C28_file_partial (lib : PLib) (files : String → Option (List Token)) (n : Nat) (f : String) (m : Model)
    (h : parseFileN lib files n f = some (.ok m)) (x : HttpDef) (hx : x ∈ m.schema.http) (before after : List (List Char))
    (seg : List Char) (hp : Pieces '/' x.path.toList (before ++ seg :: after)) (hs : '{' ∉ seg)
    (ha : ∀ a ∈ after, '{' ∈ a) (hne : seg ≠ []) : x.name ≠ "" := by
  intro hn
  have := (parsedHttp_of_file h x hx).named hn
  unfold resourceName at this
  rw [← pieces_unique hp, resourceNameL_eq rfl hs ha] at this
  have := congrArg String.toList this
  rw [String.toList_ofList] at this
  exact hne this

/-- C28 is false: a path whose segments all hold a variable gives an action without a name. -/
theorem C28_refuted :
    (match parseSchema noLib (fun _ => none) {} [sym "http", sym "GET", str "{id}", punct .openBrace, nl,
        punct .closeBrace, nl] with
      | .ok s _ => s.http.map (·.name) | _ => ["?"]) = [""] ∧
    (ensureActionName { method := "GET", path := "/foo?x={x}" }).name = "" ∧
    (ensureActionName { method := "GET", path := "/foo/" }).name = "" := by
  refine ⟨by decide +kernel, by decide +kernel, by decide +kernel⟩

example : (ensureActionName { method := "GET", path := "/foo/{id}" }).name = "getFoo" := by decide +kernel

end Sadl.Props
