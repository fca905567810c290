import Verif.Lemmas.ParserPost
import Verif.Lemmas.Http
/-
What is known of the HTTP actions of a parsed source.
-/
namespace Sadl

/-- A parameter is in one place: the path, the query, a header or the body. -/
def Spec.OnePlace (p : HttpParamSpec) : Prop := (p.path = true → p.query = "" ∧ p.header = "") ∧ (p.query ≠ "" → p.header = "")

theorem mkParam_onePlace (path ename comment : String) (ts : TypeSpec) (o : Options) : Spec.OnePlace (mkParam path ename comment ts o) := by
  unfold mkParam Spec.OnePlace
  dsimp only
  split <;> simp

/-- A parameter in the path has a variable there. -/
def Spec.PlacedIn (path : String) (p : HttpParamSpec) : Prop := p.path = true → Spec.Occurs (Spec.braced p.field.name) (pathPart path.toList)

theorem mkParam_placedIn (path ename comment : String) (ts : TypeSpec) (o : Options) : Spec.PlacedIn path (mkParam path ename comment ts o) := by
  unfold mkParam Spec.PlacedIn
  dsimp only
  split
  · next h =>
    intro _
    rw [parameterSource_eq] at h
    split_ifs at h with h1 h2
    · exact (containsSub_iff _ _).1 h2
    · split at h <;> cases h
  all_goals intro h; cases h

theorem ret_parseHttpParam_place (lib : PLib) (path ename comment : String) :
    Ret (parseHttpParam lib path ename comment) (fun p => Spec.OnePlace p ∧ Spec.PlacedIn path p) := by
  unfold parseHttpParam
  exact ret_bind' (fun _ => ret_bind' (fun _ => ret_bind' (fun _ => ret_pure ⟨mkParam_onePlace .., mkParam_placedIn _ _ _ _ _⟩)))

/-- The parts of an action that its body does not change, and its exceptions. -/
structure SameHead (op0 op : HttpDef) : Prop where
  method : op.method = op0.method
  path : op.path = op0.path
  name : op.name = op0.name
  resource : op.resource = op0.resource
  exceptions : (op.exceptions.map (·.type)).Nodup
  places : ∀ p ∈ op.inputs, Spec.OnePlace p ∧ Spec.PlacedIn op0.path p

theorem ret_parseHttpExpectedSpec (lib : PLib) (op0 op : HttpDef) (c : String) (h : SameHead op0 op) :
    Ret (parseHttpExpectedSpec lib op c) (SameHead op0) := by
  unfold parseHttpExpectedSpec
  split
  · exact ret_fail
  · refine ret_bind' (fun _ => ret_bind' (fun _ => ret_bind' (fun _ => ret_bind' (fun _ => ret_bind' (fun _ => ?_)))))
    exact ret_pure ⟨h.1, h.2, h.3, h.4, h.5, h.6⟩

theorem ret_parseHttpExceptionSpec (lib : PLib) (op0 op : HttpDef) (c : String) (h : SameHead op0 op) :
    Ret (parseHttpExceptionSpec lib op c) (SameHead op0) := by
  unfold parseHttpExceptionSpec
  refine ret_bind' (fun _ => ret_bind' (fun _ => ret_bind' (fun _ => ret_bind' (fun etype => ?_))))
  refine ret_ite (fun _ => ret_fail) (fun hd => ?_)
  refine ret_bind' (fun _ => ret_bind' (fun _ => ?_))
  refine ret_pure ⟨h.1, h.2, h.3, h.4, ?_, h.6⟩
  rw [List.map_append, List.nodup_append]
  refine ⟨h.5, by simp, ?_⟩
  intro a ha b hb
  simp only [List.map_cons, List.map_nil, List.mem_singleton] at hb
  subst hb
  rintro rfl
  obtain ⟨x, hx, he⟩ := List.mem_map.1 ha
  exact hd (List.any_eq_true.2 ⟨x, hx, by simp [he]⟩)

theorem ret_parseHttpSpec (lib : PLib) (op0 op : HttpDef) (c : String) (h : SameHead op0 op) :
    Ret (parseHttpSpec lib op c) (SameHead op0) := by
  unfold parseHttpSpec
  refine ret_bind' (fun e => ?_)
  refine ret_ite (fun _ => ret_parseHttpExpectedSpec lib op0 op c h) (fun _ => ?_)
  refine ret_ite (fun _ => ret_parseHttpExceptionSpec lib op0 op c h) (fun _ => ?_)
  refine ret_bind (ret_parseHttpParam_place lib _ _ _) (fun p hp => ret_pure ⟨h.1, h.2, h.3, h.4, h.5, fun q hq => ?_⟩)
  rcases List.mem_append.1 hq with hq | hq
  · exact h.6 q hq
  · rw [← h.path]; exact List.mem_singleton.1 hq ▸ hp

theorem ret_httpLoop (lib : PLib) (op0 : HttpDef) (h : SameHead op0 op0) :
    Ret (P.loop (httpStep lib) op0) (SameHead op0) := by
  refine ret_loop (I := SameHead op0) h ?_
  intro op hop
  unfold httpStep
  refine ret_bind' (fun r => ?_)
  refine ret_ite (fun _ => ret_pure hop) (fun _ => ?_)
  exact ret_bind (ret_parseHttpSpec lib op0 op r.2 hop) (fun a ha => ret_pure ha)

/-- What is known of a parsed action. -/
structure ParsedHttp (h : HttpDef) : Prop where
  method : h.method ∈ httpMethods
  exceptions : (h.exceptions.map (·.type)).Nodup
  named : h.name = "" → resourceName h.path = ""
  places : ∀ p ∈ h.inputs, Spec.OnePlace p
  placed : ∀ p ∈ h.inputs, Spec.PlacedIn h.path p

theorem ensureRequiredParams_head (h : HttpDef) :
    (ensureRequiredParams h).method = h.method ∧ (ensureRequiredParams h).path = h.path ∧
    (ensureRequiredParams h).name = h.name ∧ (ensureRequiredParams h).resource = h.resource ∧
    (ensureRequiredParams h).exceptions = h.exceptions := ⟨rfl, rfl, rfl, rfl, rfl⟩

theorem ensureActionName_head (h : HttpDef) :
    (ensureActionName h).method = h.method ∧ (ensureActionName h).path = h.path ∧
    (ensureActionName h).exceptions = h.exceptions := by
  unfold ensureActionName ensureResourceName
  dsimp only
  split_ifs <;> exact ⟨rfl, rfl, rfl⟩

theorem ensureActionName_named (h : HttpDef) (hm : h.method ≠ "") (hn : (ensureActionName h).name = "") :
    resourceName h.path = "" := by
  have hl : ∀ r : String, lowerS h.method ++ capitalize r ≠ "" := by
    intro r h'
    have := congrArg String.toList h'
    simp only [String.toList_append, lowerS, String.toList_ofList, String.toList_empty, List.append_eq_nil_iff,
      List.map_eq_nil_iff] at this
    exact hm (String.toList_inj.1 (by simpa using this.1))
  unfold ensureActionName ensureResourceName actionName at hn
  by_cases h1 : h.name = ""
  · by_cases h2 : h.resource = ""
    · by_contra h3
      simp only [h1, h2, h3, if_true, if_false] at hn
      exact hl _ hn
    · simp only [h1, h2, if_true, if_false] at hn
      exact absurd hn (hl _)
  · rw [if_neg h1] at hn; exact absurd hn h1

theorem ret_parseHttpDirective (lib : PLib) (c : String) : Ret (parseHttpDirective lib c) ParsedHttp := by
  unfold parseHttpDirective
  refine ret_bind' (fun symb => ?_)
  dsimp only
  refine ret_ite (fun _ => ret_fail) (fun hm => ?_)
  have hm' : upperS symb ∈ httpMethods := not_not.1 hm
  refine ret_bind' (fun path => ret_bind' (fun o => ret_bind' (fun t => ?_)))
  refine ret_ite (fun _ => ?_) (fun _ => ret_syntaxError)
  refine ret_bind' (fun c' => ?_)
  refine ret_bind (ret_httpLoop lib _ ⟨rfl, rfl, rfl, rfl, by simp, by simp⟩) (fun op hop => ?_)
  refine ret_bind' (fun r => ret_pure ?_)
  have he := ensureActionName_head { op with comment := r.1 }
  constructor
  · rw [(ensureRequiredParams_head _).1, he.1]
    exact hop.method ▸ hm'
  · rw [(ensureRequiredParams_head _).2.2.2.2, he.2.2]
    exact hop.exceptions
  · intro hn
    rw [(ensureRequiredParams_head _).2.2.1] at hn
    rw [(ensureRequiredParams_head _).2.1, he.2.1]
    refine ensureActionName_named _ ?_ hn
    show op.method ≠ ""
    rw [hop.method]
    intro h0
    rw [show upperS symb = "" from h0] at hm'
    exact absurd hm' (by decide)
  all_goals
    intro p hp
    have e2 : (ensureActionName { op with comment := r.1 }).inputs = op.inputs := by
      unfold ensureActionName ensureResourceName
      dsimp only
      split_ifs <;> rfl
    unfold ensureRequiredParams at hp
    dsimp only at hp
    rw [e2] at hp
    obtain ⟨q, hq, rfl⟩ := List.mem_map.1 hp
    have := hop.places q hq
  · unfold requireInput
    split_ifs
    · exact this.1
    · exact this.1
  · rw [(ensureRequiredParams_head _).2.1, he.2.1]
    have hpath : op.path = path := hop.path
    show Spec.PlacedIn op.path _
    rw [hpath]
    unfold requireInput
    split_ifs
    · exact this.2
    · exact this.2

/-- What is known of every action of a parsed file. -/
theorem parsedHttp_of_file {lib : PLib} {files : String → Option (List Token)} {n : Nat} {f : String} {m : Model}
    (h : parseFileN lib files n f = some (.ok m)) : ∀ x ∈ m.schema.http, ParsedHttp x :=
  (parseFileN_all (PT := fun _ => True) (PH := ParsedHttp) (PO := fun _ => True) (PE := fun _ => True)
    (fun _ _ _ => trivial) (fun _ _ hx => ⟨hx.1, hx.2, hx.3, hx.4, hx.5⟩) (fun _ _ _ => trivial)
    (fun _ => ret_true _) (ret_parseHttpDirective lib) (fun _ => ret_true _) (fun _ => ret_true _) n f m h).http

end Sadl
