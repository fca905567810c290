import Verif.Lemmas.SmithyShapes
import Verif.Spec.SmithyOps
/-
The actions and operations imported for the operations of a Smithy model.
-/
namespace Sadl
namespace Smithy
open Sadl.Spec

theorem textIs (t : Traits) (k : String) : TextIs t k (t.str k) where
  set v h := by unfold Traits.str; rw [h]; rfl
  unset h := by unfold Traits.str; rw [h]

theorem flagIs (lib : SLib) (t : Traits) (k : String) : FlagIs t k (t.bool lib k) where
  set v h := by unfold Traits.bool; rw [h]
  unset h := by unfold Traits.bool; rw [h]

theorem boundAs (lib : SLib) (km : String × Member) : BoundAs km (importInput lib km) :=
  ⟨rfl, targetIs _, flagIs _ _ _, flagIs _ _ _, textIs _ _, textIs _ _⟩

theorem boundAs_all (lib : SLib) (ms : List (String × Member)) : List.Forall₂ BoundAs ms (ms.map (importInput lib)) := by
  induction ms with
  | nil => exact .nil
  | cons km rest ih => exact .cons (boundAs lib km) ih

theorem binds_of {lib : SLib} {ms : GoMap Member}
    (h : ∃ km ∈ ms, mget km.2.traits "smithy.api#httpPayload" = some (.bool true) ∨ mget km.2.traits "smithy.api#httpLabel" = some (.bool true)) :
    bindsInput lib ms = true ∧ bindsOutput lib ms = true := by
  obtain ⟨km, h1, h2⟩ := h
  constructor
  · refine List.any_eq_true.2 ⟨km, h1, ?_⟩
    rcases h2 with h2 | h2 <;> simp [Traits.bool, h2]
  · refine List.any_eq_true.2 ⟨km, h1, ?_⟩
    rcases h2 with h2 | h2 <;> simp [Traits.bool, h2]

theorem binds_not {lib : SLib} {ms : GoMap Member}
    (h : ∀ km ∈ ms, ∀ k ∈ ["smithy.api#httpPayload", "smithy.api#httpLabel", "smithy.api#httpQuery"], mget km.2.traits k = none) :
    bindsInput lib ms = false ∧ bindsOutput lib ms = false := by
  constructor
  · refine List.any_eq_false.2 fun km hm => ?_
    simp [Traits.bool, h km hm _ (.head _), h km hm _ (.tail _ (.head _)), h km hm _ (.tail _ (.tail _ (.head _)))]
  · refine List.any_eq_false.2 fun km hm => ?_
    simp [Traits.bool, h km hm _ (.head _), h km hm _ (.tail _ (.head _))]

theorem shapeRef_local {ns loc : String} (h1 : '#' ∉ ns.toList) (h2 : ns ≠ "smithy.api") : shapeRefToTypeRef (ns ++ "#" ++ loc) = loc :=
  (targetIs _).own ns loc rfl h1 h2

theorem shapeRef_plain {loc : String} (h1 : '#' ∉ loc.toList) (h2 : loc ∉ preludeNames) : shapeRefToTypeRef loc = loc := by
  rw [shapeRef_other loc ?_ h2]
  · unfold stripNamespace
    rw [splitFirst_none_of h1]
  · intro x _ e
    apply h1
    rw [e, String.toList_append]
    exact List.mem_append_left _ (by decide)

theorem importInputs_are (lib : SLib) (ast : Ast) (ref : Option String) : ParamsAre ast ref (importInputs lib ast ref).1 := by
  constructor
  · rintro (rfl | rfl) <;> simp [importInputs]
  · intro t st e h1 h2 h3
    subst e
    simp only [importInputs, if_neg h1, h2, (binds_of h3).1, if_true]
    exact boundAs_all lib _
  · intro t st e h1 h2 h3
    subst e
    simp only [importInputs, if_neg h1, h2, (binds_not h3).1]
    refine ⟨_, rfl, rfl, rfl, rfl, rfl, fun ns loc e h4 h5 _ _ => ?_⟩
    subst e
    exact shapeRef_local h4 h5

theorem importOutputs_are {lib : SLib} {ast : Ast} {ref : Option String} {ps : List HttpParamSpec} (h : importOutputs lib ast ref = .ok ps) : ParamsAre ast ref ps := by
  constructor
  · rintro (rfl | rfl)
    · cases h; rfl
    · simp only [importOutputs, if_true] at h; cases h; rfl
  · intro t st e h1 h2 h3
    subst e
    simp only [importOutputs, if_neg h1, membersOf, h2, (binds_of h3).2, if_true] at h
    cases h
    exact boundAs_all lib _
  · intro t st e h1 h2 h3
    subst e
    simp only [importOutputs, if_neg h1, membersOf, h2, (binds_not h3).2] at h
    cases h
    refine ⟨_, rfl, rfl, rfl, rfl, rfl, fun ns loc e h4 h5 h6 h7 => ?_⟩
    subst e
    show shapeRefToTypeRef (shapeRefToTypeRef (ns ++ "#" ++ loc)) = loc
    rw [shapeRef_local h4 h5]
    exact shapeRef_plain h6 h7

/-- Whether a member is bound to the query. -/
theorem query_bound (t : Traits) : boundToQuery t = decide (t.str "smithy.api#httpQuery" ≠ "") := by
  unfold boundToQuery Traits.str
  cases h : mget t "smithy.api#httpQuery" with
  | none => rfl
  | some v => cases v <;> rfl

theorem queryNames_cons (km : String × Member) (ms : GoMap Member) :
    queryNames (km :: ms) = if km.2.traits.str "smithy.api#httpQuery" ≠ "" then km.1 :: queryNames ms else queryNames ms := by
  unfold queryNames
  rw [List.filter_cons, query_bound]
  by_cases c : km.2.traits.str "smithy.api#httpQuery" ≠ ""
  · rw [if_pos c, if_pos (by simpa using c)]; rfl
  · rw [if_neg c, if_neg (by simpa using c)]

theorem queryOf_more (ms : GoMap Member) (qs : String) (h : qs ≠ "") :
    queryString ms qs = qs ++ String.join ((queryNames ms).map fun k => "&" ++ k ++ "={" ++ k ++ "}") := by
  induction ms generalizing qs with
  | nil => simp [queryString, queryNames]
  | cons km rest ih =>
    obtain ⟨k, mem⟩ := km
    unfold queryString
    rw [queryNames_cons]
    by_cases c : mem.traits.str "smithy.api#httpQuery" ≠ ""
    · rw [if_pos c, if_pos c, if_neg h, ih _ (by
        intro e
        have := congrArg String.toList e
        simp [String.toList_append] at this)]
      apply String.toList_inj.1
      simp [String.toList_append, List.append_assoc]
    · rw [if_neg c, if_neg c, ih _ h]

theorem queryOf_text (ms : GoMap Member) : queryString ms "" = queryText (queryNames ms) := by
  induction ms with
  | nil => rfl
  | cons km rest ih =>
    obtain ⟨k, mem⟩ := km
    unfold queryString
    rw [queryNames_cons]
    by_cases c : mem.traits.str "smithy.api#httpQuery" ≠ ""
    · rw [if_pos c, if_pos c, if_pos rfl, queryOf_more _ _ (by
        intro e
        have := congrArg String.toList e
        simp [String.toList_append] at this)]
      rfl
    · rw [if_neg c, if_neg c, ih]

theorem smallName (name : String) : SmallName name (uncapitalize (stripNamespace name)) := by
  intro ns c r e h1 h2
  subst e
  rw [local_name ns _ h1]
  unfold uncapitalize
  rw [String.toList_ofList]
  show String.ofList ((if c.toNat < 128 then c.toLower else c) :: r) = _
  rw [if_pos h2]

theorem importErrors_are {lib : SLib} {ast : Ast} {es : List String} {xs : List HttpExceptionSpec} (h : importErrors lib ast es = .ok xs) :
    List.Forall₂ (ErrorIs lib ast) es xs := by
  induction es generalizing xs with
  | nil => cases h; exact .nil
  | cons e rest ih =>
    unfold importErrors at h
    cases hs : mget ast.shapes e with
    | none => rw [hs] at h; cases h
    | some st =>
      rw [hs] at h
      obtain ⟨r, h1, h⟩ := Out.bind_eq_ok.1 h
      cases h
      refine .cons ⟨targetIs _, st, hs, docIs _, fun v hv h2 h3 => ?_⟩ (ih h1)
      show toInt32 (st.traits.int lib "smithy.api#httpError") = _
      unfold Traits.int
      rw [hv]
      exact toInt32_id _ h2 h3

theorem importAction_kept {lib : SLib} {ast : Ast} {name : String} {s : Shape} {method uri : String} {code : Int} {h : HttpDef}
    (hh : importAction lib ast name s method uri code = .ok h)
    (hm : traitMember s "smithy.api#http" "method" = some (.str method))
    (hu : ∀ u : String, traitMember s "smithy.api#http" "uri" = some (.str u) → uri = u)
    (hc : code = match traitMember s "smithy.api#http" "code" with | some v => lib.int v | none => 0) : OpActionKept lib ast name s h := by
  unfold importAction at hh
  obtain ⟨annos, h1, hh⟩ := Out.bind_eq_ok.1 hh
  dsimp only at hh
  obtain ⟨outs, h2, hh⟩ := Out.bind_eq_ok.1 hh
  obtain ⟨xs, h3, hh⟩ := Out.bind_eq_ok.1 hh
  cases hh
  constructor
  · exact smallName name
  · exact docIs _
  · exact fun hd => annosAre hd h1
  · exact hm
  · intro u hu'
    have hu := hu u hu'
    subst hu
    refine ⟨fun hi => ?_, fun t st e c1 c2 => ⟨fun hq => ?_, fun hq => ?_⟩⟩
    · rcases hi with hi | hi <;> simp [importInputs, hi]
    · show uri ++ (importInputs lib ast s.input).2 = uri
      rw [e]
      simp only [importInputs, if_neg c1, c2]
      by_cases c : bindsInput lib st.members = true
      · rw [if_pos c, queryOf_text, hq]; simp [queryText]
      · rw [if_neg c]; simp
    · show uri ++ (importInputs lib ast s.input).2 = _
      rw [e]
      simp only [importInputs, if_neg c1, c2, (binds_of hq).1, if_true]
      rw [queryOf_text]
  · exact importInputs_are lib ast _
  · refine ⟨_, rfl, importOutputs_are h2, fun hn => ?_, fun v hv h4 h5 h6 => ?_⟩
    · rw [hn] at hc
      subst hc
      show toInt32 200 = 200
      decide
    · rw [hv] at hc
      subst hc
      show toInt32 (if lib.int v = 0 then 200 else lib.int v) = _
      rw [if_neg h4]
      exact toInt32_id _ h5 h6
  · exact importErrors_are h3

theorem importPlain_kept {lib : SLib} {ast : Ast} {name : String} {s : Shape} {o : OperationDef} (h : importPlainOperation lib ast name s = .ok o) :
    PlainOpKept ast name s o := by
  unfold importPlainOperation at h
  obtain ⟨annos, h1, h⟩ := Out.bind_eq_ok.1 h
  obtain ⟨ins, h2, h⟩ := Out.bind_eq_ok.1 h
  obtain ⟨outs, h3, h⟩ := Out.bind_eq_ok.1 h
  cases h
  constructor
  · exact smallName name
  · exact docIs _
  · exact fun hd => annosAre hd h1
  · intro e; rw [e] at h2; cases h2; rfl
  · intro t st e hs
    rw [e] at h2
    simp only [plainInputs, membersOf, hs] at h2
    cases h2
    show List.Forall₂ _ st.members (importOpInputs lib st.members)
    generalize st.members = ms
    induction ms with
    | nil => exact .nil
    | cons km rest ih => exact .cons ⟨rfl, targetIs _, flagIs _ _ _⟩ ih
  · intro e; rw [e] at h3; cases h3; rfl
  · intro t st e hs
    rw [e] at h3
    simp only [plainOutputs, membersOf, hs] at h3
    cases h3
    show List.Forall₂ _ st.members (importOpOutputs st.members)
    generalize st.members = ms
    induction ms with
    | nil => exact .nil
    | cons km rest ih => exact .cons ⟨rfl, targetIs _⟩ ih
  · show List.Forall₂ TargetIs s.errors (s.errors.map shapeRefToTypeRef)
    generalize s.errors = es
    induction es with
    | nil => exact .nil
    | cons e rest ih => exact .cons (targetIs _) ih

/-- What a shape does to the actions and operations. -/
theorem importShape_ops {lib : SLib} {suf : Suffixes} {ast : Ast} {io : List String} {name : String} {s : Shape} {acc acc' : Imported}
    (h : importShape lib suf ast io name s acc = .ok acc') : (∀ x ∈ acc.http, x ∈ acc'.http) ∧ (∀ x ∈ acc.operations, x ∈ acc'.operations) := by
  have add : ∀ {o : Out TypeDef}, (do .ok (acc.add (← o)) : Out Imported) = .ok acc' → (∀ x ∈ acc.http, x ∈ acc'.http) ∧ (∀ x ∈ acc.operations, x ∈ acc'.operations) := by
    intro o h
    obtain ⟨t, _, h⟩ := Out.bind_eq_ok.1 h
    cases h
    exact ⟨fun _ h => h, fun _ h => h⟩
  have same : (Out.ok acc : Out Imported) = .ok acc' → (∀ x ∈ acc.http, x ∈ acc'.http) ∧ (∀ x ∈ acc.operations, x ∈ acc'.operations) := by
    intro h
    cases h
    exact ⟨fun _ h => h, fun _ h => h⟩
  unfold importShape at h
  by_cases c0 : name ∈ io
  · rw [if_pos c0] at h; exact same h
  rw [if_neg c0] at h
  by_cases c1 : s.type ∈ numberShapes
  · rw [if_pos c1] at h; exact add h
  rw [if_neg c1] at h
  by_cases c2 : s.type = "string"
  · rw [if_pos c2] at h
    cases hs : importStringShape lib name s with
    | none => rw [hs] at h; exact same h
    | some t => rw [hs] at h; cases h; exact ⟨fun _ h => h, fun _ h => h⟩
  rw [if_neg c2] at h
  by_cases c3 : s.type = "timestamp"
  · rw [if_pos c3] at h; exact add h
  rw [if_neg c3] at h
  by_cases c4 : s.type = "boolean"
  · rw [if_pos c4] at h; exact add h
  rw [if_neg c4] at h
  by_cases c5 : s.type = "list"
  · rw [if_pos c5] at h; exact add h
  rw [if_neg c5] at h
  by_cases c6 : s.type = "set"
  · rw [if_pos c6] at h; exact add h
  rw [if_neg c6] at h
  by_cases c7 : s.type = "map"
  · rw [if_pos c7] at h; exact add h
  rw [if_neg c7] at h
  by_cases c8 : s.type = "structure"
  · rw [if_pos c8] at h; exact add h
  rw [if_neg c8] at h
  by_cases c9 : s.type = "union"
  · rw [if_pos c9] at h; exact add h
  rw [if_neg c9] at h
  by_cases c10 : s.type = "blob"
  · rw [if_pos c10] at h; cases h; exact ⟨fun _ h => h, fun _ h => h⟩
  rw [if_neg c10] at h
  by_cases c11 : s.type = "enum"
  · rw [if_pos c11] at h; exact add h
  rw [if_neg c11] at h
  by_cases c12 : s.type = "service"
  · rw [if_pos c12] at h; exact same h
  rw [if_neg c12] at h
  by_cases c13 : s.type = "operation"
  · rw [if_pos c13] at h
    unfold importOperationShape at h
    dsimp only at h
    by_cases c : asString (getKey ((s.traits.map "smithy.api#http").getD []) "method") = ""
    · rw [if_pos c] at h
      obtain ⟨o, _, h⟩ := Out.bind_eq_ok.1 h
      cases h
      exact ⟨fun _ h => h, fun _ h => List.mem_append_left _ h⟩
    · rw [if_neg c] at h
      obtain ⟨o, _, h⟩ := Out.bind_eq_ok.1 h
      cases h
      exact ⟨fun _ h => List.mem_append_left _ h, fun _ h => h⟩
  rw [if_neg c13] at h
  by_cases c14 : s.type = "resource"
  · rw [if_pos c14] at h; exact same h
  rw [if_neg c14] at h
  cases h

/-- The action or operation for an operation. -/
theorem importShape_op {lib : SLib} {suf : Suffixes} {ast : Ast} {io : List String} {name : String} {s : Shape} {acc acc' : Imported}
    (h : importShape lib suf ast io name s acc = .ok acc') (hio : name ∉ io) (ht : s.type = "operation") :
    (∀ method : String, traitMember s "smithy.api#http" "method" = some (.str method) → method ≠ "" → ∃ x ∈ acc'.http, OpActionKept lib ast name s x) ∧
    (traitMember s "smithy.api#http" "method" = none → ∃ x ∈ acc'.operations, PlainOpKept ast name s x) := by
  unfold importShape at h
  rw [if_neg hio, ht] at h
  rw [if_neg (by decide)] at h
  iterate 11 (rw [if_neg (by decide)] at h)
  rw [if_pos rfl] at h
  unfold importOperationShape at h
  dsimp only at h
  rw [trait_getKey, trait_getKey] at h
  constructor
  · intro method hm hne
    rw [hm] at h
    rw [if_neg (show asString ((some (Value.str method)).getD .null) ≠ "" from hne)] at h
    obtain ⟨x, h1, h⟩ := Out.bind_eq_ok.1 h
    cases h
    refine ⟨x, List.mem_append_right _ (.head _), importAction_kept h1 hm ?_ ?_⟩
    · intro u hu
      rw [hu]
      rfl
    · have : mget ((s.traits.map "smithy.api#http").getD []) "code" = traitMember s "smithy.api#http" "code" := by
        unfold traitMember Traits.map
        cases h : mget s.traits "smithy.api#http" with
        | none => rfl
        | some v => cases v <;> rfl
      rw [this]
      cases traitMember s "smithy.api#http" "code" <;> rfl
  · intro hm
    rw [hm] at h
    rw [if_pos (show asString ((none : Option Value).getD .null) = "" from rfl)] at h
    obtain ⟨x, h1, h⟩ := Out.bind_eq_ok.1 h
    cases h
    exact ⟨x, List.mem_append_right _ (.head _), importPlain_kept h1⟩

theorem importShapes_ops {lib : SLib} {suf : Suffixes} {ast : Ast} {io : List String} {service : String} {shapes : GoMap Shape} {acc acc' : Imported}
    (h : importShapes lib suf ast io service shapes acc = .ok acc') : (∀ x ∈ acc.http, x ∈ acc'.http) ∧ (∀ x ∈ acc.operations, x ∈ acc'.operations) := by
  induction shapes generalizing acc with
  | nil => cases h; exact ⟨fun _ h => h, fun _ h => h⟩
  | cons ks rest ih =>
    obtain ⟨k, s⟩ := ks
    unfold importShapes at h
    by_cases c : s.type ≠ "service" ∨ k = service
    · rw [if_pos c] at h
      obtain ⟨a, h1, h⟩ := Out.bind_eq_ok.1 h
      exact ⟨fun x hx => (ih h).1 x ((importShape_ops h1).1 x hx), fun x hx => (ih h).2 x ((importShape_ops h1).2 x hx)⟩
    · rw [if_neg c] at h
      exact ih h

theorem importShapes_op {lib : SLib} {suf : Suffixes} {ast : Ast} {io : List String} {service : String} {shapes : GoMap Shape} {acc acc' : Imported}
    (h : importShapes lib suf ast io service shapes acc = .ok acc') {name : String} {s : Shape} (hs : (name, s) ∈ shapes)
    (hio : name ∉ io) (ht : s.type = "operation") :
    (∀ method : String, traitMember s "smithy.api#http" "method" = some (.str method) → method ≠ "" → ∃ x ∈ acc'.http, OpActionKept lib ast name s x) ∧
    (traitMember s "smithy.api#http" "method" = none → ∃ x ∈ acc'.operations, PlainOpKept ast name s x) := by
  induction shapes generalizing acc with
  | nil => cases hs
  | cons ks rest ih =>
    obtain ⟨k, s'⟩ := ks
    unfold importShapes at h
    rcases List.mem_cons.1 hs with e | e
    · cases e
      rw [if_pos (.inl (by rw [ht]; decide))] at h
      obtain ⟨a, h1, h⟩ := Out.bind_eq_ok.1 h
      obtain ⟨h2, h3⟩ := importShape_op h1 hio ht
      have h4 := importShapes_ops h
      exact ⟨fun method hm hn => let ⟨x, a, b⟩ := h2 method hm hn; ⟨x, h4.1 x a, b⟩, fun hm => let ⟨x, a, b⟩ := h3 hm; ⟨x, h4.2 x a, b⟩⟩
    · by_cases c : s'.type ≠ "service" ∨ k = service
      · rw [if_pos c] at h
        obtain ⟨a, h1, h⟩ := Out.bind_eq_ok.1 h
        exact ih h e
      · rw [if_neg c] at h
        exact ih h e

end Smithy
end Sadl
