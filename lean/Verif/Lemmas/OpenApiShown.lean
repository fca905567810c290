import Verif.Lemmas.OpenApiFits
import Verif.Spec.OpenApiExamples
/-
What the examples of the schema become in the exported document.
-/
namespace Sadl
open Sadl.Spec

/-! ### One place -/

theorem lastNamed_snoc (l : List (String × Value)) (n m : String) (v : Value) :
    lastNamed (l ++ [(n, v)]) m = if n = m then some v else lastNamed l m := by
  unfold lastNamed
  by_cases h : n = m <;> simp [h, List.filter_append]

theorem Spec.Shows.empty : Shows .null [] [] := ⟨by simp [lastNamed], fun n => by simp [lastNamed, mget]⟩

theorem Spec.Shows.unnamed_add {e : Value} {es : GoMap Value} {l : List (String × Value)} (h : Shows e es l) (v : Value) :
    Shows v es (l ++ [("", v)]) :=
  ⟨by simp [lastNamed_snoc], fun n => by
    rw [h.named n, lastNamed_snoc]
    by_cases hn : n = ""
    · simp [hn]
    · simp [hn, Ne.symm hn]⟩

theorem Spec.Shows.named_add {e : Value} {es : GoMap Value} {l : List (String × Value)} (h : Shows e es l) {name : String}
    (hne : name ≠ "") (v : Value) : Shows e (mset es name v) (l ++ [(name, v)]) :=
  ⟨by rw [h.unnamed, lastNamed_snoc]; simp [hne], fun n => by
    rw [mget_mset, h.named n, lastNamed_snoc]
    by_cases hn : n = name
    · subst hn; simp [hne]
    · simp [hn, Ne.symm hn]⟩

theorem media_shows {mt : OMedia} {l : List (String × Value)} (h : Shows mt.example mt.examples l) (name : String) (v : Value) :
    Shows (mt.addExample name v).example (mt.addExample name v).examples (l ++ [(name, v)]) := by
  unfold OMedia.addExample
  split
  · next hn => subst hn; exact h.unnamed_add v
  · next hn => exact h.named_add hn v

theorem param_shows {p : OParam} {l : List (String × Value)} (h : Shows p.example p.examples l) (name : String) (v : Value) :
    Shows (paramExample name p.name v p).example (paramExample name p.name v p).examples (l ++ [(name, v)]) := by
  unfold paramExample
  simp only [if_true]
  split
  · next hn => subst hn; exact h.unnamed_add v
  · next hn => exact h.named_add hn v

theorem paramExample_name (name k : String) (v : Value) (p : OParam) : (paramExample name k v p).name = p.name := by
  unfold paramExample
  split_ifs <;> rfl

theorem paramExample_other {name k : String} {v : Value} {p : OParam} (h : p.name ≠ k) : paramExample name k v p = p := by
  unfold paramExample
  rw [if_neg h]

/-! ### One operation -/

section
variable {op op' : OOperation} {st : String} {P Q : String → List (String × Value)} {A B : List (String × Value)}

theorem Spec.OpShows.congr (h : OpShows op st P A B) (hp : ∀ k, k ≠ "body" → P k = Q k) : OpShows op st Q A B where
  params p hpm := by
    have := h.params p hpm
    by_cases hb : p.name = "body"
    · simpa [hb] using this
    · simpa [hb, hp _ hb] using this
  request := h.request
  response := h.response

theorem shows_param (h : OpShows op st P A B) {k : String} (hk : k ≠ "body") (name : String) (v : Value) :
    OpShows { op with parameters := op.parameters.map (paramExample name k v) } st
      (fun key => P key ++ if k = key then [(name, v)] else []) A B where
  params p hpm := by
    obtain ⟨q, hq, rfl⟩ := List.mem_map.1 hpm
    have := h.params q hq
    rw [paramExample_name]
    by_cases hb : q.name = "body"
    · rw [if_pos hb] at this ⊢
      rw [paramExample_other (by rw [hb]; exact Ne.symm hk)]
      exact this
    · rw [if_neg hb] at this ⊢
      by_cases hkq : k = q.name
      · subst hkq
        simpa using param_shows this name v
      · rw [paramExample_other (Ne.symm hkq)]
        simpa [hkq] using this
  request := h.request
  response := h.response

theorem content_shows {name : String} {v : Value} {c c' : GoMap OMedia} (h : contentExample name v c = .ok c')
    (hs : ∀ mt, mget c "application/json" = some mt → Shows mt.example mt.examples A) {mt : OMedia}
    (hm : mget c' "application/json" = some mt) : Shows mt.example mt.examples (A ++ [(name, v)]) := by
  unfold contentExample at h
  split at h
  · cases h
  · next mt0 h0 =>
    cases h
    rw [mget_mset_same] at hm
    cases hm
    exact media_shows (hs _ h0) name v

theorem shows_request {name : String} {v : Value} (h : OpShows op st P A B) (hb : requestBodyExample name v op = .ok op') :
    OpShows op' st P (A ++ [(name, v)]) B := by
  unfold requestBodyExample at hb
  split at hb
  · cases hb
  · next b hbody =>
    obtain ⟨c, hc, hb⟩ := Ran.bind_eq_ok.1 hb
    cases hb
    refine ⟨h.params, fun b' mt h1 h2 => ?_, h.response⟩
    cases h1
    exact content_shows hc (fun mt hm => h.request b mt hbody hm) h2

theorem shows_response {m : Model} {hn name : String} {v : Value} {e : HttpExpectedSpec}
    (he : (m.findHttp hn).bind (·.expected) = some e) (h : OpShows op (sprintInt e.status) P A B)
    (hb : responseBodyExample m hn name v op = .ok op') : OpShows op' (sprintInt e.status) P A (B ++ [(name, v)]) := by
  unfold responseBodyExample at hb
  rw [he] at hb
  simp only at hb
  split at hb
  · cases hb
  · next r hr =>
    obtain ⟨c, hc, hb⟩ := Ran.bind_eq_ok.1 hb
    cases hb
    refine ⟨h.params, h.request, fun r' mt h1 h2 => ?_⟩
    simp only [mget_mset_same, Option.some.injEq] at h1
    subst h1
    exact content_shows hc (fun mt hm => h.response r mt hr hm) h2
end

/-- What the members of an example give. -/
def givenKvs (name key : String) (kvs : List (String × Value)) : List (String × Value) :=
  (kvs.filter (fun kv => kv.1 == key)).map fun kv => (name, kv.2)

theorem members_shows {body : Value → OOperation → Ran OOperation} {name : String}
    {F : OOperation → (String → List (String × Value)) → List (String × Value) → Prop}
    (hcongr : ∀ {op P Q B}, F op P B → (∀ k, k ≠ "body" → P k = Q k) → F op Q B)
    (hpar : ∀ {op P B k v}, F op P B → k ≠ "body" → F { op with parameters := op.parameters.map (paramExample name k v) }
      (fun key => P key ++ if k = key then [(name, v)] else []) B)
    (hbody : ∀ {op op' P B v}, F op P B → body v op = .ok op' → F op' P (B ++ [(name, v)]))
    {kvs : List (String × Value)} {op op' : OOperation} {P : String → List (String × Value)} {B : List (String × Value)}
    (h0 : F op P B) (h : membersExample body name kvs op = .ok op') :
    F op' (fun key => P key ++ givenKvs name key kvs) (B ++ givenKvs name "body" kvs) := by
  induction kvs generalizing op P B with
  | nil =>
    cases h
    simpa [givenKvs] using h0
  | cons e rest ih =>
    obtain ⟨k, v⟩ := e
    unfold membersExample at h
    split at h
    · next hk =>
      subst hk
      obtain ⟨op1, h1, h⟩ := Ran.bind_eq_ok.1 h
      have := ih (hbody h0 h1) h
      refine hcongr (by simpa [givenKvs] using this) (fun k hk => ?_)
      simp [givenKvs, Ne.symm hk]
    · next hk =>
      have := ih (hpar (v := v) h0 hk) h
      have hx : ("body" == k) = false := by simp [Ne.symm hk]
      simp only [givenKvs, List.filter_cons] at this ⊢
      simp only [hk, beq_iff_eq, if_false, List.append_assoc] at this ⊢
      refine hcongr this (fun key _ => ?_)
      by_cases hkk : k = key <;> simp [hkk]

/-! ### The document -/

theorem findOperation_first {opId : String} {l : GoMap OPathItem} {p : String} {k : OMethod}
    (h : findOperation opId l = .ok (some (p, k))) : ∃ pi op, (p, pi) ∈ l ∧ pi.first = some (k, op) ∧ op.operationId = opId := by
  induction l with
  | nil => cases h
  | cons e r ih =>
    obtain ⟨q, pi⟩ := e
    unfold findOperation at h
    split at h
    · cases h
    · next k' op hf =>
      split at h
      · next hid => cases h; exact ⟨pi, op, by simp, hf, hid⟩
      · obtain ⟨pi', op', h1, h2⟩ := ih h
        exact ⟨pi', op', by simp [h1], h2⟩

theorem findOperation_none {opId : String} {l : GoMap OPathItem} (h : findOperation opId l = .ok none) :
    ∀ e ∈ l, ∀ k op, e.2.first = some (k, op) → op.operationId ≠ opId := by
  induction l with
  | nil => simp
  | cons e r ih =>
    obtain ⟨q, pi⟩ := e
    unfold findOperation at h
    split at h
    · cases h
    · next k' op hf =>
      split at h
      · cases h
      · next hid =>
        intro x hx k op1 h1
        rcases List.mem_cons.1 hx with rfl | hx
        · rw [hf] at h1; cases h1; exact hid
        · exact ih h x hx k op1 h1

open Classical in
/-- The examples that the export takes to be about the operation. -/
noncomputable def heard (s : Schema) (h : HttpDef) (l : List ExampleDef) : List ExampleDef := if Foremost s h then l else []

/-- Every operation shows what the examples so far give. -/
def Shown (s : Schema) (l : List ExampleDef) (d : ODoc) : Prop :=
  ∀ h ∈ s.http, ∀ e, h.expected = some e → ∀ k, oasMethod h.method = some k → ∀ op, pathOp d.paths (oasPath s.base h) k = some op →
    OpShows op (sprintInt e.status) (fun key => given s h ["Request", "Response"] key (heard s h l))
      (given s h ["Request"] "body" (heard s h l)) (given s h ["Response"] "body" (heard s h l))

open Classical in
theorem given_append (s : Schema) (h : HttpDef) (ws : List String) (key : String) (l l' : List ExampleDef) :
    given s h ws key (l ++ l') = given s h ws key l ++ given s h ws key l' := by
  induction l with
  | nil => rfl
  | cons x r ih => simp [given, ih]

open Classical in
theorem given_single (s : Schema) (h : HttpDef) (ws : List String) (key : String) (ex : ExampleDef) :
    given s h ws key [ex] = if ∃ w ∈ ws, About s h w ex then givenBy key ex else [] := by simp [given]

theorem suffix_inj {a b w : String} (h : a ++ w = b ++ w) : a = b := by
  have := congrArg String.toList h
  simp only [String.toList_append, List.append_cancel_right_eq] at this
  exact String.toList_inj.1 this

theorem request_not_response {a b : String} : a ++ "Request" ≠ b ++ "Response" := by
  intro h
  have := congrArg (fun t : String => t.toList.reverse.take 3) h
  simp [String.toList_append, List.reverse_append, show "Response".toList = ['R', 'e', 's', 'p', 'o', 'n', 's', 'e'] from rfl,
    show "Request".toList = ['R', 'e', 'q', 'u', 'e', 's', 't'] from rfl] at this

theorem about_request {s : Schema} {h : HttpDef} {ex : ExampleDef} {base : String} (hn : ¬ Named s ex.target)
    (ht : ex.target = base ++ "Request") : (About s h "Request" ex ↔ uncapitalize base = h.name) ∧ ¬ About s h "Response" ex := by
  refine ⟨⟨?_, fun h1 => ⟨hn, base, ht, h1⟩⟩, ?_⟩
  · rintro ⟨_, b, h1, h2⟩
    rw [ht] at h1
    rw [suffix_inj h1]; exact h2
  · rintro ⟨_, b, h1, _⟩
    rw [ht] at h1
    exact request_not_response h1

theorem about_response {s : Schema} {h : HttpDef} {ex : ExampleDef} {base : String} (hn : ¬ Named s ex.target)
    (ht : ex.target = base ++ "Response") : (About s h "Response" ex ↔ uncapitalize base = h.name) ∧ ¬ About s h "Request" ex := by
  refine ⟨⟨?_, fun h1 => ⟨hn, base, ht, h1⟩⟩, ?_⟩
  · rintro ⟨_, b, h1, h2⟩
    rw [ht] at h1
    rw [suffix_inj h1]; exact h2
  · rintro ⟨_, b, h1, _⟩
    rw [ht] at h1
    exact request_not_response h1.symm

open Classical in
/-- If the new example is not about an action, nothing more is given for it. -/
theorem given_same {s : Schema} {h : HttpDef} {ex : ExampleDef} {l : List ExampleDef}
    (hno : Foremost s h → ¬ About s h "Request" ex ∧ ¬ About s h "Response" ex) {ws : List String} (hw : ws ⊆ ["Request", "Response"])
    (key : String) : given s h ws key (heard s h (l ++ [ex])) = given s h ws key (heard s h l) := by
  unfold heard
  split
  · next hf =>
    rw [given_append, given_single, if_neg, List.append_nil]
    rintro ⟨w, h1, h2⟩
    have := hw h1
    simp only [List.mem_cons, List.not_mem_nil, or_false] at this
    rcases this with rfl | rfl
    · exact (hno hf).1 h2
    · exact (hno hf).2 h2
  · rfl

section
variable {s : Schema} {m : Model} (hm : newModel s = .ok m) {lib : OLib} (hord : ∀ l, (lib.order l).Perm l)
  {ex : ExampleDef} {d d' : ODoc} (hd : DocFor s d) {l : List ExampleDef} (hs : Shown s l d)
include hs

theorem shown_same (hp : d'.paths = d.paths)
    (hno : ∀ h ∈ s.http, Foremost s h → ¬ About s h "Request" ex ∧ ¬ About s h "Response" ex) : Shown s (l ++ [ex]) d' := by
  intro h hh e he k hk op hop
  rw [hp] at hop
  rw [given_same (hno h hh) (by simp), given_same (hno h hh) (by simp)]
  refine (hs h hh e he k hk op hop).congr fun key _ => ?_
  rw [given_same (hno h hh) (by simp)]

include hm hord hd

/-- The operation that was found is that of a foremost action of that name. -/
theorem found_action {base p : String} {k : OMethod} (hfind : findOperation (uncapitalize base) (lib.order d.paths) = .ok (some (p, k))) :
    ∃ a ∈ s.http, Foremost s a ∧ a.name = uncapitalize base ∧ p = oasPath s.base a ∧ oasMethod a.method = some k ∧
      ∃ op, pathOp d.paths p k = some op ∧ d.opAt p k = some op ∧
        ∀ h ∈ s.http, ∀ j, oasMethod h.method = some j → ((oasPath s.base h = p ∧ j = k) ↔ h = a) := by
  obtain ⟨pi, op, h1, h2, h3⟩ := findOperation_first hfind
  have hp := (hord _).mem_iff.1 h1
  obtain ⟨h4, a, ha, hfa, hpa, hka, ho⟩ := (hd.paths.first hp k op).1 h2
  have hpo : pathOp d.paths p k = some op := by unfold pathOp; rw [mget_of_mem hd.paths.distinct hp]; exact h4
  refine ⟨a, ha, hfa, ho.name.symm.trans h3, hpa, hka, op, hpo, hpo, fun h hh j hj => ⟨?_, ?_⟩⟩
  · rintro ⟨h5, h6⟩
    obtain ⟨op1, h7, h8⟩ := hd.paths.all h hh j hj
    rw [h5, h6, hpo] at h7
    cases h7
    exact findHttp_unique hm hh ha (h8.name.symm.trans ho.name)
  · rintro rfl
    rw [hka] at hj
    cases hj
    exact ⟨hpa.symm, rfl⟩

/-- If none was found, no foremost action has that name. -/
theorem found_none {base : String} (hfind : findOperation (uncapitalize base) (lib.order d.paths) = .ok none) :
    ∀ h ∈ s.http, Foremost s h → uncapitalize base ≠ h.name := by
  intro a ha hfa hna
  obtain ⟨k, hk, _⟩ := foremost_iff.1 hfa
  obtain ⟨op, h2, h3⟩ := hd.paths.all a ha k hk
  obtain ⟨⟨p, pi⟩, h4, h5⟩ := List.mem_map.1 ((hd.paths.keys _).2 ⟨a, ha, rfl⟩)
  simp only at h5
  subst h5
  have h6 : pi.op k = some op := by
    unfold pathOp at h2; rw [mget_of_mem hd.paths.distinct h4] at h2; exact h2
  exact findOperation_none hfind _ ((hord _).mem_iff.2 h4) k op ((hd.paths.first h4 k op).2 ⟨h6, a, ha, hfa, rfl, hk, h3⟩)
    (h3.name.trans hna.symm)

open Classical in
/-- Each example adds what it gives. -/
theorem shown_step (h : exportExample lib m ex d = .ok d') : Shown s (l ++ [ex]) d' := by
  by_cases hn : Named s ex.target
  · refine shown_same hs ?_ (fun h _ _ => ⟨fun ha => ha.1 hn, fun ha => ha.1 hn⟩)
    cases hg : mget d.schemas ex.target with
    | none => exact absurd hg ((hd.schemas _).2 hn)
    | some sc => unfold exportExample at h; rw [hg] at h; cases h; rfl
  by_cases hreq : ∃ base, ex.target = base ++ "Request"
  · obtain ⟨base, ht⟩ := hreq
    rw [request_step hd hn ht] at h
    obtain ⟨r, hr, h⟩ := Ran.bind_eq_ok.1 h
    cases r with
    | none =>
      cases h
      refine shown_same hs rfl (fun h hh hf => ⟨fun ha => ?_, (about_request hn ht).2⟩)
      exact found_none hm hord hd hs hr h hh hf ((about_request hn ht).1.1 ha)
    | some pk =>
      obtain ⟨p, k⟩ := pk
      obtain ⟨a, ha, hfa, hna, hpa, hka, op, hop, hat, huniq⟩ := found_action hm hord hd hs hr
      obtain ⟨op', h1, h⟩ := Ran.bind_eq_ok.1 h
      cases h
      rw [hat] at h1
      obtain ⟨kvs, hk, h1⟩ := Ran.bind_eq_ok.1 h1
      intro h hh e he j hj op2 hop2
      unfold ODoc.setOp at hop2
      simp only at hop2
      rw [pathOp_mset, op_setOp] at hop2
      by_cases hplace : oasPath s.base h = p ∧ j = k
      · obtain rfl := (huniq h hh j hj).1 hplace
        rw [if_pos hplace.1, if_pos hplace.2] at hop2
        cases hop2
        have h0 := hs h hh e he k hka op (by rw [← hpa]; exact hop)
        have hkv : ex.example = .obj kvs := by
          cases hx : ex.example <;> rw [hx] at hk <;> simp [asObject] at hk
          rw [hk]
        have hg : ∀ key, givenBy key ex = givenKvs ex.name key kvs := fun key => by unfold givenBy givenKvs; rw [hkv]
        have hA : About s h "Request" ex := (about_request hn ht).1.2 hna.symm
        have hB : ¬ About s h "Response" ex := (about_request hn ht).2
        have := members_shows (F := fun o P B => OpShows o (sprintInt e.status) P B (given s h ["Response"] "body" (heard s h l)))
          (fun a b => a.congr b) (fun a b => shows_param a b ex.name _) (fun a b => shows_request a b) h0 h1
        unfold heard at this ⊢
        rw [if_pos hfa] at this ⊢
        simp only [given_append, given_single]
        rw [if_pos ⟨"Request", by simp, hA⟩, if_neg (by simpa using hB), List.append_nil, hg]
        refine this.congr fun key _ => ?_
        rw [if_pos ⟨"Request", by simp, hA⟩, hg]
      · have hno : Foremost s h → ¬ About s h "Request" ex ∧ ¬ About s h "Response" ex := by
          intro _
          refine ⟨fun hab => hplace ((huniq h hh j hj).2 ?_), (about_request hn ht).2⟩
          exact findHttp_unique hm hh ha (((about_request hn ht).1.1 hab).symm.trans hna.symm)
        have hold : pathOp d.paths (oasPath s.base h) j = some op2 := by
          by_cases hq : oasPath s.base h = p
          · rw [if_pos hq, if_neg (fun hj => hplace ⟨hq, hj⟩)] at hop2
            rw [hq]; exact hop2
          · rw [if_neg hq] at hop2; exact hop2
        rw [given_same hno (by simp), given_same hno (by simp)]
        refine (hs h hh e he j hj op2 hold).congr fun key _ => ?_
        rw [given_same hno (by simp)]
  by_cases hres : ∃ base, ex.target = base ++ "Response"
  · obtain ⟨base, ht⟩ := hres
    rw [response_step hd hn ht] at h
    obtain ⟨r, hr, h⟩ := Ran.bind_eq_ok.1 h
    cases r with
    | none => cases h
    | some pk =>
      obtain ⟨p, k⟩ := pk
      obtain ⟨a, ha, hfa, hna, hpa, hka, op, hop, hat, huniq⟩ := found_action hm hord hd hs hr
      obtain ⟨op', h1, h⟩ := Ran.bind_eq_ok.1 h
      cases h
      rw [hat] at h1
      obtain ⟨kvs, hk, h1⟩ := Ran.bind_eq_ok.1 h1
      intro h hh e he j hj op2 hop2
      unfold ODoc.setOp at hop2
      simp only at hop2
      rw [pathOp_mset, op_setOp] at hop2
      by_cases hplace : oasPath s.base h = p ∧ j = k
      · obtain rfl := (huniq h hh j hj).1 hplace
        rw [if_pos hplace.1, if_pos hplace.2] at hop2
        cases hop2
        have h0 := hs h hh e he k hka op (by rw [← hpa]; exact hop)
        have hkv : ex.example = .obj kvs := by
          cases hx : ex.example <;> rw [hx] at hk <;> simp [asObject] at hk
          rw [hk]
        have hg : ∀ key, givenBy key ex = givenKvs ex.name key kvs := fun key => by unfold givenBy givenKvs; rw [hkv]
        have hA : About s h "Response" ex := (about_response hn ht).1.2 hna.symm
        have hB : ¬ About s h "Request" ex := (about_response hn ht).2
        have hexp : (m.findHttp (uncapitalize base)).bind (·.expected) = some e := by
          rw [(findHttp_iff hm).2 ⟨ha, hna⟩]; exact he
        have := members_shows (F := fun o P B => OpShows o (sprintInt e.status) P (given s h ["Request"] "body" (heard s h l)) B)
          (fun a b => a.congr b) (fun a b => shows_param a b ex.name _) (fun a b => shows_response hexp a b) h0 h1
        unfold heard at this ⊢
        rw [if_pos hfa] at this ⊢
        simp only [given_append, given_single]
        rw [if_neg (by simpa using hB), if_pos ⟨"Response", by simp, hA⟩, List.append_nil, hg]
        refine this.congr fun key _ => ?_
        rw [if_pos ⟨"Response", by simp, hA⟩, hg]
      · have hno : Foremost s h → ¬ About s h "Request" ex ∧ ¬ About s h "Response" ex := by
          intro _
          refine ⟨(about_response hn ht).2, fun hab => hplace ((huniq h hh j hj).2 ?_)⟩
          exact findHttp_unique hm hh ha (((about_response hn ht).1.1 hab).symm.trans hna.symm)
        have hold : pathOp d.paths (oasPath s.base h) j = some op2 := by
          by_cases hq : oasPath s.base h = p
          · rw [if_pos hq, if_neg (fun hj => hplace ⟨hq, hj⟩)] at hop2
            rw [hq]; exact hop2
          · rw [if_neg hq] at hop2; exact hop2
        rw [given_same hno (by simp), given_same hno (by simp)]
        refine (hs h hh e he j hj op2 hold).congr fun key _ => ?_
        rw [given_same hno (by simp)]
  refine shown_same hs ?_ (fun h _ _ => ⟨fun ha => hreq ⟨_, ha.2.choose_spec.1⟩, fun ha => hres ⟨_, ha.2.choose_spec.1⟩⟩)
  unfold exportExample at h
  rw [not_in_schemas hd hn] at h
  cases h1 : cutSuffixS "Request" ex.target with
  | some b => exact absurd ⟨b, cutSuffixS_iff.1 h1⟩ hreq
  | none =>
    cases h2 : cutSuffixS "Response" ex.target with
    | some b => exact absurd ⟨b, cutSuffixS_iff.1 h2⟩ hres
    | none => rw [h1, h2] at h; cases h; rfl

/-- All the examples. -/
theorem shown_all {l' : List ExampleDef} (h : exportExamples lib m l' d = .ok d') : Shown s (l ++ l') d' := by
  induction l' generalizing d l with
  | nil => cases h; simpa using hs
  | cons ex rest ih =>
    obtain ⟨d1, h1, h2⟩ := Ran.bind_eq_ok.1 h
    have := ih (hd.next hord h1) (shown_step hm hord hd hs h1) h2
    simpa using this
end

/-! ### The operations before the examples -/

/-- An operation without examples. -/
def OpFresh (op : OOperation) : Prop := ∀ st, OpShows op st (fun _ => []) [] []

theorem jsonContent_shows {s : OSchema} {mt : OMedia} (h : mget (jsonContent s) "application/json" = some mt) :
    Shows mt.example mt.examples [] := by
  simp only [jsonContent, mget, if_true, Option.some.injEq] at h
  subst h
  exact .empty

theorem exportInput_fresh {op : OOperation} (h : OpFresh op) (p : HttpParamSpec) (s : OSchema) : OpFresh (exportInput p s op) := by
  intro st
  unfold exportInput
  simp only
  have add : ∀ q : OParam, q.example = .null → q.examples = [] →
      OpShows { op with parameters := op.parameters ++ [q] } st (fun _ => []) [] [] := by
    intro q h1 h2
    refine ⟨fun p hp => ?_, (h st).request, (h st).response⟩
    rcases List.mem_append.1 hp with hp | hp
    · exact (h st).params p hp
    · simp only [List.mem_singleton] at hp
      subst hp
      rw [h1, h2]
      split <;> exact .empty
  split_ifs
  · exact add _ rfl rfl
  · exact add _ rfl rfl
  · exact add _ rfl rfl
  · refine ⟨(h st).params, fun b mt h1 h2 => ?_, (h st).response⟩
    cases h1
    exact jsonContent_shows h2

theorem exportInputs_fresh {conv : TypeSpec → String → Ran OSchema} {ins : List HttpParamSpec} {op op' : OOperation} (h0 : OpFresh op)
    (h : exportInputs conv ins op = .ok op') : OpFresh op' := by
  induction ins generalizing op with
  | nil => cases h; exact h0
  | cons p rest ih =>
    unfold exportInputs at h
    obtain ⟨s, _, h⟩ := Ran.bind_eq_ok.1 h
    exact ih (exportInput_fresh h0 p s) h

theorem exportOutputs_fresh {conv : TypeSpec → String → Ran OSchema} {outs : List HttpParamSpec} {r r' : OResponse}
    (h0 : ∀ mt, mget r.content "application/json" = some mt → Shows mt.example mt.examples [])
    (h : exportOutputs conv outs r = .ok r') : ∀ mt, mget r'.content "application/json" = some mt → Shows mt.example mt.examples [] := by
  induction outs generalizing r with
  | nil => cases h; exact h0
  | cons p rest ih =>
    unfold exportOutputs at h
    obtain ⟨s, _, h⟩ := Ran.bind_eq_ok.1 h
    refine ih ?_ h
    unfold exportOutput
    split_ifs
    · exact h0
    · intro mt hmt
      simp only [mget_mset_same, Option.some.injEq] at hmt
      subst hmt
      exact .empty

theorem exportExceptions_fresh {xs : List HttpExceptionSpec} {rs : GoMap OResponse}
    (h0 : ∀ st r mt, mget rs st = some r → mget r.content "application/json" = some mt → Shows mt.example mt.examples []) :
    ∀ st r mt, mget (exportExceptions xs rs) st = some r → mget r.content "application/json" = some mt → Shows mt.example mt.examples [] := by
  induction xs generalizing rs with
  | nil => exact h0
  | cons x rest ih =>
    unfold exportExceptions
    refine ih fun st r mt h1 h2 => ?_
    rw [mget_mset] at h1
    split at h1
    · cases h1
      exact jsonContent_shows h2
    · exact h0 st r mt h1 h2

theorem exportOp_fresh {conv : TypeSpec → String → Ran OSchema} {h : HttpDef} {op : OOperation} (ho : exportOp conv h = .ok op) :
    OpFresh op := by
  unfold exportOp at ho
  obtain ⟨op1, h1, ho⟩ := Ran.bind_eq_ok.1 ho
  have hf := exportInputs_fresh (fun st => ⟨by simp, by simp, by simp [mget]⟩) h1
  cases he : h.expected with
  | none => rw [he] at ho; cases ho
  | some e =>
    rw [he] at ho
    obtain ⟨r, h2, ho⟩ := Ran.bind_eq_ok.1 ho
    cases ho
    have hr := exportOutputs_fresh (by simp [mget]) h2
    intro st
    refine ⟨(hf st).params, (hf st).request, ?_⟩
    refine exportExceptions_fresh (fun st r' mt h3 h4 => ?_) st
    simp only [mget] at h3
    split at h3
    · cases h3; exact hr mt h4
    · cases h3

/-- The exported document shows the examples. -/
theorem exportOas_shown {n : Nat} {lib : OLib} (hord : ∀ l, (lib.order l).Perm l) {m : Model} (hm : newModel m.schema = .ok m) {d : ODoc}
    (h : exportOasN n lib m = .ok d) : Shown m.schema m.schema.examples d := by
  unfold exportOasN at h
  obtain ⟨schemas, h1, h⟩ := Ran.bind_eq_ok.1 h
  obtain ⟨paths, h2, h⟩ := Ran.bind_eq_ok.1 h
  have h0 : DocFor m.schema { exportHead m.schema with schemas := schemas, paths := paths } := by
    refine ⟨exportHttp_for h2, fun n => ?_⟩
    rw [Ne, mget_none_iff, not_not]
    simp only
    rw [(exportTypes_ok h1).1 n]
    simp [Named]
  have hs : Shown m.schema [] { exportHead m.schema with schemas := schemas, paths := paths } := by
    intro a ha e he k hk op hop
    obtain ⟨op1, h3, h4⟩ := (exportHttp_ok h2).2.1 a ha k hk
    simp only at hop
    rw [h3] at hop
    cases hop
    have : heard m.schema a [] = [] := by unfold heard; split <;> rfl
    rw [this]
    exact exportOp_fresh h4 _
  simpa using shown_all hm hord h0 hs h

/-! ### Types -/

theorem ite_ok {α : Type} {c : Prop} [Decidable c] {a b : Ran α} {x : α} (h : (if c then a else b) = .ok x) : a = .ok x ∨ b = .ok x := by
  by_cases hc : c
  · rw [if_pos hc] at h; exact .inl h
  · rw [if_neg hc] at h; exact .inr h

theorem oasSchema_noExample {n : Nat} {lib : OLib} {m : Model} {ts : TypeSpec} {name : String} {s : OSchema}
    (h : oasSchemaN n lib m ts name = .ok s) : s.example = .null := by
  cases n with
  | zero => cases h
  | succ n =>
    unfold oasSchemaN oasSchemaStep at h
    rcases ite_ok h with h | h
    · cases h; rfl
    rcases ite_ok h with h | h
    · rcases ite_ok h with h | h
      · cases h
      · cases h; rfl
    rcases ite_ok h with h | h
    · cases h; rfl
    rcases ite_ok h with h | h
    · cases h; rfl
    rcases ite_ok h with h | h
    · cases h; rfl
    rcases ite_ok h with h | h
    · cases h; rfl
    rcases ite_ok h with h | h
    · cases h; rfl
    rcases ite_ok h with h | h
    · cases h; rfl
    rcases ite_ok h with h | h
    · split at h
      · cases h
      · obtain ⟨_, _, h⟩ := Ran.bind_eq_ok.1 h
        cases h; rfl
    rcases ite_ok h with h | h
    · split at h
      · cases h
      · obtain ⟨_, _, h⟩ := Ran.bind_eq_ok.1 h
        cases h; rfl
    rcases ite_ok h with h | h
    · rcases ite_ok h with h | h
      · cases h; rfl
      · obtain ⟨_, _, h⟩ := Ran.bind_eq_ok.1 h
        cases h; rfl
    · cases h; rfl

theorem exportTypeDef_noExample {n : Nat} {lib : OLib} {m : Model} {td : TypeDef} {s : OSchema}
    (h : exportTypeDefN n lib m td = .ok s) : s.example = .null := by
  have str : ∀ {s}, exportString (oasSchemaN n lib m) td = .ok s → s.example = .null := by
    intro s h
    obtain ⟨s1, h1, h⟩ := Ran.bind_eq_ok.1 h
    cases h
    have := oasSchema_noExample h1
    exact this
  unfold exportTypeDefN at h
  simp only at h
  split_ifs at h
  · obtain ⟨_, _, h⟩ := Ran.bind_eq_ok.1 h
    cases h; rfl
  · unfold exportArray at h
    split at h
    · cases h
    · obtain ⟨_, _, h⟩ := Ran.bind_eq_ok.1 h
      cases h; rfl
  · unfold exportMap at h
    split at h
    · cases h
    · obtain ⟨_, _, h⟩ := Ran.bind_eq_ok.1 h
      cases h; rfl
  · exact str h
  · cases h; rfl
  · cases h; rfl
  · cases h; rfl
  · obtain ⟨s1, h1, h⟩ := Ran.bind_eq_ok.1 h
    cases h
    have := str h1
    exact this
  · cases h; rfl
  · obtain ⟨s1, h1, h⟩ := Ran.bind_eq_ok.1 h
    cases h
    have := str h1
    exact this

theorem exportExample_types {lib : OLib} {m : Model} {ex : ExampleDef} {d d' : ODoc} (h : exportExample lib m ex d = .ok d') (T : String) :
    (mget d'.schemas T).map (·.example) = (mget d.schemas T).map fun sc => if ex.target = T then ex.example else sc.example := by
  unfold exportExample at h
  split at h
  · next sc hsc =>
    cases h
    simp only [mget_mset]
    by_cases hT : T = ex.target
    · subst hT; simp [hsc]
    · simp [hT, Ne.symm hT]
  · next hno =>
    have hsame : d'.schemas = d.schemas := by
      split at h
      · obtain ⟨x, _, h⟩ := Ran.bind_eq_ok.1 h
        split at h
        · cases h; rfl
        · obtain ⟨_, _, h⟩ := Ran.bind_eq_ok.1 h
          obtain ⟨_, _, h⟩ := Ran.bind_eq_ok.1 h
          cases h; rfl
      · split at h
        · obtain ⟨x, _, h⟩ := Ran.bind_eq_ok.1 h
          split at h
          · cases h
          · obtain ⟨_, _, h⟩ := Ran.bind_eq_ok.1 h
            obtain ⟨_, _, h⟩ := Ran.bind_eq_ok.1 h
            cases h; rfl
        · cases h; rfl
    rw [hsame]
    by_cases hT : ex.target = T
    · subst hT; rw [hno]; rfl
    · simp [hT]

theorem exportExamples_types {lib : OLib} {m : Model} {l : List ExampleDef} {d d' : ODoc} (h : exportExamples lib m l d = .ok d') (T : String) :
    (mget d'.schemas T).map (·.example) = (mget d.schemas T).map fun sc => (lastOfType T l).getD sc.example := by
  induction l generalizing d with
  | nil => cases h; simp [lastOfType]
  | cons ex rest ih =>
    obtain ⟨d1, h1, h2⟩ := Ran.bind_eq_ok.1 h
    have e := exportExample_types h1 T
    rw [ih h2]
    cases hg : mget d1.schemas T with
    | none =>
      rw [hg] at e
      cases hg0 : mget d.schemas T with
      | none => rfl
      | some sc => rw [hg0] at e; cases e
    | some sc1 =>
      rw [hg] at e
      cases hg0 : mget d.schemas T with
      | none => rw [hg0] at e; cases e
      | some sc =>
        rw [hg0] at e
        simp only [Option.map_some, Option.some.injEq] at e ⊢
        rw [e]
        unfold lastOfType
        by_cases hT : ex.target = T
        · simp only [hT, beq_self_eq_true, List.filter_cons, if_true]
          rw [List.getLast?_cons]
          cases (rest.filter fun ex => ex.target == T).getLast? <;> simp
        · simp [hT, List.filter_cons]

theorem exportOas_types {n : Nat} {lib : OLib} {m : Model} {d : ODoc} (h : exportOasN n lib m = .ok d) {T : String} {sc : OSchema}
    (hT : mget d.schemas T = some sc) : sc.example = (lastOfType T m.schema.examples).getD .null := by
  unfold exportOasN at h
  obtain ⟨schemas, h1, h⟩ := Ran.bind_eq_ok.1 h
  obtain ⟨paths, h2, h⟩ := Ran.bind_eq_ok.1 h
  have e := exportExamples_types h T
  rw [hT] at e
  simp only at e
  cases hg : mget schemas T with
  | none => rw [hg] at e; cases e
  | some sc0 =>
    rw [hg] at e
    simp only [Option.map_some, Option.some.injEq] at e
    rw [e]
    rcases (exportTypes_ok h1).2.1 T sc0 (mget_mem hg) with h3 | ⟨td, _, _, h3⟩
    · cases h3
    · rw [exportTypeDef_noExample h3]

end Sadl
