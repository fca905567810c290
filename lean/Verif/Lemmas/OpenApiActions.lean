import Verif.Spec.OpenApiActions
import Verif.Lemmas.OpenApiTypes
import Verif.Lemmas.UnparseOpts
import Verif.Lemmas.Http
/-
The actions of a model after the export to OpenAPI and the import from it.
-/
namespace Sadl
open Spec

/-! ### Lists -/

theorem filter_key_cons {α β : Type} [DecidableEq β] (f : α → β) (x : α) (l : List α) (ks : List β) (h : ks.Nodup) (hx : f x ∈ ks) :
    (ks.flatMap fun k => (x :: l).filter fun a => decide (f a = k)).Perm (x :: ks.flatMap fun k => l.filter fun a => decide (f a = k)) := by
  induction ks with
  | nil => simp at hx
  | cons k r ih =>
    obtain ⟨h1, h2⟩ := List.nodup_cons.1 h
    simp only [List.flatMap_cons]
    by_cases hk : f x = k
    · have hr : (r.flatMap fun k => (x :: l).filter fun a => decide (f a = k)) = r.flatMap fun k => l.filter fun a => decide (f a = k) := by
        refine List.flatMap_congr fun k' hk' => ?_
        rw [List.filter_cons_of_neg]
        simp only [decide_eq_true_eq]
        rintro rfl
        exact h1 (hk ▸ hk')
      rw [hr, List.filter_cons_of_pos (by simpa using hk)]
      rfl
    · rw [List.filter_cons_of_neg (by simpa using hk)]
      have := ih h2 (by rcases List.mem_cons.1 hx with h | h; exact absurd h hk; exact h)
      exact (this.append_left _).trans List.perm_middle

/-- Sorting a list by keys gives the same list, in another order. -/
theorem filter_key_perm {α β : Type} [DecidableEq β] (f : α → β) (l : List α) (ks : List β) (h : ks.Nodup) (hx : ∀ x ∈ l, f x ∈ ks) :
    (ks.flatMap fun k => l.filter fun a => decide (f a = k)).Perm l := by
  induction l with
  | nil => simp
  | cons x l ih =>
    exact (filter_key_cons f x l ks h (hx x (by simp))).trans ((ih fun y hy => hx y (by simp [hy])).cons x)

theorem filter_key_one {α β : Type} [DecidableEq β] {f : α → β} {l : List α} (h : (l.map f).Nodup) {x : α} (hx : x ∈ l) :
    (l.filter fun a => decide (f a = f x)) = [x] := by
  induction l with
  | nil => simp at hx
  | cons y r ih =>
    simp only [List.map_cons, List.nodup_cons] at h
    rcases List.mem_cons.1 hx with rfl | hx
    · rw [List.filter_cons_of_pos (by simp), List.filter_eq_nil_iff.2]
      intro a ha
      simp only [decide_eq_true_eq]
      intro e
      exact h.1 (e ▸ List.mem_map_of_mem ha)
    · rw [List.filter_cons_of_neg, ih h.2 hx]
      simp only [decide_eq_true_eq]
      intro e
      exact h.1 (e ▸ List.mem_map_of_mem hx)

/-! ### Names -/

theorem makeIdentL_eq (b : Bool) (l : List Char) : makeIdentL b l = l.filter fun c => isLetterCh c || c == '_' := by
  induction l generalizing b with
  | nil => simp [makeIdentL]
  | cons c r ih =>
    unfold makeIdentL
    by_cases h : (isLetterCh c || c == '_') = true
    · rw [if_neg (by simp [h]), if_pos h, List.filter_cons_of_pos (p := fun c => isLetterCh c || c == '_') h, ih]
    · rw [List.filter_cons_of_neg (p := fun c => isLetterCh c || c == '_') h]
      split_ifs <;> exact ih _

theorem makeIdentifier_eq (s : String) : makeIdentifier s = Letters s := by
  unfold makeIdentifier Letters
  rw [makeIdentL_eq]
  congr 2
  funext c
  rw [Bool.eq_iff_iff]
  simp [isLetterCh, isUpperCh, isLowerCh]
  tauto

theorem headerName_eq (s : String) : headerName s = Letters (PublicPart s) := by
  unfold headerName
  rw [makeIdentifier_eq]
  congr 1
  unfold PublicPart hasPrefix
  cases hs : s.toList with
  | nil => simp
  | cons a r =>
    cases r with
    | nil => simp
    | cons b r =>
      by_cases h : (a = 'x' ∨ a = 'X') ∧ b = '-'
      · obtain ⟨rfl | rfl, rfl⟩ := h <;> simp
      · rw [if_neg]
        · split
          · next e => simp at e; exact absurd ⟨.inl e.1, e.2.1⟩ h
          · next e => simp at e; exact absurd ⟨.inr e.1, e.2.1⟩ h
          · rfl
        · intro hc
          simp at hc
          rcases hc with ⟨e, e'⟩ | ⟨e, e'⟩
          · exact h ⟨.inl e.symm, e'.symm⟩
          · exact h ⟨.inr e.symm, e'.symm⟩

/-! ### Statuses -/

theorem status_text {n : Int} (h : 200 ≤ n ∧ n < 600) :
    parseInt 64 (sprintInt n) = some n ∧ containsSub ['X'] (sprintInt n).toList = false ∧ sprintInt n ≠ "default" ∧
    ((hasPrefix (sprintInt n) "2" ∨ hasPrefix (sprintInt n) "3") ↔ n < 400) ∧ toInt32 n = n := by
  have key : ∀ k : Fin 600, 200 ≤ k.val → (parseInt 64 (sprintInt (k.val : Int)) = some (k.val : Int) ∧
      containsSub ['X'] (sprintInt (k.val : Int)).toList = false ∧ sprintInt (k.val : Int) ≠ "default" ∧
      ((hasPrefix (sprintInt (k.val : Int)) "2" ∨ hasPrefix (sprintInt (k.val : Int)) "3") ↔ (k.val : Int) < 400) ∧ toInt32 (k.val : Int) = k.val) := by
    decide +kernel
  have := key ⟨n.toNat, by omega⟩ (by dsimp only; omega)
  dsimp only at this
  rw [Int.toNat_of_nonneg (by omega)] at this
  exact this

theorem sprintInt_inj {a b : Int} (ha : 200 ≤ a ∧ a < 600) (hb : 200 ≤ b ∧ b < 600) (h : sprintInt a = sprintInt b) : a = b := by
  have h1 := (status_text ha).1
  rw [h, (status_text hb).1] at h1
  exact (Option.some_injective _ h1).symm

/-! ### What the export writes -/

/-- The parameter written for an input. -/
def writtenParam (p : HttpParamSpec) (s : OSchema) : OParam :=
  { name := if p.path then p.field.name else if p.query ≠ "" then p.query else p.header
    «in» := if p.path then "path" else if p.query ≠ "" then "query" else "header"
    description := p.field.comment, required := p.path || p.field.required, schema := some s }

/-- The body written for an input. -/
def writtenBody (p : HttpParamSpec) (s : OSchema) : OBody :=
  { description := p.field.comment, required := true, content := jsonContent s }

theorem exportInput_body {p : HttpParamSpec} (h : BodyInput p = true) (s : OSchema) (op : OOperation) :
    exportInput p s op = { op with requestBody := some (writtenBody p s) } := by
  simp only [BodyInput, Bool.and_eq_true, Bool.not_eq_true', decide_eq_true_eq, beq_iff_eq] at h
  simp [exportInput, writtenBody, h]

theorem exportInput_param {p : HttpParamSpec} (h : BodyInput p = false) (s : OSchema) (op : OOperation) :
    exportInput p s op = { op with parameters := op.parameters ++ [writtenParam p s] } := by
  unfold exportInput writtenParam
  by_cases h1 : p.path = true
  · simp [h1]
  · by_cases h2 : p.query = ""
    · by_cases h3 : p.header = ""
      · exfalso; simp [BodyInput, h1, h2, h3] at h
      · simp [h1, h2, h3]
    · simp [h1, h2]

theorem exportInputs_written {conv : TypeSpec → String → Ran OSchema} {ins : List HttpParamSpec} {op op' : OOperation}
    (h : exportInputs conv ins op = .ok op') :
    op'.operationId = op.operationId ∧ op'.summary = op.summary ∧ op'.tags = op.tags ∧ op'.responses = op.responses ∧
    (∃ qs, op'.parameters = op.parameters ++ qs ∧
      List.Forall₂ (fun p q => ∃ s, conv p.field.ts "" = .ok s ∧ q = writtenParam p s) (ins.filter (fun p => !BodyInput p)) qs) ∧
    (ins.filter BodyInput = [] → op'.requestBody = op.requestBody) ∧
    (∀ p, ins.filter BodyInput = [p] → ∃ s, conv p.field.ts "" = .ok s ∧ op'.requestBody = some (writtenBody p s)) := by
  induction ins generalizing op with
  | nil =>
    cases h
    exact ⟨rfl, rfl, rfl, rfl, ⟨[], by simp, by simp⟩, by simp, by simp⟩
  | cons p rest ih =>
    unfold exportInputs at h
    obtain ⟨s, hs, h⟩ := Ran.bind_eq_ok.1 h
    obtain ⟨h1, h2, h3, h4, ⟨qs, h5, h6⟩, h7, h8⟩ := ih h
    cases hb : BodyInput p with
    | true =>
      rw [exportInput_body hb] at h1 h2 h3 h4 h5 h7
      refine ⟨h1, h2, h3, h4, ⟨qs, h5, by simpa [List.filter_cons, hb] using h6⟩, by simp [hb], fun q hq => ?_⟩
      rw [List.filter_cons_of_pos hb, List.cons.injEq] at hq
      obtain ⟨rfl, hq⟩ := hq
      exact ⟨s, hs, h7 hq⟩
    | false =>
      rw [exportInput_param hb] at h1 h2 h3 h4 h5 h7
      refine ⟨h1, h2, h3, h4, ⟨writtenParam p s :: qs, by simp [h5], ?_⟩, ?_, ?_⟩
      · rw [List.filter_cons_of_pos (by simp [hb])]
        exact .cons ⟨s, hs, rfl⟩ h6
      · rw [List.filter_cons_of_neg (by simp [hb])]; exact h7
      · rw [List.filter_cons_of_neg (by simp [hb])]; exact h8

theorem exportOutputs_written {conv : TypeSpec → String → Ran OSchema} {outs : List HttpParamSpec} {r r' : OResponse}
    (hn : (outs.map (·.header)).Nodup) (h : exportOutputs conv outs r = .ok r') :
    r'.description = r.description ∧
    (∀ p ∈ outs, p.header ≠ "" → ∃ s, conv p.field.ts "" = .ok s ∧
      mget r'.headers p.header = some { description := p.field.comment, schema := some s }) ∧
    (∀ k, (k = "" ∨ k ∉ outs.map (·.header)) → mget r'.headers k = mget r.headers k) ∧
    (∀ p ∈ outs, p.header = "" → ∃ s, conv p.field.ts "" = .ok s ∧ mget r'.content "application/json" = some { schema := some s }) ∧
    ("" ∉ outs.map (·.header) → r'.content = r.content) := by
  induction outs generalizing r with
  | nil => cases h; simp
  | cons p rest ih =>
    unfold exportOutputs at h
    obtain ⟨s, hs, h⟩ := Ran.bind_eq_ok.1 h
    simp only [List.map_cons, List.nodup_cons] at hn
    obtain ⟨h1, h2, h3, h4, h5⟩ := ih hn.2 h
    by_cases hh : p.header = ""
    · simp only [exportOutput, hh, ne_eq, not_true_eq_false, if_false] at h1 h2 h3 h4 h5
      rw [hh] at hn
      refine ⟨h1, ?_, ?_, ?_, by simp [hh]⟩
      · intro q hq hq'
        rcases List.mem_cons.1 hq with rfl | hq
        · exact absurd hh hq'
        · exact h2 q hq hq'
      · intro k hk
        refine h3 k (hk.imp id fun h hc => h (by simp only [List.map_cons, List.mem_cons]; exact .inr hc))
      · intro q hq hq'
        rcases List.mem_cons.1 hq with rfl | hq
        · exact ⟨s, hs, by rw [h5 hn.1, mget_mset_same]⟩
        · exact absurd (List.mem_map.2 ⟨q, hq, hq'⟩) hn.1
    · simp only [exportOutput, hh, ne_eq, not_false_eq_true, if_true] at h1 h2 h3 h4 h5
      refine ⟨h1, ?_, ?_, ?_, ?_⟩
      · intro q hq hq'
        rcases List.mem_cons.1 hq with rfl | hq
        · exact ⟨s, hs, by rw [h3 _ (.inr hn.1), mget_mset_same]⟩
        · exact h2 q hq hq'
      · intro k hk
        simp only [List.map_cons, List.mem_cons, not_or] at hk
        rw [h3 k (hk.imp id fun h => h.2), mget_mset_other]
        rcases hk with rfl | hk
        · exact fun e => hh e.symm
        · exact hk.1
      · intro q hq hq'
        rcases List.mem_cons.1 hq with rfl | hq
        · exact absurd hq' hh
        · exact h4 q hq hq'
      · intro hk
        simp only [List.map_cons, List.mem_cons, not_or] at hk
        exact h5 hk.2

/-! ### What the import reads -/

section
variable {s : Schema} {m : Model} (hm : newModel s = .ok m) {lib : OLib}
include hm

theorem named_step {td : TypeDef} (h : td ∈ s.types) (rec : TypeSpec → String → Ran OSchema) (name : String) :
    oasSchemaStep lib m rec { type := td.name } name = .ok { ref := refPrefix ++ td.name } := by
  obtain ⟨_, hb, _⟩ := (newModel_ok_iff s m).1 hm
  have hb := hb td h
  simp only [BaseTypes, List.mem_cons, List.not_mem_nil, or_false, not_or] at hb
  unfold oasSchemaStep
  simp [hb]

theorem paramType_reads {n : Nat} {t : TypeSpec} {sc : OSchema} (hk : OasParamKept s t) (h : oasSchemaN n lib m t "" = .ok sc) :
    importParamType (some sc) = .ok t := by
  cases n with
  | zero => simp [oasSchemaN] at h
  | succ n =>
    rw [oasSchemaN_succ] at h
    cases hk with
    | named h1 h2 =>
      rw [named_step hm h1] at h
      cases h
      simp only [importParamType, oasTypeRef_ref _ { ref := refPrefix ++ _ } rfl, ne_eq, h2, not_false_eq_true, if_true]
    | base h1 =>
      simp only [List.mem_cons, List.not_mem_nil, or_false] at h1
      rcases h1 with rfl | rfl | rfl | rfl <;>
        · simp [oasSchemaStep, oasNumeric, oasNumericEquivalent, oasString] at h
          subst h
          simp [importParamType, oasTypeRef, sadlPrimitiveType, Out.bind]
    | strings =>
      have hf : m.findType "String" = some (baseTypeDef "String") := (newModel_findType_iff hm _ _).2 (.inr ⟨by decide, rfl⟩)
      simp only [oasSchemaStep, String.reduceEq, if_false, if_true, List.mem_cons, List.not_mem_nil, or_false, hf] at h
      obtain ⟨s0, h0, h⟩ := Ran.bind_eq_ok.1 h
      cases h
      cases n with
      | zero => simp [oasSchemaN] at h0
      | succ n =>
        rw [oasSchemaN_succ] at h0
        simp [oasSchemaStep, baseTypeDef, oasString] at h0
        subst h0
        simp [importParamType, oasTypeRef, sadlPrimitiveType, Out.bind]

theorem output_reads {n : Nat} {t : TypeSpec} {sc : OSchema} (hk : FieldKept lib s t) (h : oasSchemaN n lib m t "" = .ok sc) (name : String) :
    importOutputType name sc = .ok (t, []) := by
  unfold importOutputType
  rcases (field_reads hm hk h).1 with ⟨h1, rfl⟩ | ⟨h1, h2⟩
  · rw [if_pos]
    intro h
    exact h1 (oasTypeRef_none _ h)
  · rw [if_neg (by simp [h1]), h2]
    rfl

/-- A parameter is read as the input it was written for. -/
theorem param_back {n : Nat} {uri method : String} {p : HttpParamSpec} (hk : OasInputKept s method uri p) (hb : BodyInput p = false)
    {sc : OSchema} (h : oasSchemaN n lib m p.field.ts "" = .ok sc) {q : OParam}
    (hq : q = { writtenParam p sc with «example» := q.example, examples := q.examples }) :
    ∃ p', importParam (s.base ++ uri) q = .ok p' ∧ OasSameInput p p' := by
  have ht := paramType_reads hm (hk.type hb) h
  obtain ⟨a1, a2⟩ := hk.bare
  obtain ⟨hd, qu, pa, ⟨fn, fc, fa, fd, fr, fts⟩⟩ := p
  dsimp only at ht a1 a2
  subst a1 a2
  rw [hq]
  unfold OasSameInput importParam writtenParam
  by_cases hp : pa = true
  · obtain ⟨b1, b2, b3, b4⟩ := hk.path hp
    dsimp only at b1 b2 b3 b4
    subst b1 b2 hp
    have hocc : containsSub ("{" ++ fn ++ "}").toList (s.base ++ uri).toList = true := by
      rw [containsSub_iff]
      obtain ⟨a, b, e⟩ := b4
      exact ⟨s.base.toList ++ a, b, by rw [String.toList_append, e]; simp⟩
    simp only [makeIdentifier_eq, b3, if_true, String.reduceEq, if_false, hocc, ht, Out.bind, Bool.true_or, Bool.or_true]
    exact ⟨_, rfl, rfl⟩
  · simp only [Bool.not_eq_true] at hp
    subst hp
    by_cases h2 : qu = ""
    · subst h2
      have h3 : hd ≠ "" := by
        intro e; subst e; simp [BodyInput] at hb
      have h4 := hk.header h3
      dsimp only at h4
      simp only [makeIdentifier_eq, ← h4, Bool.false_eq_true, ne_eq, not_true_eq_false, if_true, String.reduceEq, if_false, ht, Out.bind, Bool.or_false, Bool.false_or, hb]
      exact ⟨_, rfl, rfl⟩
    · obtain ⟨b1, b2, b3⟩ := hk.query h2
      dsimp only at b1 b2 b3
      subst b1 b2
      simp only [makeIdentifier_eq, b3, h2, Bool.false_eq_true, ne_eq, not_false_eq_true, if_true, String.reduceEq, if_false, ht, Out.bind, Bool.or_false, Bool.false_or, hb]
      exact ⟨_, rfl, rfl⟩

theorem params_back {n : Nat} {uri method : String} {ps : List HttpParamSpec} {qs : List OParam}
    (hk : ∀ p ∈ ps, OasInputKept s method uri p ∧ BodyInput p = false)
    (h : List.Forall₂ (fun p q => ∃ sc, oasSchemaN n lib m p.field.ts "" = .ok sc ∧
      q = { writtenParam p sc with «example» := q.example, examples := q.examples }) ps qs) :
    ∃ ps', importParams (s.base ++ uri) qs = .ok ps' ∧ List.Forall₂ OasSameInput ps ps' := by
  induction h with
  | nil => exact ⟨[], rfl, .nil⟩
  | cons a _ ih =>
    obtain ⟨sc, a1, a2⟩ := a
    obtain ⟨k1, k2⟩ := hk _ List.mem_cons_self
    obtain ⟨p', b1, b2⟩ := param_back hm k1 k2 a1 a2
    obtain ⟨ps', c1, c2⟩ := ih fun p hp => hk p (by simp [hp])
    exact ⟨p' :: ps', by simp only [importParams, b1, c1, Out.bind], .cons b2 c2⟩

end

/-! ### The query of the path -/

theorem queries_back {s : Schema} {uri method : String} {ps : List HttpParamSpec} {qs : List OParam}
    (hk : ∀ p ∈ ps, OasInputKept s method uri p ∧ BodyInput p = false)
    (h : List.Forall₂ (fun p q => ∃ sc, q = { writtenParam p sc with «example» := q.example, examples := q.examples }) ps qs) :
    importQueries qs = (ps.filter (·.query ≠ "")).map fun p => (p.field.name ++ "={" ++ p.field.name ++ "}").toList := by
  induction h with
  | nil => rfl
  | @cons p q ps qs a _ ih =>
    have ih := ih fun p hp => hk p (by simp [hp])
    obtain ⟨k1, k2⟩ := hk p (by simp)
    obtain ⟨sc, a⟩ := a
    unfold importQueries at ih ⊢
    have hin : q.in = (writtenParam p sc).in := by rw [a]
    have hname : q.name = (writtenParam p sc).name := by rw [a]
    by_cases h2 : p.query = ""
    · have : q.in ≠ "query" := by
        rw [hin]
        unfold writtenParam
        by_cases h1 : p.path = true <;> simp [h1, h2]
      rw [List.filter_cons_of_neg (by simpa using this), List.filter_cons_of_neg (by simpa using h2), ih]
    · have h1 : p.path = false := by
        by_contra h1
        exact h2 (k1.path (by simpa using h1)).1
      obtain ⟨b1, b2, b3⟩ := k1.query h2
      have : q.in = "query" := by rw [hin]; simp [writtenParam, h1, h2]
      have hn : q.name = p.query := by rw [hname]; simp [writtenParam, h1, h2]
      rw [List.filter_cons_of_pos (by simpa using this), List.filter_cons_of_pos (by simpa using h2), List.map_cons, List.map_cons, ih,
        hn, makeIdentifier_eq, b3, b2]

theorem queryText_join (ps : List HttpParamSpec) :
    QueryText ps = let qs := (ps.filter (·.query ≠ "")).map fun p => (p.field.name ++ "={" ++ p.field.name ++ "}").toList
      if qs = [] then "" else "?" ++ String.ofList (joinWith '&' qs) := by
  unfold QueryText
  cases ps.filter (·.query ≠ "") with
  | nil => rfl
  | cons p r =>
    simp only [List.map_cons, reduceCtorEq, if_false]
    have key : ∀ (r : List HttpParamSpec) (w : String), r.foldl (fun q p => q ++ "&" ++ p.field.name ++ "={" ++ p.field.name ++ "}") w =
        String.ofList (joinWith '&' (w.toList :: r.map fun p => (p.field.name ++ "={" ++ p.field.name ++ "}").toList)) := by
      intro r
      induction r with
      | nil => intro w; simp [joinWith]
      | cons x r ih =>
        intro w
        rw [List.foldl_cons, ih]
        apply String.toList_injective
        cases r <;> simp [joinWith]
    rw [key]
    apply String.toList_injective
    cases r <;> simp [joinWith]

theorem query_filter_body (ps : List HttpParamSpec) :
    (ps.filter (fun p => !BodyInput p)).filter (·.query ≠ "") = ps.filter (·.query ≠ "") := by
  rw [List.filter_filter]
  refine List.filter_congr fun p _ => ?_
  by_cases h : p.query = "" <;> simp [h, BodyInput]

/-! ### Tags -/

theorem importTags_join (ws : List (List Char)) (rez tmp : String) (h1 : rez ≠ "") (h2 : tmp ≠ "") :
    importTags (ws.map String.ofList) (rez, tmp) = (rez, String.ofList (joinWith ',' (tmp.toList :: ws))) := by
  induction ws generalizing tmp with
  | nil => simp [importTags, joinWith]
  | cons w r ih =>
    simp only [List.map_cons, importTags, h1, h2, if_false]
    rw [ih]
    · congr 2
      cases r <;> simp [joinWith]
    · intro h
      have := congrArg String.toList h
      simp at this

theorem tags_back {h : HttpDef} (hk : h.annotations = [] ∨
    (h.resource ≠ "" ∧ ∃ c r, h.annotations = [("x_tags", String.ofList (c :: r))] ∧ c ≠ ',')) :
    (importTags (oasTags h) ("", "")).1 = h.resource ∧
    (if (importTags (oasTags h) ("", "")).2 = "" then [] else [("x_tags", (importTags (oasTags h) ("", "")).2)]) = h.annotations := by
  rcases hk with ha | ⟨h1, c, r, ha, hc⟩
  · by_cases h1 : h.resource = "" <;> simp [oasTags, ha, h1, mget, importTags]
  · have ht : importTags (oasTags h) ("", "") = (h.resource, String.ofList (c :: r)) := by
      obtain ⟨w, ws, hw⟩ : ∃ w ws, splitAll ',' (c :: r) = (c :: w) :: ws := by
        unfold splitAll
        rw [if_neg hc]
        cases splitAll ',' r with
        | nil => exact ⟨[], [], rfl⟩
        | cons w ws => exact ⟨w, ws, rfl⟩
      have hj := joinWith_splitAll ',' (c :: r)
      rw [hw] at hj
      simp only [oasTags, ha, mget, h1, ne_eq, not_false_eq_true, if_true, String.toList_ofList, hw, List.map_cons, List.singleton_append, importTags, if_false]
      rw [importTags_join _ _ _ h1, String.toList_ofList, hj]
      intro h
      have := congrArg String.toList h
      simp at this
    rw [ht]
    refine ⟨rfl, ?_⟩
    rw [if_neg, ha]
    intro h
    have := congrArg String.toList h
    simp at this

/-! ### The path -/

theorem queryText_cases (ps : List HttpParamSpec) : QueryText ps = "" ∨ ∃ r, (QueryText ps).toList = '?' :: r := by
  rw [queryText_join]
  simp only
  split
  · exact .inl rfl
  · exact .inr ⟨_, by simp; rfl⟩

theorem oasPath_uri {base uri : String} {h : HttpDef} (h1 : '?' ∉ (base ++ uri).toList) (h2 : h.path = uri ++ QueryText h.inputs) :
    oasPath base h = base ++ uri := by
  unfold oasPath
  apply String.toList_injective
  rw [String.toList_ofList, h2, ← String.append_assoc, String.toList_append]
  have hall : ∀ c ∈ (base ++ uri).toList, (c != '?') = true := by
    intro c hc
    simp only [bne_iff_ne, ne_eq]
    rintro rfl
    exact h1 hc
  rw [List.takeWhile_append_of_pos hall]
  rcases queryText_cases h.inputs with e | ⟨r, e⟩ <;> simp [e]

/-! ### Responses -/

theorem mget_mem_keys {α : Type} {m : GoMap α} {k : String} {v : α} (h : mget m k = some v) : k ∈ m.map Prod.fst :=
  List.mem_map.2 ⟨_, mget_mem h, rfl⟩

section
variable {s : Schema} {m : Model} (hm : newModel s = .ok m) {lib : OLib}
include hm

theorem headers_back {n : Nat} {outs : List HttpParamSpec} (hn : (outs.map (·.header)).Nodup)
    (hk : ∀ p ∈ outs, OasOutputKept lib s p) (action : String) (l : GoMap OHeader)
    (h : ∀ k d, (k, d) ∈ l → ∃ p ∈ outs, p.header = k ∧ k ≠ "" ∧ ∃ sc, oasSchemaN n lib m p.field.ts "" = .ok sc ∧
      d = { description := p.field.comment, schema := some sc }) :
    ∃ ps', importHeaders action l = .ok (ps', []) ∧
      List.Forall₂ OasSameOutput ((l.map Prod.fst).flatMap fun k => outs.filter fun p => decide (p.header = k)) ps' := by
  induction l with
  | nil => exact ⟨[], rfl, .nil⟩
  | cons e rest ih =>
    obtain ⟨k, d⟩ := e
    obtain ⟨ps', i1, i2⟩ := ih fun k d hd => h k d (by simp [hd])
    obtain ⟨p, hp, rfl, hne, sc, hsc, rfl⟩ := h k d (by simp)
    have hkp := hk p hp
    have ho := output_reads hm hkp.type hsc (action ++ ".Expected." ++ headerName p.header)
    simp only [importHeaders, ho, i1, Out.bind, List.append_nil]
    refine ⟨_, rfl, ?_⟩
    rw [List.map_cons, List.flatMap_cons, filter_key_one (f := fun p : HttpParamSpec => p.header) hn hp]
    refine .cons ?_ i2
    obtain ⟨a1, a2⟩ := hkp.bare
    obtain ⟨b1, b2⟩ := hkp.place
    have b3 := hkp.header hne
    obtain ⟨hd, qu, pa, ⟨fn, fc, fa, fd, fr, fts⟩⟩ := p
    dsimp only at a1 a2 b1 b2 b3
    subst a1 a2 b1 b2
    unfold OasSameOutput
    rw [headerName_eq, ← b3]

theorem result_back {n : Nat} {outs : List HttpParamSpec} (hn : (outs.map (·.header)).Nodup)
    (hk : ∀ p ∈ outs, OasOutputKept lib s p) (action : String) {c : GoMap OMedia}
    (h1 : ∀ p ∈ outs, p.header = "" → ∃ sc, oasSchemaN n lib m p.field.ts "" = .ok sc ∧
      (mget c "application/json").bind (·.schema) = some sc)
    (h2 : "" ∉ outs.map (·.header) → mget c "application/json" = none) :
    ∃ ps', importResult action c = .ok (ps', []) ∧ List.Forall₂ OasSameOutput (outs.filter fun p => decide (p.header = "")) ps' := by
  by_cases hb : "" ∈ outs.map (·.header)
  · obtain ⟨p, hp, he⟩ := List.mem_map.1 hb
    obtain ⟨sc, hsc, hc⟩ := h1 p hp he
    have hkp := hk p hp
    have ho := output_reads hm hkp.type hsc (action ++ ".Expected.payload")
    simp only [importResult, hc, ho, Out.bind]
    refine ⟨_, rfl, ?_⟩
    have := filter_key_one (f := fun p : HttpParamSpec => p.header) hn hp
    simp only [he] at this
    rw [this]
    refine .cons ?_ .nil
    obtain ⟨a1, a2⟩ := hkp.bare
    obtain ⟨b1, b2⟩ := hkp.place
    obtain ⟨b3, b4⟩ := hkp.body he
    obtain ⟨hd, qu, pa, ⟨fn, fc, fa, fd, fr, fts⟩⟩ := p
    dsimp only at a1 a2 b1 b2 b3 b4 he
    subst a1 a2 b1 b2 b3 b4 he
    rfl
  · simp only [importResult, h2 hb, Option.bind_none]
    refine ⟨_, rfl, ?_⟩
    rw [List.filter_eq_nil_iff.2]
    · exact .nil
    · intro p hp
      simp only [decide_eq_true_eq]
      intro e
      exact hb (List.mem_map.2 ⟨p, hp, e⟩)

end

theorem exception_key {x : HttpExceptionSpec} (hx : x.status = 0 ∨ (400 ≤ x.status ∧ x.status < 600)) :
    containsSub ['X'] (if statusKey x.status = "default" then "0" else statusKey x.status).toList = false ∧
    parseInt 64 (if statusKey x.status = "default" then "0" else statusKey x.status) = some x.status ∧ toInt32 x.status = x.status := by
  rcases hx with e | e
  · rw [e]
    decide +kernel
  · have h := status_text (n := x.status) ⟨by omega, e.2⟩
    have hs : statusKey x.status = sprintInt x.status := by unfold statusKey sprintInt; rw [if_neg (by omega)]
    rw [hs, if_neg h.2.2.1]
    exact ⟨h.2.1, h.1, h.2.2.2.2⟩

theorem exception_key_inj {a b : Int} (ha : a = 0 ∨ (400 ≤ a ∧ a < 600)) (hb : b = 0 ∨ (400 ≤ b ∧ b < 600))
    (h : statusKey a = statusKey b) : a = b := by
  have h1 := exception_key (x := { type := "", status := a }) ha
  have h2 := exception_key (x := { type := "", status := b }) hb
  dsimp only at h1 h2
  rw [h, h2.2.1] at h1
  exact (Option.some_injective _ h1.2.1).symm

theorem exceptions_back {xs : List HttpExceptionSpec} (hn : (xs.map fun x => statusKey x.status).Nodup)
    (hk : ∀ x ∈ xs, x.type ≠ "" ∧ (x.status = 0 ∨ (400 ≤ x.status ∧ x.status < 600))) (expected : String) (l : GoMap OResponse)
    (h : ∀ k r, (k, r) ∈ l → k ≠ expected → ∃ x ∈ xs, statusKey x.status = k ∧ SameResponse (exportException x).2 r) :
    ∃ xs', importExceptions expected l = .ok xs' ∧
      List.Forall₂ (fun x x' => x'.type = x.type ∧ x'.status = x.status ∧ (x.comment ≠ "" → x'.comment = x.comment))
        (((l.map Prod.fst).filter (· ≠ expected)).flatMap fun k => xs.filter fun x => decide (statusKey x.status = k)) xs' := by
  induction l with
  | nil => exact ⟨[], rfl, .nil⟩
  | cons e rest ih =>
    obtain ⟨k, r⟩ := e
    obtain ⟨xs', i1, i2⟩ := ih fun k r hr => h k r (by simp [hr])
    unfold importExceptions
    by_cases hke : k = expected
    · rw [if_pos hke, List.map_cons, List.filter_cons_of_neg (by simpa using hke)]
      exact ⟨xs', i1, i2⟩
    · obtain ⟨x, hx, rfl, hr⟩ := h k r (by simp) hke
      obtain ⟨h1, h2⟩ := hk x hx
      obtain ⟨b1, b2, b3⟩ := exception_key h2
      have hc : (mget r.content "application/json").bind (·.schema) = some { ref := refPrefix ++ x.type } := by
        have := hr.content.2 "application/json"
        simp only [exportException, jsonContent, mget, if_true] at this
        generalize hg : mget r.content "application/json" = o at this
        cases this with
        | some h => simp [h]
      have hne : refPrefix ++ x.type ≠ "" := by
        intro h
        have := congrArg String.toList h
        simp [refPrefix] at this
      rw [if_neg hke]
      simp only [b1, b2, hc, hne, i1, Bool.false_eq_true, if_false, ne_eq, not_false_eq_true, if_true, Out.bind,
        oasTypeRef_ref _ { ref := refPrefix ++ x.type } rfl, b3]
      refine ⟨_, rfl, ?_⟩
      rw [List.map_cons, List.filter_cons_of_pos (by simpa using hke), List.flatMap_cons,
        filter_key_one (f := fun x : HttpExceptionSpec => statusKey x.status) hn hx]
      refine .cons ⟨rfl, rfl, fun hcm => ?_⟩ i2
      dsimp only
      rw [hr.description]
      simp [exportException, hcm]

theorem expectedStatus_eq {l : GoMap OResponse} {k0 : String} (h0 : k0 ∈ l.map Prod.fst) (hp : hasPrefix k0 "2" ∨ hasPrefix k0 "3")
    (h : ∀ k ∈ l.map Prod.fst, (hasPrefix k "2" ∨ hasPrefix k "3") → k = k0) : expectedStatus l = k0 := by
  induction l with
  | nil => simp at h0
  | cons e rest ih =>
    obtain ⟨st, r⟩ := e
    unfold expectedStatus
    by_cases hst : hasPrefix st "2" ∨ hasPrefix st "3"
    · rw [if_pos hst]; exact h st (by simp) hst
    · rw [if_neg hst]
      refine ih ?_ fun k hk => h k (List.mem_cons_of_mem _ hk)
      rcases List.mem_cons.1 h0 with rfl | h0
      · exact absurd hp hst
      · exact h0

end Sadl
