import Verif.Lemmas.SwaggerTypes
import Verif.Lemmas.SmithyExport
/-
The actions that the import makes of the operations of a Swagger document.
-/
namespace Sadl
open Spec

/-! ### The import of an OpenAPI document -/

/-- The type of a definition, if it is imported. -/
def ImportsType (all : GoMap OSchema) (n : String) (s : OSchema) (td : TypeDef) : Prop :=
  td.name = n ∧ td.annotations = [] ∧ ∃ c,
    ((oasTypeRef s ≠ "" ∧ ∃ d, mget all (oasTypeRef s) = some d ∧ convertOas (oasTypeRef s) d = .ok c ∧ td.comment = "") ∨
     (oasTypeRef s = "" ∧ convertOas n s = .ok c ∧ td.comment = s.description)) ∧ c.err = none ∧ td.ts = c.ts

theorem importTypes_read {all : GoMap OSchema} : ∀ {l : GoMap OSchema} {tds : List TypeDef} {exs : List ExampleDef},
    importTypes all l = .ok (tds, exs) →
    List.Forall₂ (fun ks td => ImportsType all ks.1 ks.2 td) (l.filter fun ks => validSadlName ks.1 ks.2 ≠ "") tds
  | [], tds, exs, h => by simp [importTypes] at h; obtain ⟨rfl, rfl⟩ := h; exact .nil
  | (n, s) :: rest, tds, exs, h => by
    rw [importTypes] at h
    have hv : validSadlName n s = "" ∨ validSadlName n s = n := by
      unfold validSadlName; split <;> (try split) <;> simp
    by_cases hn : validSadlName n s = ""
    · simp only [hn, if_true] at h
      rw [List.filter_cons_of_neg (by simp [hn])]
      exact importTypes_read h
    · have hvn := hv.resolve_left hn
      rw [List.filter_cons_of_pos (by simp [hn])]
      rw [hvn] at hn
      simp only [hvn, hn, if_false] at h
      obtain ⟨⟨c, comment⟩, h1, h2⟩ := Out.bind_eq_ok.1 h
      dsimp only at h2
      cases hc : c.err with
      | some e => rw [hc] at h2; cases h2
      | none =>
        rw [hc] at h2
        obtain ⟨⟨tds', exs'⟩, h3, h4⟩ := Out.bind_eq_ok.1 h2
        simp only [Out.ok.injEq, Prod.mk.injEq] at h4
        obtain ⟨rfl, rfl⟩ := h4
        refine .cons ⟨rfl, rfl, c, ?_, hc, rfl⟩ (importTypes_read h3)
        by_cases hr : oasTypeRef s = ""
        · rw [if_neg (by simp [hr])] at h1
          obtain ⟨c', h5, h6⟩ := Out.bind_eq_ok.1 h1
          simp only [Out.ok.injEq, Prod.mk.injEq] at h6
          obtain ⟨rfl, rfl⟩ := h6
          exact .inr ⟨hr, h5, rfl⟩
        · rw [if_pos hr] at h1
          cases hg : mget all (oasTypeRef s) with
          | none => rw [hg] at h1; cases h1
          | some d =>
            rw [hg] at h1
            obtain ⟨c', h5, h6⟩ := Out.bind_eq_ok.1 h1
            simp only [Out.ok.injEq, Prod.mk.injEq] at h6
            obtain ⟨rfl, rfl⟩ := h6
            exact .inl ⟨hr, d, rfl, h5, rfl⟩

theorem importPath_read {path : String} {pi : OPathItem} : ∀ {ms : List (String × OMethod)} {hs : List HttpDef} {exs : List ExampleDef},
    importPath path pi ms = .ok (hs, exs) →
    ∀ h, h ∈ hs ↔ ∃ mk op exs', mk ∈ ms ∧ pi.op mk.2 = some op ∧ hasPrefix path "x-" = false ∧ convertOasPath path op mk.1 = .ok (h, exs')
  | [], hs, exs, h => by simp [importPath] at h; obtain ⟨rfl, rfl⟩ := h; simp
  | (method, k) :: rest, hs, exs, h => by
    rw [importPath] at h
    intro a
    cases ho : pi.op k with
    | none =>
      rw [ho] at h
      rw [importPath_read h a]
      constructor
      · rintro ⟨mk, op, exs', h1, h2⟩; exact ⟨mk, op, exs', List.mem_cons_of_mem _ h1, h2⟩
      · rintro ⟨mk, op, exs', h1, h2, h3⟩
        rcases List.mem_cons.1 h1 with rfl | h1
        · rw [ho] at h2; cases h2
        · exact ⟨mk, op, exs', h1, h2, h3⟩
    | some op =>
      rw [ho] at h
      cases hx : hasPrefix path "x-" with
      | true =>
        simp only [hx, if_true] at h
        rw [importPath_read h a]
        constructor
        · rintro ⟨mk, op, exs', h1, h2, h3, h4⟩; rw [hx] at h3; cases h3
        · rintro ⟨mk, op, exs', h1, h2, h3, h4⟩; cases h3
      | false =>
        simp only [hx, Bool.false_eq_true, if_false] at h
        obtain ⟨⟨h0, e0⟩, h1, h2⟩ := Out.bind_eq_ok.1 h
        obtain ⟨⟨hs', exs'⟩, h3, h4⟩ := Out.bind_eq_ok.1 h2
        simp only [Out.ok.injEq, Prod.mk.injEq] at h4
        obtain ⟨rfl, rfl⟩ := h4
        rw [List.mem_cons, importPath_read h3 a]
        constructor
        · rintro (rfl | ⟨mk, op', exs', h5, h6, h7, h8⟩)
          · exact ⟨(method, k), op, e0, List.mem_cons_self .., ho, rfl, h1⟩
          · exact ⟨mk, op', exs', List.mem_cons_of_mem _ h5, h6, rfl, h8⟩
        · rintro ⟨mk, op', exs', h5, h6, -, h8⟩
          rcases List.mem_cons.1 h5 with rfl | h5
          · rw [ho] at h6; cases h6
            rw [h1] at h8; cases h8
            exact .inl rfl
          · exact .inr ⟨mk, op', exs', h5, h6, hx, h8⟩

theorem importPaths_read : ∀ {l : GoMap OPathItem} {hs : List HttpDef} {exs : List ExampleDef},
    importPaths l = .ok (hs, exs) →
    ∀ h, h ∈ hs ↔ ∃ path pi mk op exs', (path, pi) ∈ l ∧ mk ∈ importMethods ∧ pi.op mk.2 = some op ∧
      hasPrefix path "x-" = false ∧ convertOasPath path op mk.1 = .ok (h, exs')
  | [], hs, exs, h => by simp [importPaths] at h; obtain ⟨rfl, rfl⟩ := h; simp
  | (path, pi) :: rest, hs, exs, h => by
    rw [importPaths] at h
    obtain ⟨⟨h0, e0⟩, h1, h2⟩ := Out.bind_eq_ok.1 h
    obtain ⟨⟨hs', exs'⟩, h3, h4⟩ := Out.bind_eq_ok.1 h2
    simp only [Out.ok.injEq, Prod.mk.injEq] at h4
    obtain ⟨rfl, rfl⟩ := h4
    intro a
    rw [List.mem_append, importPath_read h1 a, importPaths_read h3 a]
    constructor
    · rintro (⟨mk, op, e, h5⟩ | ⟨p, i, mk, op, e, h5, h6⟩)
      · exact ⟨path, pi, mk, op, e, List.mem_cons_self .., h5⟩
      · exact ⟨p, i, mk, op, e, List.mem_cons_of_mem _ h5, h6⟩
    · rintro ⟨p, i, mk, op, e, h5, h6⟩
      rcases List.mem_cons.1 h5 with h5 | h5
      · cases h5; exact .inl ⟨mk, op, e, h6⟩
      · exact .inr ⟨p, i, mk, op, e, h5, h6⟩

theorem importPath_runs {path : String} {pi : OPathItem} {verb : String} {mk : OMethod} {op : OOperation}
    (hop : pi.op mk = some op) (hx : hasPrefix path "x-" = false) : ∀ {ms : List (String × OMethod)} {hs : List HttpDef} {exs : List ExampleDef},
    importPath path pi ms = .ok (hs, exs) → (verb, mk) ∈ ms → ∃ a exs', convertOasPath path op verb = .ok (a, exs')
  | [], _, _, _, hm => by cases hm
  | (method, k) :: rest, hs, exs, h, hm => by
    rw [importPath] at h
    rcases List.mem_cons.1 hm with he | hr
    · cases he
      simp only [hop, hx, Bool.false_eq_true, if_false] at h
      obtain ⟨⟨a, e⟩, h1, -⟩ := Out.bind_eq_ok.1 h
      exact ⟨a, e, h1⟩
    · split at h
      · exact importPath_runs hop hx h hr
      · simp only [hx, Bool.false_eq_true, if_false] at h
        obtain ⟨⟨a, e⟩, -, h⟩ := Out.bind_eq_ok.1 h
        obtain ⟨⟨a', e'⟩, h, -⟩ := Out.bind_eq_ok.1 h
        exact importPath_runs hop hx h hr

theorem importPaths_runs {path : String} {pi : OPathItem} {verb : String} {mk : OMethod} {op : OOperation} :
    ∀ {l : GoMap OPathItem} {hs : List HttpDef} {exs : List ExampleDef}, importPaths l = .ok (hs, exs) → (path, pi) ∈ l →
    (verb, mk) ∈ importMethods → pi.op mk = some op → hasPrefix path "x-" = false → ∃ a exs', convertOasPath path op verb = .ok (a, exs')
  | [], _, _, _, hm, _, _, _ => by cases hm
  | (path', pi') :: rest, hs, exs, h, hm, hmk, hop, hx => by
    rw [importPaths] at h
    obtain ⟨⟨h0, e0⟩, h1, h2⟩ := Out.bind_eq_ok.1 h
    obtain ⟨⟨hs', exs'⟩, h3, h4⟩ := Out.bind_eq_ok.1 h2
    rcases List.mem_cons.1 hm with he | hr
    · cases he; exact importPath_runs hop hx h1 hmk
    · exact importPaths_runs h3 hr hmk hop hx

/-! ### The conversion of a Swagger document -/

theorem toV3Definitions_read {wild : Int} : ∀ {l : GoMap Value} {ss : GoMap OSchema}, toV3Definitions wild l = .ok ss →
    List.Forall₂ (fun kv ks => ks.1 = kv.1 ∧ toV3Schema wild kv.2 = .ok ks.2) l ss
  | [], ss, h => by simp [toV3Definitions] at h; subst h; exact .nil
  | (k, v) :: rest, ss, h => by
    rw [toV3Definitions] at h
    obtain ⟨s, h1, h2⟩ := Out.bind_eq_ok.1 h
    obtain ⟨ss', h3, h4⟩ := Out.bind_eq_ok.1 h2
    cases h4
    exact .cons ⟨rfl, h1⟩ (toV3Definitions_read h3)

theorem toV3Paths_read {wild : Int} {dc dp : List String} : ∀ {l : GoMap Value} {ps : GoMap OPathItem}, toV3Paths wild dc dp l = .ok ps →
    List.Forall₂ (fun kv kp => kp.1 = kv.1 ∧ toV3Path wild dc dp kv.2 = .ok kp.2) l ps
  | [], ss, h => by simp [toV3Paths] at h; subst h; exact .nil
  | (k, v) :: rest, ss, h => by
    rw [toV3Paths] at h
    obtain ⟨s, h1, h2⟩ := Out.bind_eq_ok.1 h
    obtain ⟨ss', h3, h4⟩ := Out.bind_eq_ok.1 h2
    cases h4
    exact .cons ⟨rfl, h1⟩ (toV3Paths_read h3)

theorem toV3Responses_read {wild : Int} {mts : List String} : ∀ {l : GoMap Value} {rs : GoMap OResponse}, toV3Responses wild mts l = .ok rs →
    List.Forall₂ (fun kv kr => kr.1 = kv.1 ∧ toV3Response wild mts kv.2 = .ok kr.2) l rs
  | [], ss, h => by simp [toV3Responses] at h; subst h; exact .nil
  | (k, v) :: rest, ss, h => by
    rw [toV3Responses] at h
    obtain ⟨s, h1, h2⟩ := Out.bind_eq_ok.1 h
    obtain ⟨ss', h3, h4⟩ := Out.bind_eq_ok.1 h2
    cases h4
    exact .cons ⟨rfl, h1⟩ (toV3Responses_read h3)

theorem toV3Path_op {wild : Int} {dc dp : List String} {v : Value} {pi : OPathItem} (h : toV3Path wild dc dp v = .ok pi) :
    ∀ kk ∈ [("get", OMethod.get), ("put", .put), ("post", .post), ("delete", .delete), ("head", .head), ("patch", .patch)],
      toV3Operation wild dc dp (dataGet v [kk.1]) = .ok (pi.op kk.2) := by
  unfold toV3Path at h
  obtain ⟨o1, h1, h⟩ := Out.bind_eq_ok.1 h
  obtain ⟨o2, h2, h⟩ := Out.bind_eq_ok.1 h
  obtain ⟨o3, h3, h⟩ := Out.bind_eq_ok.1 h
  obtain ⟨o4, h4, h⟩ := Out.bind_eq_ok.1 h
  obtain ⟨o5, h5, h⟩ := Out.bind_eq_ok.1 h
  obtain ⟨o6, h6, h⟩ := Out.bind_eq_ok.1 h
  cases h
  intro kk hkk
  simp only [List.mem_cons, List.not_mem_nil, or_false] at hkk
  rcases hkk with rfl | rfl | rfl | rfl | rfl | rfl <;> assumption

theorem toV3Operation_read {wild : Int} {dc dp : List String} {v : Value} {o : Option OOperation} (h : toV3Operation wild dc dp v = .ok o) :
    (v = .null ∧ o = none) ∨ (v ≠ .null ∧ ∃ ps b rs,
      toV3Params wild (orDefault (dataGetStringArray v ["consumes"]) dc) (getArray v "parameters") none = .ok (ps, b) ∧
      toV3Responses wild (orDefault (dataGetStringArray v ["produces"]) dp) (getMap v "responses") = .ok rs ∧
      o = some { operationId := getString v "operationId", tags := dataGetStringArray v ["tags"]
                 summary := getString v "summary", parameters := ps, requestBody := b, responses := rs }) := by
  by_cases hv : v = .null
  · subst hv; simp [toV3Operation] at h; exact .inl ⟨rfl, h.symm⟩
  · refine .inr ⟨hv, ?_⟩
    have h : (toV3Params wild (orDefault (dataGetStringArray v ["consumes"]) dc) (getArray v "parameters") none).bind (fun (ps, b) =>
        (toV3Responses wild (orDefault (dataGetStringArray v ["produces"]) dp) (getMap v "responses")).bind fun rs =>
        Out.ok (some ({ operationId := getString v "operationId", tags := dataGetStringArray v ["tags"]
                        summary := getString v "summary", parameters := ps, requestBody := b, responses := rs } : OOperation))) = .ok o := by
      rw [← h]; unfold toV3Operation; revert hv; cases v <;> simp
    obtain ⟨⟨ps, b⟩, h1, h⟩ := Out.bind_eq_ok.1 h
    obtain ⟨rs, h2, h⟩ := Out.bind_eq_ok.1 h
    cases h
    exact ⟨ps, b, rs, h1, h2, rfl⟩

/-- The body that the last body parameter gives. -/
theorem toV3Params_read {wild : Int} {mts : List String} : ∀ {l : List Value} {body b : Option OBody} {ps : List OParam},
    toV3Params wild mts l body = .ok (ps, b) →
    List.Forall₂ (fun v p => toV3Param wild v = .ok p) (l.filter fun v => getString v "in" ≠ "body") ps ∧
    (∀ v, (l.filter fun v => getString v "in" = "body").getLast? = some v → ∃ c, toV3Content wild mts (dataGet v ["schema"]) = .ok c ∧
      b = some { description := getString v "description", required := asBool (dataGet v ["required"]), content := c }) ∧
    ((l.filter fun v => getString v "in" = "body") = [] → b = body)
  | [], body, b, ps, h => by
    simp [toV3Params] at h
    obtain ⟨rfl, rfl⟩ := h
    exact ⟨.nil, by simp, fun _ => rfl⟩
  | v :: rest, body, b, ps, h => by
    rw [toV3Params] at h
    by_cases hin : getString v "in" = "body"
    · rw [if_pos hin] at h
      obtain ⟨c, h1, h2⟩ := Out.bind_eq_ok.1 h
      obtain ⟨i1, i2, i3⟩ := toV3Params_read h2
      rw [List.filter_cons_of_neg (by simp [hin]), List.filter_cons_of_pos (by simp [hin])]
      refine ⟨i1, fun w hw => ?_, by simp⟩
      cases hr : (rest.filter fun v => getString v "in" = "body") with
      | nil =>
        rw [hr] at hw
        simp at hw
        subst hw
        exact ⟨c, h1, i3 hr⟩
      | cons a r =>
        refine i2 w ?_
        rw [hr] at hw ⊢
        simpa using hw
    · rw [if_neg hin] at h
      obtain ⟨p, h1, h2⟩ := Out.bind_eq_ok.1 h
      obtain ⟨⟨ps', b'⟩, h3, h4⟩ := Out.bind_eq_ok.1 h2
      simp only [Out.ok.injEq, Prod.mk.injEq] at h4
      obtain ⟨rfl, rfl⟩ := h4
      obtain ⟨i1, i2, i3⟩ := toV3Params_read h3
      rw [List.filter_cons_of_pos (by simp [hin]), List.filter_cons_of_neg (by simp [hin])]
      exact ⟨.cons h1 i1, i2, i3⟩

/-! ### Inputs -/

theorem importParams_read {path : String} : ∀ {l : List OParam} {is : List HttpParamSpec}, importParams path l = .ok is →
    List.Forall₂ (fun p i => importParam path p = .ok i) l is
  | [], ss, h => by simp [importParams] at h; subst h; exact .nil
  | p :: rest, ss, h => by
    rw [importParams] at h
    obtain ⟨s, h1, h2⟩ := Out.bind_eq_ok.1 h
    obtain ⟨ss', h3, h4⟩ := Out.bind_eq_ok.1 h2
    cases h4
    exact .cons h1 (importParams_read h3)

theorem isRequired_asBool {p : Value} {b : Bool} (h : IsRequired p b) : asBool (dataGet p ["required"]) = b := by
  rcases h with h | ⟨h, rfl⟩
  · rw [((member_iff _ _ _).mp h).1]; rfl
  · rw [(lacks_iff _ _).mp h]; rfl

theorem input_for {wild : Int} {path : String} {v : Value} {p : OParam} {i : HttpParamSpec} (h1 : toV3Param wild v = .ok p)
    (h2 : importParam path p = .ok i) : InputFor v i := by
  unfold toV3Param at h1
  obtain ⟨s, hs, h1⟩ := Out.bind_eq_ok.1 h1
  cases h1
  unfold importParam at h2
  have htype : ∀ ts t t', importParamType (some s) = .ok ts → (t, t') ∈ ParamTypes → getString v "type" = t → ts = { type := t' } := by
    intro ts t t' hts htt ht
    have hne : t ≠ "" := by rintro rfl; simp [ParamTypes] at htt
    rw [ht, if_neg hne, toV3Schema] at hs
    cases hs
    simp only [ParamTypes, List.mem_cons, Prod.mk.injEq, List.not_mem_nil, or_false] at htt
    rcases htt with ⟨rfl, rfl⟩ | ⟨rfl, rfl⟩ | ⟨rfl, rfl⟩ | ⟨rfl, rfl⟩ <;>
      · simp [importParamType, oasTypeRef, sadlPrimitiveType, Out.bind] at hts
        rw [← hts]
  have harr : ∀ ts, importParamType (some s) = .ok ts → getString v "type" = "array" → ts = { type := "Array", items := "Any" } := by
    intro ts hts ht
    rw [ht, if_neg (by decide), toV3Schema] at hs
    cases hs
    simp [importParamType, oasTypeRef, sadlPrimitiveType, Out.bind] at hts
    rw [← hts]
  simp only [makeIdentifier_eq] at h2
  by_cases hq : getString v "in" = "query"
  · simp only [hq, if_true] at h2
    obtain ⟨ts, hts, h2⟩ := Out.bind_eq_ok.1 h2
    cases h2
    constructor <;> simp only [textAt_eq, hq, if_true, String.reduceEq, if_false, decide_false]
    · exact fun b hb => isRequired_asBool hb
    · exact fun t t' => htype ts t t' hts
    · exact harr ts hts
  by_cases hp : getString v "in" = "path"
  · simp only [hp, String.reduceEq, if_false, if_true] at h2
    split at h2
    · obtain ⟨ts, hts, h2⟩ := Out.bind_eq_ok.1 h2
      cases h2
      constructor <;> simp only [textAt_eq, hp, if_true, String.reduceEq, if_false, decide_true]
      · exact fun b hb => isRequired_asBool hb
      · exact fun t t' => htype ts t t' hts
      · exact harr ts hts
    · cases h2
  by_cases hh : getString v "in" = "header"
  · simp only [hh, String.reduceEq, if_false, if_true] at h2
    obtain ⟨ts, hts, h2⟩ := Out.bind_eq_ok.1 h2
    cases h2
    constructor <;> simp only [textAt_eq, hh, if_true, String.reduceEq, if_false, decide_false]
    · exact fun b hb => isRequired_asBool hb
    · exact fun t t' => htype ts t t' hts
    · exact harr ts hts
  simp only [hq, hp, hh, if_false] at h2
  split at h2
  · cases h2
  · obtain ⟨ts, hts, h2⟩ := Out.bind_eq_ok.1 h2
    cases h2
    constructor <;> simp only [textAt_eq, hq, hp, hh, if_false, decide_false]
    · exact fun b hb => isRequired_asBool hb
    · exact fun t t' => htype ts t t' hts
    · exact harr ts hts

theorem inputs_for {wild : Int} {path : String} {l : List Value} {ps : List OParam} {is : List HttpParamSpec}
    (h1 : List.Forall₂ (fun v p => toV3Param wild v = .ok p) l ps) (h2 : List.Forall₂ (fun p i => importParam path p = .ok i) ps is) :
    List.Forall₂ InputFor l is := by
  induction h1 generalizing is with
  | nil => cases h2; exact .nil
  | cons a _ ih =>
    cases h2 with
    | cons b r => exact .cons (input_for a b) (ih r)

theorem queryFor_join (ns : List String) :
    QueryFor ns = let qs := ns.map fun n => (n ++ "={" ++ Letters n ++ "}").toList
      if qs = [] then "" else "?" ++ String.ofList (joinWith '&' qs) := by
  cases ns with
  | nil => rfl
  | cons n r =>
    simp only [QueryFor, List.map_cons, reduceCtorEq, if_false]
    have key : ∀ (r : List String) (w : String), w ++ String.join (r.map fun n => "&" ++ n ++ "={" ++ Letters n ++ "}") =
        String.ofList (joinWith '&' (w.toList :: r.map fun n => (n ++ "={" ++ Letters n ++ "}").toList)) := by
      intro r
      induction r with
      | nil => intro w; simp [joinWith, String.join]
      | cons x r ih =>
        intro w
        apply String.toList_injective
        have := congrArg String.toList (ih (x ++ "={" ++ Letters x ++ "}"))
        simp only [String.toList_append, String.toList_ofList] at this
        simp only [List.map_cons, String.join_cons, String.toList_append, String.toList_ofList, joinWith]
        rw [← String.toList_append, ← String.toList_append, ← String.toList_append] at *
        simp at this ⊢
        exact this
    have := key r (n ++ "={" ++ Letters n ++ "}")
    rw [← this]
    apply String.toList_injective
    simp

theorem queries_read {wild : Int} {l : List Value} {ps : List OParam}
    (h : List.Forall₂ (fun v p => toV3Param wild v = .ok p) (l.filter fun v => getString v "in" ≠ "body") ps) :
    importQueries ps = ((l.filter fun p => textAt p "in" = "query").map fun p => textAt p "name").map
      fun n => (n ++ "={" ++ Letters n ++ "}").toList := by
  have hf : (l.filter fun p => textAt p "in" = "query") =
      (l.filter fun v => getString v "in" ≠ "body").filter fun p => textAt p "in" = "query" := by
    rw [List.filter_filter]
    refine List.filter_congr fun p _ => ?_
    by_cases hq : getString p "in" = "query" <;> simp [textAt_eq, hq]
  rw [hf]
  generalize (l.filter fun v => getString v "in" ≠ "body") = l' at h
  unfold importQueries
  induction h with
  | nil => rfl
  | @cons v p l' ps h1 _ ih =>
    unfold toV3Param at h1
    obtain ⟨s, -, h1⟩ := Out.bind_eq_ok.1 h1
    cases h1
    by_cases hq : getString v "in" = "query"
    · rw [List.filter_cons_of_pos (by simpa using hq), List.filter_cons_of_pos (by simpa [textAt_eq] using hq)]
      simp only [List.map_cons]
      rw [ih, textAt_eq, makeIdentifier_eq]
    · rw [List.filter_cons_of_neg (by simpa using hq), List.filter_cons_of_neg (by simpa [textAt_eq] using hq), ih]

/-! ### Contents -/

theorem arrayAt_getArray {v : Value} {k : String} {ws : List Value} (h : ArrayAt v k ws) : getArray v k = ws := by
  rcases h with h | ⟨rfl, h⟩
  · simp [getArray, ((member_iff _ _ _).mp h).1, asArray]
  · unfold getArray
    cases hd : dataGet v [k] <;> simp only [asArray, Option.getD_none, Option.getD_some]
    rename_i ws
    exact absurd ((member_iff _ _ _).mpr ⟨hd, by simp⟩) (h ws)

theorem listed_getMap {v : Value} {k : String} {ws : List (String × Value)} (h : Listed v k ws) : getMap v k = ws := by
  rcases h with h | ⟨rfl, h⟩
  · simp [getMap, ((member_iff _ _ _).mp h).1, asMap]
  · unfold getMap
    cases hd : dataGet v [k] <;> simp only [asMap, Option.getD_none, Option.getD_some]
    rename_i ws
    exact absurd ((member_iff _ _ _).mpr ⟨hd, by simp⟩) (h ws)

theorem speaks_mem {doc op : Value} {k : String} (h : Speaks doc op k) :
    "application/json" ∈ orDefault (dataGetStringArray op [k]) (dataGetStringArray doc [k]) := by
  have e : ∀ v : Value, dataGetStringArray v [k] = (getArray v k).map asString := fun _ => rfl
  have hmem : ∀ v : Value, Element v k (.str "application/json") → "application/json" ∈ dataGetStringArray v [k] := by
    intro v hv
    rw [e, List.mem_map]
    exact ⟨_, (getArray_element _ _ _).mpr hv, rfl⟩
  unfold orDefault
  rcases h with h | ⟨h1, h2⟩
  · have := hmem op h
    rw [if_neg (by rintro he; rw [he] at this; cases this)]
    exact this
  · have : dataGetStringArray op [k] = [] := by
      rw [e, List.map_eq_nil_iff]
      cases hg : getArray op k with
      | nil => rfl
      | cons w r => exact absurd ((getArray_element op k w).mp (by rw [hg]; exact List.mem_cons_self ..)) (h1 w)
    rw [if_pos this]
    exact hmem doc h2

theorem content_json {wild : Int} {mts : List String} {v w : Value} {s : OSchema} {c : GoMap OMedia}
    (h : toV3Content wild mts (dataGet v ["schema"]) = .ok c) (hm : Member v "schema" w) (hj : "application/json" ∈ mts)
    (hs : toV3Schema wild w = .ok s) : (mget c "application/json").bind (·.schema) = some s := by
  obtain ⟨hd, hn⟩ := (member_iff _ _ _).mp hm
  rw [hd] at h
  have h : (toV3Schema wild w).bind (fun s =>
      Out.ok (mts.foldl (fun c mt => mset c mt ({ schema := some s } : OMedia)) [])) = .ok c := by
    rw [← h]; unfold toV3Content; revert hn; cases w <;> simp
  rw [hs] at h
  simp only [Out.bind, Out.ok.injEq] at h
  subst h
  have key : ∀ (mts : List String) (c : GoMap OMedia), ("application/json" ∈ mts ∨ mget c "application/json" = some { schema := some s }) →
      mget (mts.foldl (fun c mt => mset c mt ({ schema := some s } : OMedia)) c) "application/json" = some { schema := some s } := by
    intro mts
    induction mts with
    | nil => intro c h; simpa using h
    | cons a r ih =>
      intro c h
      rw [List.foldl_cons]
      refine ih _ ?_
      by_cases ha : a = "application/json"
      · subst ha; exact .inr (mget_mset_same ..)
      · rcases h with h | h
        · exact .inl ((List.mem_cons.1 h).resolve_left (Ne.symm ha))
        · exact .inr (by rw [mget_mset_other _ _ _ _ (Ne.symm ha)]; exact h)
  rw [key mts [] (.inl hj)]
  rfl

/-! ### Responses -/

theorem status_read {st : String} {k : Nat} (hk : k < 1000) (h : st = String.ofList (Nat.toDigits 10 k)) :
    parseInt 64 st = some (k : Int) ∧ containsSub ['X'] st.toList = false ∧ st ≠ "default" ∧ toInt32 k = k := by
  have key : ∀ k : Fin 1000, (parseInt 64 (String.ofList (Nat.toDigits 10 k.val)) = some (k.val : Int) ∧
      containsSub ['X'] (String.ofList (Nat.toDigits 10 k.val)).toList = false ∧ String.ofList (Nat.toDigits 10 k.val) ≠ "default" ∧
      toInt32 (k.val : Int) = k.val) := by
    decide +kernel
  rw [h]
  exact key ⟨k, hk⟩

theorem expectedStatus_read : ∀ l : GoMap OResponse,
    (Success (expectedStatus l) ∧ expectedStatus l ∈ l.map Prod.fst) ∨ (expectedStatus l = "default" ∧ ∀ x ∈ l, ¬ Success x.1)
  | [] => .inr ⟨rfl, by simp⟩
  | (st, r) :: rest => by
    have hs : Success st ↔ (hasPrefix st "2" = true ∨ hasPrefix st "3" = true) := by
      unfold Success hasPrefix
      simp only [List.isPrefixOf_iff_prefix]
      constructor
      · rintro ⟨x, h | h⟩
        · exact .inl ⟨x, by rw [h]; rfl⟩
        · exact .inr ⟨x, by rw [h]; rfl⟩
      · rintro (⟨x, h⟩ | ⟨x, h⟩)
        · exact ⟨x, .inl (by rw [← h]; rfl)⟩
        · exact ⟨x, .inr (by rw [← h]; rfl)⟩
    rw [expectedStatus]
    by_cases h : hasPrefix st "2" = true ∨ hasPrefix st "3" = true
    · rw [if_pos h]
      exact .inl ⟨hs.mpr h, by simp⟩
    · rw [if_neg h]
      rcases expectedStatus_read rest with ⟨h1, h2⟩ | ⟨h1, h2⟩
      · exact .inl ⟨h1, List.mem_cons_of_mem _ h2⟩
      · refine .inr ⟨h1, fun x hx => ?_⟩
        rcases List.mem_cons.1 hx with rfl | hx
        · exact fun hh => h (hs.mp hh)
        · exact h2 x hx

theorem importHeaders_read {action : String} : ∀ {l : GoMap OHeader} {os : List HttpParamSpec} {exs : List ExampleDef},
    (∀ x ∈ l, x.2.schema ≠ none) → importHeaders action l = .ok (os, exs) → os.map (·.header) = l.map Prod.fst
  | [], os, exs, _, h => by simp [importHeaders] at h; rw [h.1]; rfl
  | (n, d) :: rest, os, exs, hall, h => by
    rw [importHeaders] at h
    cases hd : d.schema with
    | none => exact absurd hd (hall _ (List.mem_cons_self ..))
    | some s =>
      rw [hd] at h
      obtain ⟨⟨ts, e1⟩, h1, h2⟩ := Out.bind_eq_ok.1 h
      obtain ⟨⟨ps, e2⟩, h3, h4⟩ := Out.bind_eq_ok.1 h2
      simp only [Out.ok.injEq, Prod.mk.injEq] at h4
      obtain ⟨rfl, rfl⟩ := h4
      simp [importHeaders_read (fun x hx => hall x (List.mem_cons_of_mem _ hx)) h3]

theorem importExceptions_read {doc op : Value} {wild : Int} {mts : List String} {st : String}
    (hj : Speaks doc op "produces" → "application/json" ∈ mts) :
    ∀ {l : List (String × Value)} {rs : GoMap OResponse} {xs : List HttpExceptionSpec},
    List.Forall₂ (fun kv kr => kr.1 = kv.1 ∧ toV3Response wild mts kv.2 = .ok kr.2) l rs → importExceptions st rs = .ok xs →
    List.Forall₂ (fun kr x => ExceptionFor doc op kr.1 kr.2 x) (l.filter fun kr => kr.1 ≠ st) xs := by
  intro l rs xs hf
  induction hf generalizing xs with
  | nil => intro h; simp [importExceptions] at h; subst h; exact .nil
  | @cons kv kr l rs h1 _ ih =>
    obtain ⟨k, v⟩ := kv
    obtain ⟨k', r⟩ := kr
    obtain ⟨rfl, h1⟩ := h1
    intro h
    rw [importExceptions] at h
    by_cases hk : k' = st
    · rw [if_pos hk] at h
      rw [List.filter_cons_of_neg (by simpa using hk)]
      exact ih h
    · rw [if_neg hk] at h
      rw [List.filter_cons_of_pos (by simpa using hk)]
      dsimp only at h
      generalize hkd : (if k' = "default" then "0" else k') = key at h
      split at h
      · cases h
      · next hx =>
        cases hp : parseInt 64 key with
        | none => rw [hp] at h; cases h
        | some code =>
          rw [hp] at h
          dsimp only at h
          obtain ⟨t, ht, h⟩ := Out.bind_eq_ok.1 h
          obtain ⟨xs', h3, h4⟩ := Out.bind_eq_ok.1 h
          cases h4
          unfold toV3Response at h1
          obtain ⟨c, hc, h1⟩ := Out.bind_eq_ok.1 h1
          simp only [Out.ok.injEq] at h1
          subst h1
          refine .cons ⟨?_, ?_, ?_, ?_⟩ (ih h3)
          · intro n hn he
            obtain ⟨a1, a2, a3, a4⟩ := status_read hn he
            rw [if_neg a3] at hkd
            subst hkd
            have := Option.some.inj (a1.symm.trans hp)
            change toInt32 code = _
            rw [← this, a4]
          · rintro hd
            rw [if_pos hd] at hkd
            subst hkd
            have hz : parseInt 64 "0" = some 0 := by decide +kernel
            have := Option.some.inj (hz.symm.trans hp)
            rw [← this]
            rfl
          · rw [textAt_eq]
          · intro w t' hsp hm hr
            obtain ⟨s, hs, href, -, -⟩ := refersTo_v3 wild hr
            have hcj := content_json hc hm (hj hsp) hs
            rw [hcj] at ht
            have hne : s.ref ≠ "" := by
              rw [href]; intro he
              have := congrArg String.toList he
              simp at this
            simp only [hne, ne_eq, not_false_eq_true, if_true, Out.ok.injEq] at ht
            rw [← ht]; exact oasTypeRef_definition s t' href

theorem expected_read {doc op : Value} {wild : Int} {mts : List String} {st action : String} {v : Value} {er : OResponse}
    {code : Int} {hs rs : List HttpParamSpec} {e1 e2 : List ExampleDef}
    (hj : Speaks doc op "produces" → "application/json" ∈ mts) (h1 : toV3Response wild mts v = .ok er)
    (h2 : expectedCode st = .ok code) (h3 : importHeaders action er.headers = .ok (hs, e1))
    (h4 : importResult action er.content = .ok (rs, e2)) :
    ExpectedFor doc op st v { status := toInt32 code, comment := er.description, outputs := hs ++ rs } := by
  unfold toV3Response at h1
  obtain ⟨c, hc, h1⟩ := Out.bind_eq_ok.1 h1
  cases h1
  have hbody : ∀ w s, Speaks doc op "produces" → Member v "schema" w → toV3Schema wild w = .ok s →
      ∃ ts e, importOutputType (action ++ ".Expected.payload") s = .ok (ts, e) ∧ rs = [{ field := { name := "body", ts := ts } }] := by
    intro w s hsp hm hs
    have hcj := content_json hc hm (hj hsp) hs
    unfold importResult at h4
    rw [hcj] at h4
    dsimp only at h4
    obtain ⟨⟨ts, e⟩, h5, h6⟩ := Out.bind_eq_ok.1 h4
    simp only [Out.ok.injEq, Prod.mk.injEq] at h6
    exact ⟨ts, e, h5, h6.1.symm⟩
  refine ⟨?_, ?_, ?_, ?_, ?_⟩
  · intro n hn he
    obtain ⟨a1, a2, a3, a4⟩ := status_read hn he
    unfold expectedCode at h2
    rw [if_pos ⟨a3, a2⟩, a1] at h2
    simp only [Out.ok.injEq] at h2
    change toInt32 code = _
    rw [← h2, a4]
  · rw [textAt_eq]
  · intro hds hl
    have := listed_getMap hl
    have hh := importHeaders_read (l := toV3Headers (getMap v "headers")) (by
      intro x hx
      simp only [toV3Headers, List.mem_map] at hx
      obtain ⟨y, -, rfl⟩ := hx
      simp) h3
    refine ⟨rs.map (·.header), ?_, ?_, ?_⟩
    · rw [List.map_append, hh, this]
      congr 1
      simp [toV3Headers, Function.comp_def]
    all_goals
      unfold importResult at h4
      split at h4
      · cases h4; simp
      · obtain ⟨⟨ts, e⟩, h5, h6⟩ := Out.bind_eq_ok.1 h4
        simp only [Out.ok.injEq, Prod.mk.injEq] at h6
        rw [← h6.1]; simp
  · intro w t hsp hm hr
    obtain ⟨s, hs, href, -, -⟩ := refersTo_v3 wild hr
    obtain ⟨ts, e, h5, rfl⟩ := hbody w s hsp hm hs
    have hne : s.ref ≠ "" := by
      rw [href]; intro he
      have := congrArg String.toList he
      simp at this
    unfold importOutputType at h5
    rw [if_pos hne] at h5
    cases h5
    exact ⟨_, List.mem_append_right _ (List.mem_singleton.2 rfl), rfl, rfl, by rw [oasTypeRef_definition s t href]⟩
  · intro w ts hsp hm hw
    obtain ⟨s, hs, href, -, hconv⟩ := means_gives wild hw
    obtain ⟨ts', e, h5, rfl⟩ := hbody w s hsp hm hs
    unfold importOutputType at h5
    rw [if_neg (by simp [href]), hconv] at h5
    cases h5
    exact ⟨_, List.mem_append_right _ (List.mem_singleton.2 rfl), rfl, rfl, rfl⟩

/-! ### Actions -/

theorem action_read {wild : Int} {doc v : Value} {op : OOperation} {uri verb : String} {h : HttpDef} {exs : List ExampleDef}
    (h1 : toV3Operation wild (dataGetStringArray doc ["consumes"]) (dataGetStringArray doc ["produces"]) v = .ok (some op))
    (h2 : convertOasPath uri op verb = .ok (h, exs)) : ActionFor doc uri verb v h := by
  rcases toV3Operation_read h1 with ⟨_, h⟩ | ⟨hv, ps, b, rs, hps, hrs, ho⟩
  · cases h
  cases ho
  obtain ⟨hp1, hp2, hp3⟩ := toV3Params_read hps
  have hr1 := toV3Responses_read hrs
  unfold convertOasPath at h2
  obtain ⟨ins, hi, h2⟩ := Out.bind_eq_ok.1 h2
  dsimp only at h2
  cases hg : mget rs (expectedStatus rs) with
  | none => rw [hg] at h2; cases h2
  | some er =>
    rw [hg] at h2
    dsimp only at h2
    obtain ⟨code, hcode, h2⟩ := Out.bind_eq_ok.1 h2
    obtain ⟨⟨hs, e1⟩, hhs, h2⟩ := Out.bind_eq_ok.1 h2
    obtain ⟨⟨os, e2⟩, hos, h2⟩ := Out.bind_eq_ok.1 h2
    obtain ⟨xs, hxs, h2⟩ := Out.bind_eq_ok.1 h2
    simp only [Out.ok.injEq, Prod.mk.injEq] at h2
    obtain ⟨rfl, -⟩ := h2
    refine ⟨?_, rfl, ?_, ?_, ?_, ?_⟩
    · rw [textAt_eq]
    · rw [textAt_eq]
    · intro l hl
      rw [arrayAt_getArray hl] at hp1
      have hq := queries_read hp1
      rw [queryFor_join]
      dsimp only
      rw [← hq]
      split <;> simp [String.append_assoc]
    · intro l hl
      rw [arrayAt_getArray hl] at hp1 hp2
      refine ⟨ins, importBody verb b, rfl, ?_, ?_⟩
      · have hpi := importParams_read hi
        have hfe : (l.filter fun p => textAt p "in" ≠ "body") = (l.filter fun v => getString v "in" ≠ "body") := by
          refine List.filter_congr fun p _ => ?_; rw [textAt_eq]
        rw [hfe]
        exact inputs_for hp1 hpi
      · intro p w t hlast hverb hsp hm hr
        have hfe : (l.filter fun p => textAt p "in" = "body") = (l.filter fun v => getString v "in" = "body") := by
          refine List.filter_congr fun p _ => ?_; rw [textAt_eq]
        rw [hfe] at hlast
        obtain ⟨c, hc, rfl⟩ := hp2 p hlast
        obtain ⟨s, hs, href, -, -⟩ := refersTo_v3 wild hr
        have hcj := content_json hc hm (speaks_mem hsp) hs
        have ht := oasTypeRef_definition s t href
        have hne : t ≠ "" := hr.2.2.1
        have hv' : verb = "POST" ∨ verb = "PUT" ∨ verb = "PATCH" := by
          simp at hverb; tauto
        refine ⟨{ field := { name := "body", comment := getString p "description", required := asBool (dataGet p ["required"])
                             ts := { type := t } } }, ?_, ?_⟩
        · unfold importBody
          simp only [hv', if_true, hcj, ht, ne_eq, hne, not_false_eq_true]
        · exact ⟨⟨rfl, rfl, rfl⟩, rfl, by rw [textAt_eq], fun b hb => isRequired_asBool hb, rfl⟩
    · intro l hl
      rw [listed_getMap hl] at hr1
      have hmem := mget_mem hg
      obtain ⟨i, hi'⟩ := List.mem_iff_get.1 hmem
      have hget := (List.forall₂_iff_get.1 hr1).2 i.val (by rw [hr1.length_eq]; exact i.isLt) i.isLt
      have hi'' : rs.get ⟨i.val, i.isLt⟩ = (expectedStatus rs, er) := hi'
      rw [hi''] at hget
      obtain ⟨hk, hresp⟩ := hget
      have hjs : Speaks doc v "produces" → "application/json" ∈
          orDefault (dataGetStringArray v ["produces"]) (dataGetStringArray doc ["produces"]) := speaks_mem
      refine ⟨expectedStatus rs, (l.get ⟨i.val, by rw [hr1.length_eq]; exact i.isLt⟩).2, _, ?_, rfl,
        expected_read hjs hresp hcode hhs hos, ?_, importExceptions_read hjs hr1 hxs⟩
      · have : (expectedStatus rs, (l.get ⟨i.val, by rw [hr1.length_eq]; exact i.isLt⟩).2) = l.get ⟨i.val, by rw [hr1.length_eq]; exact i.isLt⟩ := Prod.ext hk rfl
        rw [this]; exact List.get_mem _ _
      · rcases expectedStatus_read rs with ⟨a, _⟩ | ⟨a, b'⟩
        · exact .inl a
        · refine .inr ⟨a, fun x hx => ?_⟩
          obtain ⟨j, hj⟩ := List.mem_iff_get.1 hx
          have hget := (List.forall₂_iff_get.1 hr1).2 j.val j.isLt (by rw [← hr1.length_eq]; exact j.isLt)
          have hj' : l.get ⟨j.val, j.isLt⟩ = x := hj
          rw [hj'] at hget
          rw [← hget.1]
          exact b' _ (List.get_mem _ _)

/-! ### The document -/

theorem toV3_read {wild : Int} {v : Value} {d : ODoc} (h : toV3 wild v = .ok d) :
    toV3Definitions wild (getMap v "definitions") = .ok d.schemas ∧
    toV3Paths wild (dataGetStringArray v ["consumes"]) (dataGetStringArray v ["produces"]) (getMap v "paths") = .ok d.paths ∧
    d.version = getString (dataGet v ["info"]) "version" ∧ d.title = getString (dataGet v ["info"]) "title" ∧
    d.description = getString (dataGet v ["info"]) "description" ∧ d.openapi = "3.0.0" ∧ d.servers = toV3Servers v ∧
    d.license = some (getString (dataGet (dataGet v ["info"]) ["license"]) "name", getString (dataGet (dataGet v ["info"]) ["license"]) "url") := by
  unfold toV3 at h
  split at h
  · obtain ⟨ss, h1, h⟩ := Out.bind_eq_ok.1 h
    obtain ⟨ps, h2, h⟩ := Out.bind_eq_ok.1 h
    cases h
    exact ⟨h1, h2, rfl, rfl, rfl, rfl, rfl, rfl⟩
  · cases h

theorem toSadl_read {d : ODoc} {name : String} {m : Model} (h : toSadl d name = .ok m) :
    (∃ exs, importTypes d.schemas d.schemas = .ok (m.schema.types, exs)) ∧ (∃ exs, importPaths d.paths = .ok (m.schema.http, exs)) ∧
    m.schema.name = (importTitle d.title d.description name).1 ∧ m.schema.comment = (importTitle d.title d.description name).2 ∧
    m.schema.version = d.version ∧ m.schema.annotations = importAnnotations d := by
  unfold toSadl at h
  dsimp only at h
  obtain ⟨⟨tds, e1⟩, h1, h⟩ := Out.bind_eq_ok.1 h
  obtain ⟨⟨hs, e2⟩, h2, h⟩ := Out.bind_eq_ok.1 h
  obtain ⟨-, -, -, rfl⟩ := (newModel_ok_iff _ _).1 h
  exact ⟨⟨_, h1⟩, ⟨_, h2⟩, rfl, rfl, rfl, rfl⟩

theorem toV3Schema_type {wild : Int} {v : Value} {s : OSchema} (h : toV3Schema wild v = .ok s) : s.type = schemaType v := by
  by_cases hs : ∃ t, v = .str t
  · obtain ⟨t, rfl⟩ := hs
    rw [toV3Schema] at h; cases h; rfl
  · have hn : ∀ t, v ≠ .str t := fun t ht => hs ⟨t, ht⟩
    have hst : schemaType v = getString v "type" := by
      rw [← textAt_eq]
      cases v <;> first | rfl | exact absurd rfl (hn _)
    rw [hst]
    rw [toV3Schema_eq wild v hn] at h
    split at h
    · obtain ⟨ps, _, h⟩ := Out.bind_eq_ok.1 h; cases h; rfl
    · split at h
      · obtain ⟨ps, _, h⟩ := Out.bind_eq_ok.1 h; cases h; rfl
      · unfold v3Simple at h
        dsimp only at h
        split at h
        · cases h; rfl
        · split at h
          · cases h; rfl
          · split at h
            · cases h; rfl
            · split at h
              · cases h; rfl
              · cases h

theorem kept_iff {wild : Int} {kv : String × Value} {s : OSchema} (h : toV3Schema wild kv.2 = .ok s) :
    validSadlName kv.1 s ≠ "" ↔ KeptDefinition kv := by
  unfold validSadlName KeptDefinition
  rw [toV3Schema_type h]
  split
  · rename_i h1
    split <;> simp_all
  · split <;> simp_all

theorem filter_kept {wild : Int} {ds : List (String × Value)} {ss : GoMap OSchema}
    (h : List.Forall₂ (fun kv ks => ks.1 = kv.1 ∧ toV3Schema wild kv.2 = .ok ks.2) ds ss) :
    List.Forall₂ (fun kv ks => ks.1 = kv.1 ∧ toV3Schema wild kv.2 = .ok ks.2) (ds.filter fun kv => KeptDefinition kv)
      (ss.filter fun ks => validSadlName ks.1 ks.2 ≠ "") := by
  induction h with
  | nil => exact .nil
  | @cons kv ks ds ss a _ ih =>
    have := kept_iff a.2
    rw [← a.1] at this
    by_cases hk : KeptDefinition kv
    · rw [List.filter_cons_of_pos (by simpa using hk), List.filter_cons_of_pos (by simpa using this.2 hk)]
      exact .cons a ih
    · rw [List.filter_cons_of_neg (by simpa using hk), List.filter_cons_of_neg (by simpa using fun h => hk (this.1 h))]
      exact ih

theorem definitions_get {wild : Int} {ds : List (String × Value)} {ss : GoMap OSchema}
    (h : List.Forall₂ (fun kv ks => ks.1 = kv.1 ∧ toV3Schema wild kv.2 = .ok ks.2) ds ss) {t : String} {w : Value}
    (hw : mget ds t = some w) : ∃ s, mget ss t = some s ∧ toV3Schema wild w = .ok s := by
  induction h with
  | nil => cases hw
  | @cons kv ks ds ss a _ ih =>
    obtain ⟨k, x⟩ := kv
    obtain ⟨k', s⟩ := ks
    obtain ⟨rfl, hs⟩ := a
    dsimp only at hs
    rw [mget] at hw ⊢
    split at hw
    · rename_i he
      cases hw
      exact ⟨s, if_pos he, hs⟩
    · rename_i he
      simp only [he, if_false]
      exact ih hw

theorem type_for {wild : Int} {ds : List (String × Value)} {ss : GoMap OSchema}
    (h : List.Forall₂ (fun kv ks => ks.1 = kv.1 ∧ toV3Schema wild kv.2 = .ok ks.2) ds ss) {kv : String × Value} {ks : String × OSchema}
    (hk : ks.1 = kv.1 ∧ toV3Schema wild kv.2 = .ok ks.2) {td : TypeDef} (ht : ImportsType ss ks.1 ks.2 td) : TypeFor ds kv td := by
  obtain ⟨hn, ha, c, hc, -, hts⟩ := ht
  refine ⟨hn.trans hk.1, ha, ?_, ?_⟩
  · intro ts hm
    obtain ⟨s, hs, href, hd, hco⟩ := means_gives wild hm
    rw [hk.2] at hs; cases hs
    have hr : oasTypeRef ks.2 = "" := by simp [oasTypeRef, href]
    rcases hc with ⟨h1, -⟩ | ⟨-, h1, h2⟩
    · exact absurd hr h1
    · rw [hco] at h1; cases h1
      exact ⟨hts, by rw [h2, hd, textAt_eq]⟩
  · intro t w ts hr hw hm
    obtain ⟨s, hs, href, -, -⟩ := refersTo_v3 wild hr
    rw [hk.2] at hs; cases hs
    have ht := oasTypeRef_definition _ _ href
    obtain ⟨s', hs', hv⟩ := definitions_get h hw
    obtain ⟨s'', hs'', -, -, hco⟩ := means_gives wild hm
    rw [hv] at hs''; cases hs''
    rcases hc with ⟨-, d, h1, h2, -⟩ | ⟨h1, -⟩
    · rw [ht, hs'] at h1; cases h1
      rw [hco] at h2; cases h2
      exact hts
    · rw [ht] at h1; exact absurd h1 hr.2.2.1

theorem types_for {wild : Int} {ds : List (String × Value)} {ss : GoMap OSchema}
    (h : List.Forall₂ (fun kv ks => ks.1 = kv.1 ∧ toV3Schema wild kv.2 = .ok ks.2) ds ss) {kvs : List (String × Value)} {kss : GoMap OSchema}
    (hk : List.Forall₂ (fun kv ks => ks.1 = kv.1 ∧ toV3Schema wild kv.2 = .ok ks.2) kvs kss) {tds : List TypeDef}
    (ht : List.Forall₂ (fun ks td => ImportsType ss ks.1 ks.2 td) kss tds) : List.Forall₂ (TypeFor ds) kvs tds := by
  induction hk generalizing tds with
  | nil => cases ht; exact .nil
  | cons a _ ih =>
    cases ht with
    | cons b r => exact .cons (type_for h a b) (ih r)

end Sadl
