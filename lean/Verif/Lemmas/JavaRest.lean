import Verif.Lemmas.JavaBody
import Verif.Spec.JavaRest
/-
The generated Java server and client.
-/
namespace Sadl
open Sadl.Spec

theorem javaCapitalize_ok {n x : String} : javaCapitalize n = .ok x ↔ n ≠ "" ∧ x = capitalize n := by
  unfold javaCapitalize
  by_cases h : n = ""
  · simp [h]
  · simp [h, eq_comm]

theorem firstOf_find {α : Type} {P : α → Prop} [DecidablePred P] {l : List α} {x : α} :
    l.find? (fun y => decide (P y)) = some x ↔ FirstOf P l x := by
  rw [List.find?_eq_some_iff_append]
  constructor
  · rintro ⟨h1, as, bs, h2, h3⟩
    exact ⟨as, bs, h2, of_decide_eq_true h1, fun y hy => by simpa using h3 y hy⟩
  · rintro ⟨as, bs, h2, h1, h3⟩
    exact ⟨decide_eq_true h1, as, bs, h2, fun y hy => by simpa using h3 y hy⟩

theorem find_none {α : Type} {P : α → Prop} [DecidablePred P] {l : List α} :
    l.find? (fun y => decide (P y)) = none ↔ ∀ y ∈ l, ¬ P y := by simp

instance : DecidablePred JavaInBody := fun p => by unfold JavaInBody; infer_instance
instance : DecidablePred JavaOutBody := fun p => by unfold JavaOutBody; infer_instance

theorem javaActionInfo_ok (h : HttpDef) (n t : String) : javaActionInfo h = .ok (n, t) ↔ JavaSubject h n t := by
  have e1 : (h.inputs.find? fun p => p.query = "" ∧ p.header = "" ∧ p.path = false) = h.inputs.find? fun p => decide (JavaInBody p) := rfl
  have e2 : ∀ e : HttpExpectedSpec, (e.outputs.find? fun p => p.header = "") = e.outputs.find? fun p => decide (JavaOutBody p) := fun _ => rfl
  unfold javaActionInfo
  by_cases hm : h.method = "POST" ∨ h.method = "PUT"
  · rw [if_pos hm, e1]
    cases hf : h.inputs.find? fun p => decide (JavaInBody p) with
    | some p =>
      simp only [Out.ok.injEq, Prod.mk.injEq]
      constructor
      · rintro ⟨rfl, rfl⟩; exact .input hm (firstOf_find.1 hf)
      · rintro (⟨_, h1⟩ | ⟨_, h1⟩ | ⟨h1, h2⟩ | ⟨h1, h2⟩)
        · rw [firstOf_find.2 h1] at hf; cases hf; exact ⟨rfl, rfl⟩
        · rw [find_none.2 h1] at hf; cases hf
        · rcases hm with h3 | h3 <;> contradiction
        · rcases hm with h3 | h3 <;> contradiction
    | none =>
      simp only [Out.ok.injEq, Prod.mk.injEq]
      constructor
      · rintro ⟨rfl, rfl⟩; exact .noInput hm (find_none.1 hf)
      · rintro (⟨_, h1⟩ | ⟨_, h1⟩ | ⟨h1, h2⟩ | ⟨h1, h2⟩)
        · rw [firstOf_find.2 h1] at hf; cases hf
        · exact ⟨rfl, rfl⟩
        · rcases hm with h3 | h3 <;> contradiction
        · rcases hm with h3 | h3 <;> contradiction
  · rw [if_neg hm]
    obtain ⟨hm1, hm2⟩ := not_or.1 hm
    cases he : h.expected with
    | none =>
      simp only [reduceCtorEq, false_iff]
      rintro (⟨h1, _⟩ | ⟨h1, _⟩ | ⟨_, _, h1, _⟩ | ⟨_, _, h1, _⟩)
      · exact hm h1
      · exact hm h1
      · rw [he] at h1; cases h1
      · rw [he] at h1; cases h1
    | some e =>
      simp only
      rw [e2]
      cases hf : e.outputs.find? fun p => decide (JavaOutBody p) with
      | some p =>
        simp only [Out.ok.injEq, Prod.mk.injEq]
        constructor
        · rintro ⟨rfl, rfl⟩; exact .output hm1 hm2 he (firstOf_find.1 hf)
        · rintro (⟨h1, _⟩ | ⟨h1, _⟩ | ⟨_, _, h1, h2⟩ | ⟨_, _, h1, h2⟩)
          · exact absurd h1 hm
          · exact absurd h1 hm
          · rw [he] at h1; cases h1; rw [firstOf_find.2 h2] at hf; cases hf; exact ⟨rfl, rfl⟩
          · rw [he] at h1; cases h1; rw [find_none.2 h2] at hf; cases hf
      | none =>
        simp only [Out.ok.injEq, Prod.mk.injEq]
        constructor
        · rintro ⟨rfl, rfl⟩; exact .noOutput hm1 hm2 he (find_none.1 hf)
        · rintro (⟨h1, _⟩ | ⟨h1, _⟩ | ⟨_, _, h1, h2⟩ | ⟨_, _, h1, h2⟩)
          · exact absurd h1 hm
          · exact absurd h1 hm
          · rw [he] at h1; cases h1; rw [firstOf_find.2 h2] at hf; cases hf
          · exact ⟨rfl, rfl⟩

theorem javaActionName_ok (h : HttpDef) (n : String) : javaActionName h = .ok n ↔ JavaMethodName h n := by
  unfold javaActionName
  by_cases hn : h.name = ""
  · rw [if_pos hn]
    rw [gbind_ok]
    constructor
    · rintro ⟨⟨a, t⟩, h1, h2⟩
      cases h2
      exact .unnamed hn ((javaActionInfo_ok h a t).1 h1)
    · rintro (h1 | ⟨_, h1⟩)
      · exact absurd hn h1
      · exact ⟨_, (javaActionInfo_ok h _ _).2 h1, rfl⟩
  · rw [if_neg hn]
    constructor
    · intro h1; cases h1; exact .named hn
    · rintro (h1 | ⟨h1, _⟩)
      · rfl
      · exact absurd h1 hn

theorem javaMethodName_unique {h : HttpDef} {n n' : String} (h1 : JavaMethodName h n) (h2 : JavaMethodName h n') : n = n' := by
  have a := (javaActionName_ok h n).2 h1
  rw [(javaActionName_ok h n').2 h2] at a
  cases a; rfl

theorem javaPath_spec (path : String) : BeforeQuery path (javaPath path) := by
  unfold BeforeQuery javaPath
  rw [String.toList_ofList]
  refine ⟨fun h => ?_, path.toList.dropWhile (· ≠ '?'), (List.takeWhile_append_dropWhile).symm, fun c hc => ?_⟩
  · have := (List.all_eq_true.1 (List.all_takeWhile (l := path.toList) (p := fun c => decide (c ≠ '?')))) _ h
    simp at this
  · have := List.head?_dropWhile_not (fun x : Char => decide (x ≠ '?')) path.toList
    rw [hc] at this
    simpa using this

theorem beforeQuery_unique {path p : String} (h : BeforeQuery path p) : p = javaPath path := by
  obtain ⟨h1, rest, h2, h3⟩ := h
  apply String.toList_injective
  unfold javaPath
  rw [String.toList_ofList, h2]
  rw [List.takeWhile_append_of_pos (fun c hc => by simp; rintro rfl; exact h1 hc)]
  cases rest with
  | nil => simp
  | cons c r =>
    have := h3 c rfl
    subst this
    simp

theorem javaBind_spec (p : HttpParamSpec) : JavaBindFor p (javaBind p) := by
  unfold javaBind
  by_cases h1 : p.query = ""
  · rw [if_neg (by simpa using h1)]
    by_cases h2 : p.header = ""
    · rw [if_neg (by simpa using h2)]
      cases h3 : p.path with
      | true => exact .path h1 h2 h3
      | false => exact .body ⟨h1, h2, h3⟩
    · rw [if_pos h2]; exact .header h1 h2
  · rw [if_pos h1]; exact .query h1

theorem javaDefault_ok (conf : JavaConf) (v : Value) (d : Option String) : javaDefault conf v = .ok d ↔ JavaDefaultFor conf.decText v d := by
  constructor
  · intro h
    unfold javaDefault at h
    split at h <;> cases h
    · exact .none
    · exact .string
    · exact .number
    · exact .bool
  · rintro (h | h) <;> rfl

section
variable {s : Schema} {m : Model} (hw : JavaWf s m) (conf : JavaConf)
include hw

omit hw in
theorem javaBare_cases {inst : Bool} {n : String} {r : Bool} {t : JTy} (h : JavaBare s inst n r t) :
    JavaNamed s inst n r t ∨ (n = "Array" ∧ t = .name "List") ∨ (n = "Map" ∧ t = .name "Map") := by
  cases h with
  | named h => exact .inl h
  | array => exact .inr (.inl ⟨rfl, rfl⟩)
  | map => exact .inr (.inr ⟨rfl, rfl⟩)

theorem javaType_bare (n : String) (r : Bool) (t : JTy) :
    (∃ jt, javaType m conf none n r = .ok jt ∧ jt.type = t) ↔ JavaBare s conf.instants n r t := by
  by_cases ha : n = "Array"
  · subst ha
    have h1 : ∃ jt, javaType m conf none "Array" r = .ok jt ∧ jt.type = .name "List" := by
      unfold javaType
      cases r <;> exact ⟨_, rfl, rfl⟩
    constructor
    · rintro ⟨jt, h2, rfl⟩
      obtain ⟨jt', h3, h4⟩ := h1
      rw [h2] at h3; cases h3
      rw [h4]; exact .array
    · intro h2
      rcases javaBare_cases h2 with h2 | ⟨_, rfl⟩ | ⟨h2, _⟩
      · exact absurd rfl (javaNamed_ne hw h2).1
      · exact h1
      · exact absurd h2 (by decide)
  · by_cases hp : n = "Map"
    · subst hp
      have h1 : ∃ jt, javaType m conf none "Map" r = .ok jt ∧ jt.type = .name "Map" := by
        unfold javaType
        cases r <;> exact ⟨_, rfl, rfl⟩
      constructor
      · rintro ⟨jt, h2, rfl⟩
        obtain ⟨jt', h3, h4⟩ := h1
        rw [h2] at h3; cases h3
        rw [h4]; exact .map
      · intro h2
        rcases javaBare_cases h2 with h2 | ⟨h2, _⟩ | ⟨_, rfl⟩
        · exact absurd rfl (javaNamed_ne hw h2).2
        · exact absurd h2 (by decide)
        · exact h1
    · rw [javaType_named hw conf ha hp]
      constructor
      · exact .named
      · rintro (h2 | _ | _)
        · exact h2
        · exact absurd rfl ha
        · exact absurd rfl hp

theorem javaParam_ok (p : HttpParamSpec) {x : JParam} {ns : List JNote} (h : javaParam m conf p = .ok (x, ns)) : JavaParamFor s conf p x := by
  unfold javaParam at h
  obtain ⟨t, h1, h⟩ := gbind_ok.1 h
  obtain ⟨d, h2, h⟩ := gbind_ok.1 h
  cases h
  exact ⟨rfl, (javaType_bare hw conf _ _ _).1 ⟨t, h1, rfl⟩, javaBind_spec p, (javaDefault_ok conf _ _).1 h2⟩

theorem javaParam_ready (p : HttpParamSpec) : (∃ x, javaParam m conf p = .ok x) ↔
    (∃ t, JavaBare s conf.instants p.field.ts.type false t) ∧ ∃ d, JavaDefaultFor conf.decText p.field.default d := by
  unfold javaParam
  constructor
  · rintro ⟨x, h⟩
    obtain ⟨t, h1, h⟩ := gbind_ok.1 h
    obtain ⟨d, h2, h⟩ := gbind_ok.1 h
    exact ⟨⟨_, (javaType_bare hw conf _ _ _).1 ⟨t, h1, rfl⟩⟩, _, (javaDefault_ok conf _ _).1 h2⟩
  · rintro ⟨⟨t, h1⟩, d, h2⟩
    obtain ⟨jt, h3, _⟩ := (javaType_bare hw conf _ _ _).2 h1
    rw [h3, (javaDefault_ok conf _ _).2 h2]
    exact ⟨_, rfl⟩

theorem javaParams_ok (ps : List HttpParamSpec) {xs : List JParam} {ns : List JNote} (h : javaParams m conf ps = .ok (xs, ns)) :
    List.Forall₂ (JavaParamFor s conf) ps xs := by
  induction ps generalizing xs ns with
  | nil => cases h; exact .nil
  | cons p ps ih =>
    unfold javaParams at h
    obtain ⟨⟨x, nx⟩, h1, h⟩ := gbind_ok.1 h
    obtain ⟨⟨ys, ny⟩, h2, h⟩ := gbind_ok.1 h
    cases h
    exact .cons (javaParam_ok hw conf p h1) (ih h2)

theorem javaParams_ready (ps : List HttpParamSpec) : (∃ x, javaParams m conf ps = .ok x) ↔ ∀ p ∈ ps,
    (∃ t, JavaBare s conf.instants p.field.ts.type false t) ∧ ∃ d, JavaDefaultFor conf.decText p.field.default d := by
  induction ps with
  | nil => simp [javaParams]
  | cons p ps ih =>
    rw [List.forall_mem_cons, ← ih, ← javaParam_ready hw]
    simp only [javaParams, gbind_ok]
    constructor
    · rintro ⟨x, a, h1, b, h2, _⟩; exact ⟨⟨a, h1⟩, b, h2⟩
    · rintro ⟨⟨a, h1⟩, b, h2⟩; exact ⟨_, a, h1, b, h2, rfl⟩

theorem javaThrown_ok (xs : List HttpExceptionSpec) {ys : List (String × Int)} {ns : List JNote} (h : javaThrown m conf xs = .ok (ys, ns)) :
    List.Forall₂ (JavaThrowFor s conf.instants) xs ys := by
  induction xs generalizing ys ns with
  | nil => cases h; exact .nil
  | cons x xs ih =>
    unfold javaThrown at h
    obtain ⟨t, h1, h⟩ := gbind_ok.1 h
    obtain ⟨⟨zs, nz⟩, h2, h⟩ := gbind_ok.1 h
    cases h
    exact .cons ⟨rfl, _, (javaType_bare hw conf _ _ _).1 ⟨t, h1, rfl⟩, rfl⟩ (ih h2)

theorem javaThrown_ready (xs : List HttpExceptionSpec) : (∃ x, javaThrown m conf xs = .ok x) ↔
    ∀ x ∈ xs, ∃ t, JavaBare s conf.instants x.type true t := by
  induction xs with
  | nil => simp [javaThrown]
  | cons p ps ih =>
    rw [List.forall_mem_cons, ← ih]
    simp only [javaThrown, gbind_ok]
    constructor
    · rintro ⟨x, a, h1, b, h2, _⟩; exact ⟨⟨_, (javaType_bare hw conf _ _ _).1 ⟨a, h1, rfl⟩⟩, b, h2⟩
    · rintro ⟨⟨a, h1⟩, b, h2⟩
      obtain ⟨jt, h3, _⟩ := (javaType_bare hw conf _ _ _).2 h1
      exact ⟨_, jt, h3, b, h2, rfl⟩

omit hw in
theorem javaHeaders_ok (e : HttpExpectedSpec) {hs : List (String × String)} (h : javaHeaders e.outputs = .ok hs) : hs = headerOutputs e := by
  unfold headerOutputs
  generalize e.outputs = ps at *
  induction ps generalizing hs with
  | nil => cases h; rfl
  | cons p ps ih =>
    unfold javaHeaders at h
    by_cases hp : p.header = ""
    · rw [if_neg (by simpa using hp)] at h
      rw [ih h, List.filter_cons_of_neg (by simpa using hp)]
    · rw [if_pos hp] at h
      obtain ⟨_, h1, h⟩ := gbind_ok.1 h
      obtain ⟨xs, h2, h⟩ := gbind_ok.1 h
      cases h
      rw [ih h2, List.filter_cons_of_pos (by simpa using hp)]
      rfl

omit hw in
theorem javaHeaders_ready (ps : List HttpParamSpec) : (∃ hs, javaHeaders ps = .ok hs) ↔ ∀ p ∈ ps, p.header ≠ "" → p.field.name ≠ "" := by
  induction ps with
  | nil => simp [javaHeaders]
  | cons p ps ih =>
    rw [List.forall_mem_cons, ← ih]
    by_cases hp : p.header = ""
    · simp [javaHeaders, hp]
    · rw [javaHeaders, if_pos hp]
      simp only [gbind_ok, javaCapitalize_ok]
      constructor
      · rintro ⟨_, _, ⟨h1, _⟩, b, h2, _⟩; exact ⟨fun _ => h1, b, h2⟩
      · rintro ⟨h1, b, h2⟩; exact ⟨_, _, ⟨h1 hp, rfl⟩, b, h2, rfl⟩

/-- The body of a response: its name and type. -/
theorem javaEntity_ok (h : HttpDef) (e : HttpExpectedSpec) (he : h.expected = some e) {n : String} {t : JTy} {ns : List JNote}
    (hj : javaEntity m conf h = .ok (n, t, ns)) :
    (∃ p, FirstOf JavaOutBody e.outputs p ∧ n = p.field.name ∧ JavaBare s conf.instants p.field.ts.type true t) ∨
    ((∀ p ∈ e.outputs, ¬ JavaOutBody p) ∧ n = "" ∧ t = .name "void") := by
  have e2 : (e.outputs.find? fun p => p.header = "") = e.outputs.find? fun p => decide (JavaOutBody p) := rfl
  unfold javaEntity at hj
  rw [he] at hj
  simp only [e2] at hj
  cases hf : e.outputs.find? fun p => decide (JavaOutBody p) with
  | some p =>
    rw [hf] at hj
    simp only at hj
    obtain ⟨jt, h1, h2⟩ := gbind_ok.1 hj
    cases h2
    exact .inl ⟨p, firstOf_find.1 hf, rfl, (javaType_bare hw conf _ _ _).1 ⟨jt, h1, rfl⟩⟩
  | none =>
    rw [hf] at hj
    cases hj
    exact .inr ⟨find_none.1 hf, rfl, rfl⟩

theorem javaEntity_ready (h : HttpDef) : (∃ x, javaEntity m conf h = .ok x) ↔ ∃ e, h.expected = some e ∧ JavaEntityReady s conf.instants e := by
  unfold javaEntity
  cases he : h.expected with
  | none => simp
  | some e =>
    have e2 : (e.outputs.find? fun p => p.header = "") = e.outputs.find? fun p => decide (JavaOutBody p) := rfl
    simp only [e2, Option.some.injEq, exists_eq_left']
    unfold JavaEntityReady
    cases hf : e.outputs.find? fun p => decide (JavaOutBody p) with
    | some p =>
      simp only [gbind_ok]
      constructor
      · rintro ⟨x, jt, h1, _⟩ q hq
        rw [firstOf_find.2 hq] at hf; cases hf
        exact ⟨_, (javaType_bare hw conf _ _ _).1 ⟨jt, h1, rfl⟩⟩
      · intro h1
        obtain ⟨t, h2⟩ := h1 p (firstOf_find.1 hf)
        obtain ⟨jt, h3, _⟩ := (javaType_bare hw conf _ _ _).2 h2
        exact ⟨_, jt, h3, rfl⟩
    | none =>
      simp only [Out.ok.injEq, exists_eq', true_iff]
      intro q hq
      rw [firstOf_find.2 hq] at hf; cases hf

omit hw in
theorem javaRequestType_ok {n x : String} : javaRequestType n = .ok x ↔ n ≠ "" ∧ x = capitalize n ++ "Request" := by
  unfold javaRequestType
  simp only [gbind_ok, javaCapitalize_ok, Out.ok.injEq]
  constructor
  · rintro ⟨_, ⟨h, rfl⟩, rfl⟩; exact ⟨h, rfl⟩
  · rintro ⟨h, rfl⟩; exact ⟨_, ⟨h, rfl⟩, rfl⟩

omit hw in
theorem javaResponseType_ok {n x : String} : javaResponseType n = .ok x ↔ n ≠ "" ∧ x = capitalize n ++ "Response" := by
  unfold javaResponseType
  simp only [gbind_ok, javaCapitalize_ok, Out.ok.injEq]
  constructor
  · rintro ⟨_, ⟨h, rfl⟩, rfl⟩; exact ⟨h, rfl⟩
  · rintro ⟨h, rfl⟩; exact ⟨_, ⟨h, rfl⟩, rfl⟩

omit hw in
theorem javaBodyOf_ok (n : String) (t : JTy) : javaBodyOf conf n t =
    .ok (if n ≠ "void" ∧ n ≠ "" then some (n, decide (t.text = "String")) else none) := by
  unfold javaBodyOf
  by_cases h : n ≠ "void" ∧ n ≠ ""
  · rw [if_pos h, if_pos h]
    unfold javaCapitalize
    rw [if_neg h.2]
    cases conf.immutable <;> rfl
  · rw [if_neg h, if_neg h]

theorem javaEntity_for (e : HttpExpectedSpec) {n : String} {t : JTy}
    (h : (∃ p, FirstOf JavaOutBody e.outputs p ∧ n = p.field.name ∧ JavaBare s conf.instants p.field.ts.type true t) ∨
      ((∀ p ∈ e.outputs, ¬ JavaOutBody p) ∧ n = "" ∧ t = .name "void")) :
    JavaEntityFor s conf.instants e (if n ≠ "void" ∧ n ≠ "" then some (n, decide (t.text = "String")) else none) := by
  rcases h with ⟨p, h1, rfl, h2⟩ | ⟨h1, rfl, rfl⟩
  · by_cases hn : p.field.name ≠ "void" ∧ p.field.name ≠ ""
    · rw [if_pos hn]; exact .some h1 hn.1 hn.2 h2
    · rw [if_neg hn]
      refine .void h1 ?_ h2
      by_contra hc
      rw [not_or] at hc
      exact hn hc
  · simp only [ne_eq, not_true_eq_false, and_false, if_false]
    exact .none h1

theorem javaResource_ok (h : HttpDef) {r : JResource} {ns : List JNote} (hj : javaResource m conf h = .ok (r, ns)) :
    JavaResourceFor s conf h r ∧ JavaResourceReady s conf h := by
  unfold javaResource at hj
  obtain ⟨name, h1, hj⟩ := gbind_ok.1 hj
  obtain ⟨⟨ps, np⟩, h2, hj⟩ := gbind_ok.1 hj
  obtain ⟨req, h3, hj⟩ := gbind_ok.1 hj
  obtain ⟨res, h4, hj⟩ := gbind_ok.1 hj
  obtain ⟨⟨en, et, nt⟩, h5, hj⟩ := gbind_ok.1 hj
  rw [javaRequestType_ok] at h3
  rw [javaResponseType_ok] at h4
  cases he : h.expected with
  | none => rw [he] at hj; cases hj
  | some e =>
    rw [he] at hj
    simp only at hj
    obtain ⟨⟨o1, o2, o3⟩, h6, hj⟩ := gbind_ok.1 hj
    obtain ⟨⟨xs, nx⟩, h7, hj⟩ := gbind_ok.1 hj
    cases hj
    have hent := javaEntity_ok hw conf h e he h5
    have hn := (javaActionName_ok h name).1 h1
    have hout : (o1 = true ↔ e.outputs ≠ []) ∧ o2 = headerOutputs e ∧ JavaEntityFor s conf.instants e o3 ∧
        ∀ p ∈ e.outputs, p.header ≠ "" → p.field.name ≠ "" := by
      by_cases ho : e.outputs = []
      · rw [if_neg (by simpa using ho)] at h6
        cases h6
        refine ⟨by simp [ho], by simp [headerOutputs, ho], .none (by simp [ho]), by simp [ho]⟩
      · rw [if_pos ho, javaBodyOf_ok] at h6
        obtain ⟨b, h8, h6⟩ := gbind_ok.1 h6
        obtain ⟨hs, h9, h6⟩ := gbind_ok.1 h6
        cases h6
        cases h8
        exact ⟨by simp [ho], javaHeaders_ok e h9, javaEntity_for hw conf e hent, (javaHeaders_ready _).1 ⟨_, h9⟩⟩
    refine ⟨⟨rfl, javaPath_spec _, hn, h3.2, h4.2, javaParams_ok hw conf _ h2, ⟨e, he, rfl, hout.1, hout.2.1, hout.2.2.1⟩,
      javaThrown_ok hw conf _ h7⟩, ⟨⟨_, hn, h3.1⟩, (javaParams_ready hw conf _).1 ⟨_, h2⟩, ⟨e, he, ?_, hout.2.2.2⟩,
      (javaThrown_ready hw conf _).1 ⟨_, h7⟩⟩⟩
    obtain ⟨e', he', h10⟩ := (javaEntity_ready hw conf h).1 ⟨_, h5⟩
    rw [he] at he'; cases he'
    exact h10

theorem javaResource_ready (h : HttpDef) (hr : JavaResourceReady s conf h) : ∃ x, javaResource m conf h = .ok x := by
  obtain ⟨⟨n, h1, h2⟩, h3, ⟨e, he, h4, h5⟩, h6⟩ := hr
  obtain ⟨ps, hp⟩ := (javaParams_ready hw conf _).2 h3
  obtain ⟨ent, hent⟩ := (javaEntity_ready hw conf h).2 ⟨e, he, h4⟩
  obtain ⟨hs, hh⟩ := (javaHeaders_ready e.outputs).2 h5
  obtain ⟨xs, hx⟩ := (javaThrown_ready hw conf _).2 h6
  unfold javaResource
  rw [(javaActionName_ok h n).2 h1]
  simp only [Out.bind, hp, javaRequestType_ok.2 ⟨h2, rfl⟩, javaResponseType_ok.2 ⟨h2, rfl⟩, hent, he, hx, javaBodyOf_ok, hh]
  by_cases ho : e.outputs = []
  · simp [ho]
  · simp [ho]

theorem javaResources_ok (hs : List HttpDef) {rs : List JResource} {ns : List JNote} (h : javaResources m conf hs = .ok (rs, ns)) :
    List.Forall₂ (JavaResourceFor s conf) hs rs := by
  induction hs generalizing rs ns with
  | nil => cases h; exact .nil
  | cons x xs ih =>
    unfold javaResources at h
    obtain ⟨⟨r, n1⟩, h1, h⟩ := gbind_ok.1 h
    obtain ⟨⟨zs, nz⟩, h2, h⟩ := gbind_ok.1 h
    cases h
    exact .cons (javaResource_ok hw conf x h1).1 (ih h2)

theorem javaResources_ready (hs : List HttpDef) : (∃ x, javaResources m conf hs = .ok x) ↔ ∀ h ∈ hs, JavaResourceReady s conf h := by
  induction hs with
  | nil => simp [javaResources]
  | cons p ps ih =>
    rw [List.forall_mem_cons, ← ih]
    simp only [javaResources, gbind_ok]
    constructor
    · rintro ⟨x, a, h1, b, h2, _⟩; exact ⟨(javaResource_ok hw conf p (r := a.1) (ns := a.2) h1).2, b, h2⟩
    · rintro ⟨h1, b, h2⟩
      obtain ⟨a, h3⟩ := javaResource_ready hw conf p h1
      exact ⟨_, a, h3, b, h2, rfl⟩

/-! ### The client -/

omit hw in
theorem javaGetters_ok (ps : List HttpParamSpec) : javaGetters ps = .ok () ↔ ∀ p ∈ ps, p.field.name ≠ "" := by
  induction ps with
  | nil => simp [javaGetters]
  | cons p ps ih =>
    rw [List.forall_mem_cons, ← ih]
    simp only [javaGetters, gbind_ok, javaCapitalize_ok]
    constructor
    · rintro ⟨_, ⟨h1, _⟩, h2⟩; exact ⟨h1, h2⟩
    · rintro ⟨h1, h2⟩; exact ⟨_, ⟨h1, rfl⟩, h2⟩

theorem javaReadHeaders_ok (ps : List HttpParamSpec) {hs : List (String × String × String)} (h : javaReadHeaders m conf ps = .ok hs) :
    List.Forall₂ (fun p x => x.1 = p.header ∧ x.2.1 = p.field.name ∧ ∃ t, JavaBare s conf.instants p.field.ts.type true t ∧ x.2.2 = t.text)
      (ps.filter fun p => decide (p.header ≠ "")) hs ∧
    ∀ p ∈ ps, p.header ≠ "" → ∃ t, JavaBare s conf.instants p.field.ts.type true t := by
  induction ps generalizing hs with
  | nil => cases h; exact ⟨.nil, by simp⟩
  | cons p ps ih =>
    unfold javaReadHeaders at h
    by_cases hp : p.header = ""
    · rw [if_neg (by simpa using hp)] at h
      rw [List.filter_cons_of_neg (by simpa using hp)]
      refine ⟨(ih h).1, List.forall_mem_cons.2 ⟨fun h => absurd hp h, (ih h).2⟩⟩
    · rw [if_pos hp] at h
      obtain ⟨t, h1, h⟩ := gbind_ok.1 h
      obtain ⟨xs, h2, h⟩ := gbind_ok.1 h
      cases h
      rw [List.filter_cons_of_pos (by simpa using hp)]
      have ht := (javaType_bare hw conf _ _ _).1 ⟨t, h1, rfl⟩
      exact ⟨.cons ⟨rfl, rfl, _, ht, rfl⟩ (ih h2).1, List.forall_mem_cons.2 ⟨fun _ => ⟨_, ht⟩, (ih h2).2⟩⟩

theorem javaReadHeaders_ready (ps : List HttpParamSpec) (h : ∀ p ∈ ps, p.header ≠ "" → ∃ t, JavaBare s conf.instants p.field.ts.type true t) :
    ∃ hs, javaReadHeaders m conf ps = .ok hs := by
  induction ps with
  | nil => exact ⟨_, rfl⟩
  | cons p ps ih =>
    obtain ⟨h1, h2⟩ := List.forall_mem_cons.1 h
    obtain ⟨xs, h3⟩ := ih h2
    unfold javaReadHeaders
    by_cases hp : p.header = ""
    · rw [if_neg (by simpa using hp)]; exact ⟨xs, h3⟩
    · rw [if_pos hp]
      obtain ⟨t, h4⟩ := h1 hp
      obtain ⟨jt, h5, _⟩ := (javaType_bare hw conf _ _ _).2 h4
      rw [h5, h3]
      exact ⟨_, rfl⟩

theorem javaReturn_ok (h : HttpDef) (e : HttpExpectedSpec) (he : h.expected = some e) {r : JReturn} (hj : javaReturn m conf h e = .ok r) :
    JavaReturnFor s conf.instants e r ∧ (e.outputs ≠ [] → h.name ≠ "" ∧ JavaEntityReady s conf.instants e ∧
      ∀ p ∈ e.outputs, p.header ≠ "" → ∃ t, JavaBare s conf.instants p.field.ts.type true t) := by
  unfold javaReturn at hj
  by_cases ho : e.outputs = []
  · rw [if_pos ho] at hj
    cases hj
    exact ⟨.nothing ho, fun h => absurd ho h⟩
  · rw [if_neg ho] at hj
    obtain ⟨⟨n, t, ns⟩, h1, hj⟩ := gbind_ok.1 hj
    obtain ⟨hs, h2, hj⟩ := gbind_ok.1 hj
    obtain ⟨rt, h3, hj⟩ := gbind_ok.1 hj
    cases hj
    have hent := javaEntity_ok hw conf h e he h1
    have hh := javaReadHeaders_ok hw conf _ h2
    obtain ⟨e', he', h10⟩ := (javaEntity_ready hw conf h).1 ⟨_, h1⟩
    rw [he] at he'; cases he'
    refine ⟨.value ho (fun p hp => ?_) (fun hnone => ?_) hh.1, fun _ => ⟨(javaResponseType_ok.1 h3).1, h10, hh.2⟩⟩
    · rcases hent with ⟨q, h4, rfl, h5⟩ | ⟨h4, _⟩
      · have : p = q := Option.some.inj ((firstOf_find.2 hp).symm.trans (firstOf_find.2 h4))
        subst this
        exact ⟨t, h5, rfl⟩
      · have := firstOf_find.2 hp
        rw [find_none.2 h4] at this; cases this
    · rcases hent with ⟨q, h4, rfl, h5⟩ | ⟨h4, rfl, rfl⟩
      · have := firstOf_find.2 h4
        rw [find_none.2 hnone] at this; cases this
      · rfl

theorem javaReturn_ready (h : HttpDef) (e : HttpExpectedSpec) (he : h.expected = some e)
    (hr : e.outputs ≠ [] → h.name ≠ "" ∧ JavaEntityReady s conf.instants e ∧
      ∀ p ∈ e.outputs, p.header ≠ "" → ∃ t, JavaBare s conf.instants p.field.ts.type true t) : ∃ r, javaReturn m conf h e = .ok r := by
  unfold javaReturn
  by_cases ho : e.outputs = []
  · rw [if_pos ho]; exact ⟨_, rfl⟩
  · rw [if_neg ho]
    obtain ⟨h1, h2, h3⟩ := hr ho
    obtain ⟨ent, h4⟩ := (javaEntity_ready hw conf h).2 ⟨e, he, h2⟩
    obtain ⟨hs, h5⟩ := javaReadHeaders_ready hw conf _ h3
    simp only [h4, h5, javaResponseType_ok.2 ⟨h1, rfl⟩, Out.bind]
    exact ⟨_, rfl⟩

omit hw in
theorem javaSent_ok (h : HttpDef) {x : Option String} (hj : javaSent h = .ok x) :
    h.method ∈ ["GET", "PUT", "POST", "DELETE"] ∧ (h.method = "POST" ∨ h.method = "PUT" → ∃ n t, JavaSubject h n t ∧ x = some n) ∧
    (h.method ≠ "POST" → h.method ≠ "PUT" → x = none) := by
  unfold javaSent at hj
  by_cases h1 : h.method = "PUT" ∨ h.method = "POST"
  · rw [if_pos h1] at hj
    obtain ⟨⟨n, t⟩, h2, hj⟩ := gbind_ok.1 hj
    obtain ⟨_, h3, hj⟩ := gbind_ok.1 hj
    cases hj
    refine ⟨by rcases h1 with h1 | h1 <;> simp [h1], fun _ => ⟨n, t, (javaActionInfo_ok _ _ _).1 h2, rfl⟩, fun h3 h4 => ?_⟩
    rcases h1 with h1 | h1 <;> contradiction
  · rw [if_neg h1] at hj
    by_cases h2 : h.method = "GET" ∨ h.method = "DELETE"
    · rw [if_pos h2] at hj
      cases hj
      refine ⟨by rcases h2 with h2 | h2 <;> simp [h2], fun h3 => absurd h3.symm h1, fun _ _ => rfl⟩
    · rw [if_neg h2] at hj; cases hj

omit hw in
theorem javaSubject_exists {h : HttpDef} (hm : h.method = "POST" ∨ h.method = "PUT") : ∃ n t, JavaSubject h n t := by
  cases hf : h.inputs.find? fun p => decide (JavaInBody p) with
  | some p => exact ⟨_, _, .input hm (firstOf_find.1 hf)⟩
  | none => exact ⟨_, _, .noInput hm (find_none.1 hf)⟩

omit hw in
theorem firstOf_mem {α : Type} {P : α → Prop} {l : List α} {x : α} (h : FirstOf P l x) : x ∈ l := by
  obtain ⟨a, b, rfl, _⟩ := h
  simp

omit hw in
theorem javaSent_ready (h : HttpDef) (hm : h.method ∈ ["GET", "PUT", "POST", "DELETE"]) (hn : ∀ p ∈ h.inputs, p.field.name ≠ "") :
    ∃ x, javaSent h = .ok x := by
  unfold javaSent
  by_cases h1 : h.method = "PUT" ∨ h.method = "POST"
  · rw [if_pos h1]
    obtain ⟨n, t, h2⟩ := javaSubject_exists h1.symm
    rw [(javaActionInfo_ok h n t).2 h2]
    have hne : n ≠ "" := by
      rcases h2 with ⟨_, h3⟩ | _ | ⟨h3, h4, _⟩ | _
      · exact hn _ (firstOf_mem h3)
      · decide
      · rcases h1 with h1 | h1 <;> contradiction
      · decide
    simp [Out.bind, javaCapitalize, hne]
  · rw [if_neg h1]
    rw [if_pos]
    · exact ⟨_, rfl⟩
    · simp only [List.mem_cons, List.not_mem_nil, or_false] at hm
      rcases hm with h2 | h2 | h2 | h2
      · exact .inl h2
      · exact absurd (.inl h2) h1
      · exact absurd (.inr h2) h1
      · exact .inr h2

theorem javaCall_ok (h : HttpDef) {c : JCall} (hj : javaCall m conf h = .ok c) : JavaCallFor s conf h c ∧ JavaCallReady s conf h := by
  unfold javaCall at hj
  obtain ⟨name, h1, hj⟩ := gbind_ok.1 hj
  obtain ⟨res, h2, hj⟩ := gbind_ok.1 hj
  obtain ⟨req, h3, hj⟩ := gbind_ok.1 hj
  obtain ⟨_, h4, hj⟩ := gbind_ok.1 hj
  obtain ⟨ent, h5, hj⟩ := gbind_ok.1 hj
  cases he : h.expected with
  | none => rw [he] at hj; cases hj
  | some e =>
    rw [he] at hj
    simp only at hj
    obtain ⟨r, h6, hj⟩ := gbind_ok.1 hj
    cases hj
    have hn := (javaActionName_ok h name).1 h1
    have hs := javaSent_ok h h5
    have hr := javaReturn_ok hw conf h e he h6
    refine ⟨⟨rfl, javaPath_spec _, hn, (javaRequestType_ok.1 h3).2, (javaResponseType_ok.1 h2).2, rfl, ?_, rfl, hs.2.1, hs.2.2,
      ⟨e, he, rfl, hr.1⟩, rfl⟩, ⟨hs.1, ⟨_, hn, (javaRequestType_ok.1 h3).1⟩, (javaGetters_ok _).1 h4, ⟨e, he, hr.2⟩⟩⟩
    unfold javaQueries
    dsimp only
    congr 1
    apply List.filter_congr
    intro p _
    cases p.path <;> simp

theorem javaCall_ready (h : HttpDef) (hr : JavaCallReady s conf h) : ∃ c, javaCall m conf h = .ok c := by
  obtain ⟨h1, ⟨n, h2, h3⟩, h4, e, he, h5⟩ := hr
  obtain ⟨x, h6⟩ := javaSent_ready h h1 h4
  obtain ⟨r, h7⟩ := javaReturn_ready hw conf h e he h5
  unfold javaCall
  rw [(javaActionName_ok h n).2 h2]
  simp only [Out.bind, javaRequestType_ok.2 ⟨h3, rfl⟩, javaResponseType_ok.2 ⟨h3, rfl⟩, (javaGetters_ok _).2 h4, h6, he, h7]
  exact ⟨_, rfl⟩

theorem javaCalls_ok (hs : List HttpDef) {cs : List JCall} (h : javaCalls m conf hs = .ok cs) : List.Forall₂ (JavaCallFor s conf) hs cs := by
  induction hs generalizing cs with
  | nil => cases h; exact .nil
  | cons x xs ih =>
    unfold javaCalls at h
    obtain ⟨c, h1, h⟩ := gbind_ok.1 h
    obtain ⟨zs, h2, h⟩ := gbind_ok.1 h
    cases h
    exact .cons (javaCall_ok hw conf x h1).1 (ih h2)

theorem javaCalls_ready (hs : List HttpDef) : (∃ x, javaCalls m conf hs = .ok x) ↔ ∀ h ∈ hs, JavaCallReady s conf h := by
  induction hs with
  | nil => simp [javaCalls]
  | cons p ps ih =>
    rw [List.forall_mem_cons, ← ih]
    simp only [javaCalls, gbind_ok]
    constructor
    · rintro ⟨x, a, h1, b, h2, _⟩; exact ⟨(javaCall_ok hw conf p h1).2, b, h2⟩
    · rintro ⟨h1, b, h2⟩
      obtain ⟨a, h3⟩ := javaCall_ready hw conf p h1
      exact ⟨_, a, h3, b, h2, rfl⟩

end
end Sadl
