import Verif.Lemmas.Basic
import Verif.Lemmas.Text
import Verif.Spec.Smithy
/-
Lemmas about the Smithy export.
-/
namespace Sadl
open Smithy Spec

theorem Out.bind_eq_ok {α β : Type} {x : Out α} {f : α → Out β} {b : β} :
    (x >>= f) = .ok b ↔ ∃ a, x = .ok a ∧ f a = .ok b := by
  cases x with
  | ok a => simp
  | err e => simp
  | panic e => simp

namespace Smithy

theorem ns_inj {ns a b : String} : ns ++ "#" ++ a = ns ++ "#" ++ b ↔ a = b := by
  constructor
  · intro h
    have := congrArg String.toList h
    simp only [String.toList_append, List.append_assoc, List.append_cancel_left_eq] at this
    exact String.toList_inj.1 this
  · rintro rfl; rfl

theorem mem_keys_mset {α : Type} (m : GoMap α) (a k : String) (v : α) :
    k ∈ (mset m a v).map Prod.fst ↔ k = a ∨ k ∈ m.map Prod.fst := by
  rw [keys_mset]
  split
  · constructor
    · exact .inr
    · rintro (rfl | h)
      · assumption
      · exact h
  · simp only [List.mem_append, List.mem_singleton]
    exact or_comm

/-! ### Types -/

theorem typeReferenceByName_cases (ns n : String) :
    (n ∈ ["Bool", "Int8", "Int16", "Int32", "Int64", "Float32", "Float64", "Decimal", "Timestamp", "UUID", "Bytes", "String",
      "Array", "Map", "Struct"] ∧ ∀ ns', typeReferenceByName ns n = typeReferenceByName ns' n) ∨
    (n ∉ ["Bool", "Int8", "Int16", "Int32", "Int64", "Float32", "Float64", "Decimal", "Timestamp", "UUID", "Bytes", "String",
      "Array", "Map", "Struct"] ∧ typeReferenceByName ns n = ns ++ "#" ++ n) := by
  unfold typeReferenceByName
  split
  case h_16 =>
    right
    refine ⟨?_, rfl⟩
    simp only [List.mem_cons, List.not_mem_nil, or_false, not_or]
    refine ⟨?_, ?_, ?_, ?_, ?_, ?_, ?_, ?_, ?_, ?_, ?_, ?_, ?_, ?_, ?_⟩ <;> assumption
  all_goals exact .inl ⟨by decide, fun _ => rfl⟩

theorem typeReference_hash (ns n : String) : '#' ∈ (typeReferenceByName ns n).toList := by
  rcases typeReferenceByName_cases ns n with ⟨h, e⟩ | ⟨_, e⟩
  · rw [e ""]
    exact (by decide : ∀ n ∈ ["Bool", "Int8", "Int16", "Int32", "Int64", "Float32", "Float64", "Decimal", "Timestamp", "UUID",
      "Bytes", "String", "Array", "Map", "Struct"], '#' ∈ (typeReferenceByName "" n).toList) _ h
  · rw [e]; simp [String.toList_append]

theorem fieldTarget_eq (m : Model) (ns : String) (shapes : GoMap Shape) (tname : String) (fd : StructFieldDef) :
    fieldTarget m ns shapes tname fd = .ok (shapes, typeReferenceByName ns fd.ts.type) := by
  have h := typeReference_hash ns fd.ts.type
  have h1 : ∀ x ∈ ["List", "Map", "Enum"], typeReferenceByName ns fd.ts.type ≠ x := by
    intro x hx e
    rw [e] at h
    exact (by decide : ∀ x ∈ ["List", "Map", "Enum"], ¬ '#' ∈ x.toList) x hx h
  unfold fieldTarget
  simp [h1]

/-- The members of a structure. -/
def fieldMembers (ns : String) : List StructFieldDef → GoMap Member → GoMap Member
  | [], ms => ms
  | fd :: rest, ms =>
    let mem : Member := { target := typeReferenceByName ns fd.ts.type }
    fieldMembers ns rest (mset ms fd.name (if fd.required then mem.put "smithy.api#required" (.bool true) else mem))

theorem structMembers_eq (m : Model) (ns tname : String) (fds : List StructFieldDef) (shapes : GoMap Shape) (ms : GoMap Member) :
    structMembers m ns tname fds shapes ms = .ok (shapes, fieldMembers ns fds ms) := by
  induction fds generalizing ms with
  | nil => rfl
  | cons fd rest ih => simp [structMembers, fieldTarget_eq, ih, fieldMembers]

/-- The shape of a type before its comment and annotations. -/
def bareShape (ns : String) (td : TypeDef) : Shape :=
  let ts := td.ts
  if ts.type ∈ numberTypes then shapeFromNumber ts
  else if ts.type = "String" then shapeFromString ts
  else if ts.type = "Enum" then shapeFromEnum ts
  else if ts.type = "Struct" then { type := "structure", members := fieldMembers ns ts.fields [] }
  else if ts.type = "Array" then shapeFromArray ns ts td.annotations
  else if ts.type = "Union" then shapeFromUnion ns ts
  else if ts.type = "Map" then shapeFromMap ns ts
  else uuidShape

/-- The shape of a type. -/
def typeShape (ns : String) (td : TypeDef) : Shape :=
  annotationTraits td.annotations
    (if td.comment ≠ "" then (bareShape ns td).put "smithy.api#documentation" (.str td.comment) else bareShape ns td)

theorem defineShape_ok (m : Model) (ns : String) (shapes : GoMap Shape) (td : TypeDef) (h : td.ts.type ∈ SmithyBases) :
    defineShapeFromTypeSpec m ns shapes td = .ok (mset shapes (ns ++ "#" ++ td.name) (typeShape ns td)) := by
  have : shapeFromTypeSpec m ns shapes td = .ok (shapes, bareShape ns td) := by
    unfold shapeFromTypeSpec bareShape
    simp only [shapeFromStruct, structMembers_eq, Out.bind_ok]
    split_ifs <;> first
      | rfl
      | (exfalso
         simp only [SmithyBases, numberTypes, List.mem_cons, List.not_mem_nil, or_false, not_or] at *
         tauto)
  unfold defineShapeFromTypeSpec typeShape
  rw [this]
  simp

theorem defineShape_panic (m : Model) (ns : String) (shapes : GoMap Shape) (td : TypeDef) (h : td.ts.type ∉ SmithyBases) :
    defineShapeFromTypeSpec m ns shapes td = .panic "handle this type" := by
  have : shapeFromTypeSpec m ns shapes td = .panic "handle this type" := by
    simp only [SmithyBases, List.mem_cons, List.not_mem_nil, or_false, not_or] at h
    unfold shapeFromTypeSpec
    simp [numberTypes, h]
  unfold defineShapeFromTypeSpec
  rw [this]
  simp

/-- The shapes of the types. -/
def typeShapes (ns : String) : List TypeDef → GoMap Shape → GoMap Shape
  | [], shapes => shapes
  | td :: rest, shapes => typeShapes ns rest (mset shapes (ns ++ "#" ++ td.name) (typeShape ns td))

theorem defineShapes_ok (m : Model) (ns : String) (tds : List TypeDef) (shapes : GoMap Shape)
    (h : ∀ td ∈ tds, td.ts.type ∈ SmithyBases) : defineShapes m ns tds shapes = .ok (typeShapes ns tds shapes) := by
  induction tds generalizing shapes with
  | nil => rfl
  | cons td rest ih =>
    simp only [defineShapes, defineShape_ok m ns shapes td (h td (by simp)), Out.bind_ok, typeShapes]
    exact ih _ fun t ht => h t (by simp [ht])

theorem defineShapes_panic (m : Model) (ns : String) (tds : List TypeDef) (shapes : GoMap Shape)
    (h : ¬ ∀ td ∈ tds, td.ts.type ∈ SmithyBases) : defineShapes m ns tds shapes = .panic "handle this type" := by
  induction tds generalizing shapes with
  | nil => simp at h
  | cons td rest ih =>
    by_cases h1 : td.ts.type ∈ SmithyBases
    · simp only [defineShapes, defineShape_ok m ns shapes td h1, Out.bind_ok]
      exact ih _ fun h2 => h fun t ht => by
        rcases List.mem_cons.1 ht with rfl | ht
        · exact h1
        · exact h2 t ht
    · simp [defineShapes, defineShape_panic m ns shapes td h1]

theorem typeShapes_keys (ns : String) (tds : List TypeDef) (shapes : GoMap Shape) (k : String) :
    k ∈ (typeShapes ns tds shapes).map Prod.fst ↔ (∃ td ∈ tds, k = ns ++ "#" ++ td.name) ∨ k ∈ shapes.map Prod.fst := by
  induction tds generalizing shapes with
  | nil => simp [typeShapes]
  | cons td rest ih =>
    simp only [typeShapes, ih, mem_keys_mset, List.mem_cons, exists_eq_or_imp]
    rw [or_left_comm, or_assoc]

/-! ### Actions -/

theorem capitalize_empty (s : String) : capitalize s = "" ↔ s = "" := by
  unfold capitalize
  constructor
  · intro h
    have := congrArg String.toList h
    simp only [String.toList_ofList] at this
    cases hs : s.toList with
    | nil => exact String.toList_inj.1 (by simpa using hs)
    | cons c r => rw [hs] at this; simp [capitalizeL] at this
  · rintro rfl; rfl

theorem actionName_eq (h : HttpDef) : actionName h = OpName h := by
  unfold actionName OpName
  simp only [capitalize_empty]

theorem paginatedItems_ok (items : List (List Char)) (m : GoMap Value) :
    (∃ m', paginatedItems items m = .ok m') ↔ ∀ item ∈ items, '=' ∈ item := by
  have key : ∀ item : List Char, (∃ k v r, splitAll '=' item = k :: v :: r) ↔ '=' ∈ item := by
    intro item
    induction item with
    | nil => simp [splitAll]
    | cons x r ih =>
      by_cases hx : x = '='
      · subst hx
        simp only [splitAll, if_true, List.mem_cons, true_or, iff_true]
        cases hr : splitAll '=' r with
        | nil =>
          exfalso
          cases r with
          | nil => simp [splitAll] at hr
          | cons y r => simp only [splitAll] at hr; split at hr <;> [skip; split at hr] <;> simp at hr
        | cons w ws => exact ⟨_, _, _, rfl⟩
      · simp only [splitAll, hx, if_false, List.mem_cons, Ne.symm hx, false_or]
        rw [← ih]
        cases hr : splitAll '=' r with
        | nil => simp
        | cons w ws => simp
  induction items generalizing m with
  | nil => simp [paginatedItems]
  | cons item rest ih =>
    simp only [List.forall_mem_cons, ← key item]
    cases hs : splitAll '=' item with
    | nil => simp [paginatedItems, hs]
    | cons k r =>
      cases r with
      | nil => simp [paginatedItems, hs]
      | cons v r => simp [paginatedItems, hs, ih]

theorem paginatedItems_not_err (items : List (List Char)) (m : GoMap Value) (e : String) : paginatedItems items m ≠ .err e := by
  induction items generalizing m with
  | nil => simp [paginatedItems]
  | cons item rest ih =>
    unfold paginatedItems
    split
    · exact ih _
    · simp

theorem paginatedTrait_ok (v : String) :
    (∃ t, paginatedTrait v = .ok t) ↔ ∀ item ∈ splitAll ',' v.toList, '=' ∈ item := by
  rw [← paginatedItems_ok _ []]
  unfold paginatedTrait
  cases paginatedItems (splitAll ',' v.toList) [] <;> simp

theorem paginatedTrait_not_err (v e : String) : paginatedTrait v ≠ .err e := by
  unfold paginatedTrait
  cases h : paginatedItems (splitAll ',' v.toList) [] with
  | ok => simp
  | err => exact absurd h (paginatedItems_not_err _ _ _)
  | panic => simp

/-- The annotation `x_paginated` of the action can be read. -/
def PaginatedOk (h : HttpDef) : Prop :=
  ∀ v, mget h.annotations "x_paginated" = some v → ∀ item ∈ splitAll ',' v.toList, '=' ∈ item

theorem actionShape_ok (base : String) (h : HttpDef) : (∃ s, actionShape base h = .ok s) ↔ PaginatedOk h := by
  unfold actionShape PaginatedOk
  cases hp : mget h.annotations "x_paginated" with
  | none => simp
  | some v =>
    simp only [Option.some.injEq, forall_eq', ← paginatedTrait_ok v]
    cases paginatedTrait v <;> simp

theorem actionShape_not_err (base : String) (h : HttpDef) (e : String) : actionShape base h ≠ .err e := by
  unfold actionShape
  cases hp : mget h.annotations "x_paginated" with
  | none => simp
  | some v =>
    have := paginatedTrait_not_err v
    cases hv : paginatedTrait v with
    | ok => simp [hv]
    | err e => exact absurd hv (this e)
    | panic => simp [hv]

theorem actionErrors_keys {ns : String} {xs : List HttpExceptionSpec} {shapes r : GoMap Shape}
    (h : actionErrors ns xs shapes = .ok r) : r.map Prod.fst = shapes.map Prod.fst := by
  induction xs generalizing shapes with
  | nil => simp only [actionErrors, Out.ok.injEq] at h; rw [h]
  | cons x rest ih =>
    simp only [actionErrors] at h
    split at h
    · rename_i s hs
      rw [ih h, keys_mset, if_pos]
      by_contra hc
      rw [(mget_none_iff _ _).2 hc] at hs
      cases hs
    · cases h

theorem actionErrors_ok (ns : String) (xs : List HttpExceptionSpec) (shapes : GoMap Shape) :
    (∃ r, actionErrors ns xs shapes = .ok r) ↔ ∀ x ∈ xs, ns ++ "#" ++ x.type ∈ shapes.map Prod.fst := by
  induction xs generalizing shapes with
  | nil => simp [actionErrors]
  | cons x rest ih =>
    simp only [actionErrors, List.forall_mem_cons]
    cases hs : mget shapes (ns ++ "#" ++ x.type) with
    | none =>
      have := (mget_none_iff _ _).1 hs
      simp [this]
    | some s =>
      have hm : ns ++ "#" ++ x.type ∈ shapes.map Prod.fst := by
        by_contra hc
        rw [(mget_none_iff _ _).2 hc] at hs
        cases hs
      simp only [ih, keys_mset, hm, true_and, if_true]

theorem actionErrors_not_panic (ns : String) (xs : List HttpExceptionSpec) (shapes : GoMap Shape) (e : String) :
    actionErrors ns xs shapes ≠ .panic e := by
  induction xs generalizing shapes with
  | nil => simp [actionErrors]
  | cons x rest ih =>
    simp only [actionErrors]
    split
    · exact ih _
    · simp

/-- The structure for the inputs of an action. -/
def inputShape (ns : String) (h : HttpDef) : Shape :=
  ({ type := "structure", members := paramMembers (inputMember ns) h.inputs [] } : Shape).put "smithy.api#input" (.bool true)

/-- The structure for the outputs of an action. -/
def outputShape (ns : String) (h : HttpDef) : Shape :=
  ({ type := "structure", members := paramMembers (outputMember ns) (ActionOutputs h) [] } : Shape).put "smithy.api#output" (.bool true)

/-- The shapes with the structures for the inputs and outputs of an action. -/
def ioShapes (suf : Suffixes) (ns : String) (h : HttpDef) (shapes : GoMap Shape) : GoMap Shape :=
  let shapes := if h.inputs ≠ [] then mset shapes (ns ++ "#" ++ (OpName h ++ suf.input)) (inputShape ns h) else shapes
  if ActionOutputs h ≠ [] then mset shapes (ns ++ "#" ++ (OpName h ++ suf.output)) (outputShape ns h) else shapes

/-- The operation shape with the references to its structures. -/
def withIo (suf : Suffixes) (ns : String) (h : HttpDef) (shape : Shape) : Shape :=
  { shape with
    input := if h.inputs ≠ [] then some (ns ++ "#" ++ (OpName h ++ suf.input)) else shape.input
    output := if ActionOutputs h ≠ [] then some (ns ++ "#" ++ (OpName h ++ suf.output)) else shape.output
    errors := h.exceptions.map fun x => ns ++ "#" ++ x.type }

theorem exportAction_ok {suf : Suffixes} {ns base : String} {h : HttpDef} {shapes r : GoMap Shape} :
    exportAction suf ns base h shapes = .ok r ↔
      h.expected ≠ none ∧ ∃ shape sh1, actionShape base h = .ok shape ∧
        actionErrors ns h.exceptions (ioShapes suf ns h shapes) = .ok sh1 ∧
        r = mset sh1 (ns ++ "#" ++ OpName h) (withIo suf ns h shape) := by
  unfold exportAction
  rw [actionName_eq, Out.bind_eq_ok]
  cases he : h.expected with
  | none =>
    simp only [ne_eq, not_true, false_and, iff_false, not_exists, not_and]
    intro shape _
    simp
  | some e =>
    have ho : ActionOutputs h = e.outputs := by simp [ActionOutputs, he]
    simp only [ne_eq, reduceCtorEq, not_false_eq_true, true_and]
    constructor
    · rintro ⟨shape, hs, hr⟩
      refine ⟨shape, ?_⟩
      by_cases hi : h.inputs = [] <;> by_cases h2 : e.outputs = [] <;>
        simp only [hi, h2, ne_eq, not_true, not_false_eq_true, if_true, if_false, Out.bind_eq_ok, Out.ok.injEq] at hr <;>
        obtain ⟨sh1, h3, rfl⟩ := hr <;> refine ⟨sh1, hs, ?_, ?_⟩ <;>
        simp [ioShapes, withIo, inputShape, outputShape, hi, h2, ho, String.append_assoc, ← h3]
    · rintro ⟨shape, sh1, hs, h3, rfl⟩
      refine ⟨shape, hs, ?_⟩
      by_cases hi : h.inputs = [] <;> by_cases h2 : e.outputs = [] <;>
        simp only [hi, h2, ne_eq, not_true, not_false_eq_true, if_true, if_false, Out.bind_eq_ok, Out.ok.injEq] <;>
        refine ⟨sh1, ?_, ?_⟩ <;> first
          | (rw [← h3]; simp [ioShapes, inputShape, outputShape, hi, h2, ho, String.append_assoc])
          | simp [withIo, hi, h2, ho, String.append_assoc]

theorem ioShapes_keys (suf : Suffixes) (ns : String) (h : HttpDef) (shapes : GoMap Shape) (n : String) :
    ns ++ "#" ++ n ∈ (ioShapes suf ns h shapes).map Prod.fst ↔ n ∈ IoNames suf h ∨ ns ++ "#" ++ n ∈ shapes.map Prod.fst := by
  unfold ioShapes IoNames
  by_cases hi : h.inputs = [] <;> by_cases h2 : ActionOutputs h = [] <;>
    simp only [hi, h2, ne_eq, not_true, not_false_eq_true, if_true, if_false, mem_keys_mset, ns_inj, List.mem_append,
      List.mem_singleton, List.not_mem_nil, false_or, or_false] <;> tauto

theorem exportAction_keys {suf : Suffixes} {ns base : String} {h : HttpDef} {shapes r : GoMap Shape}
    (hr : exportAction suf ns base h shapes = .ok r) (n : String) :
    ns ++ "#" ++ n ∈ r.map Prod.fst ↔ (n = OpName h ∨ n ∈ IoNames suf h) ∨ ns ++ "#" ++ n ∈ shapes.map Prod.fst := by
  obtain ⟨_, shape, sh1, _, h2, rfl⟩ := exportAction_ok.1 hr
  rw [mem_keys_mset, actionErrors_keys h2, ioShapes_keys, ns_inj]
  tauto

/-- The exceptions of the actions have shapes, given those that exist before. -/
def ErrorsOk (suf : Suffixes) (K : String → Prop) : List HttpDef → Prop
  | [] => True
  | h :: rest => (∀ x ∈ h.exceptions, x.type ∈ IoNames suf h ∨ K x.type) ∧
    ErrorsOk suf (fun n => (n = OpName h ∨ n ∈ IoNames suf h) ∨ K n) rest

theorem errorsOk_iff (suf : Suffixes) (K : String → Prop) (hs : List HttpDef) :
    ErrorsOk suf K hs ↔ ∀ pre h post, hs = pre ++ h :: post → ∀ x ∈ h.exceptions,
      K x.type ∨ x.type ∈ IoNames suf h ∨ ∃ h' ∈ pre, x.type = OpName h' ∨ x.type ∈ IoNames suf h' := by
  induction hs generalizing K with
  | nil => simp [ErrorsOk]
  | cons a rest ih =>
    simp only [ErrorsOk, ih]
    constructor
    · rintro ⟨h1, h2⟩ pre h post e x hx
      cases pre with
      | nil =>
        simp only [List.nil_append, List.cons.injEq] at e
        obtain ⟨rfl, rfl⟩ := e
        rcases h1 x hx with h | h
        · exact .inr (.inl h)
        · exact .inl h
      | cons b pre =>
        simp only [List.cons_append, List.cons.injEq] at e
        obtain ⟨rfl, rfl⟩ := e
        rcases h2 pre h post rfl x hx with (h | h) | h | ⟨h', h3, h4⟩
        · exact .inr (.inr ⟨a, by simp, h⟩)
        · exact .inl h
        · exact .inr (.inl h)
        · exact .inr (.inr ⟨h', by simp [h3], h4⟩)
    · intro hh
      refine ⟨fun x hx => ?_, fun pre h post e x hx => ?_⟩
      · rcases hh [] a rest rfl x hx with h | h | ⟨h', h3, _⟩
        · exact .inr h
        · exact .inl h
        · simp at h3
      · rcases hh (a :: pre) h post (by rw [e]; rfl) x hx with h | h | ⟨h', h3, h4⟩
        · exact .inl (.inr h)
        · exact .inr (.inl h)
        · rcases List.mem_cons.1 h3 with rfl | h3
          · exact .inl (.inl h4)
          · exact .inr (.inr ⟨h', h3, h4⟩)

theorem errorsOk_congr (suf : Suffixes) {K K' : String → Prop} (hK : ∀ n, K n ↔ K' n) (hs : List HttpDef) :
    ErrorsOk suf K hs ↔ ErrorsOk suf K' hs := by
  have : K = K' := funext fun n => propext (hK n)
  rw [this]

theorem exportActions_ok (suf : Suffixes) (ns base : String) (hs : List HttpDef) (shapes : GoMap Shape) :
    (∃ r, exportActions suf ns base hs shapes = .ok r) ↔
      (∀ h ∈ hs, h.expected ≠ none) ∧ (∀ h ∈ hs, PaginatedOk h) ∧
      ErrorsOk suf (fun n => ns ++ "#" ++ n ∈ shapes.map Prod.fst) hs := by
  induction hs generalizing shapes with
  | nil => simp [exportActions, ErrorsOk]
  | cons h rest ih =>
    simp only [exportActions, Out.bind_eq_ok, List.forall_mem_cons, ErrorsOk]
    constructor
    · rintro ⟨r, sh, h1, h2⟩
      obtain ⟨h3, h4, h5⟩ := (ih sh).1 ⟨r, h2⟩
      obtain ⟨h6, shape, sh1, h7, h8, _⟩ := exportAction_ok.1 h1
      refine ⟨⟨h6, h3⟩, ⟨(actionShape_ok base h).1 ⟨_, h7⟩, h4⟩, ?_, ?_⟩
      · intro x hx
        exact (ioShapes_keys suf ns h shapes x.type).1 ((actionErrors_ok ns _ _).1 ⟨_, h8⟩ x hx)
      · exact (errorsOk_congr suf (exportAction_keys h1) rest).1 h5
    · rintro ⟨⟨h1, h2⟩, ⟨h3, h4⟩, h5, h6⟩
      obtain ⟨shape, h7⟩ := (actionShape_ok base h).2 h3
      obtain ⟨sh1, h8⟩ := (actionErrors_ok ns h.exceptions (ioShapes suf ns h shapes)).2
        fun x hx => (ioShapes_keys suf ns h shapes x.type).2 (h5 x hx)
      have h9 := exportAction_ok.2 ⟨h1, shape, sh1, h7, h8, rfl⟩
      obtain ⟨r, hr⟩ := (ih _).2 ⟨h2, h4, (errorsOk_congr suf (exportAction_keys h9) rest).2 h6⟩
      exact ⟨r, _, h9, hr⟩

/-! ### Examples -/

theorem requestExamples_ok (rq : String) (exs : List ExampleDef) (acc : GoMap (GoMap Value)) :
    (∃ r, requestExamples rq exs acc = .ok r) ↔ ∀ ex ∈ exs, ex.target = rq → IsObject ex.example := by
  induction exs generalizing acc with
  | nil => simp [requestExamples]
  | cons ex rest ih =>
    simp only [requestExamples, List.forall_mem_cons]
    by_cases h : ex.target = rq
    · simp only [h, if_true, true_implies]
      cases hv : ex.example <;> simp [IsObject, ih]
    · simp only [h, if_false, false_implies, true_and, ih]

theorem requestExamples_keys {rq : String} {exs : List ExampleDef} {acc r : GoMap (GoMap Value)}
    (h : requestExamples rq exs acc = .ok r) (n : String) :
    n ∈ r.map Prod.fst ↔ (∃ ex ∈ exs, ex.target = rq ∧ ex.name = n) ∨ n ∈ acc.map Prod.fst := by
  induction exs generalizing acc with
  | nil => simp only [requestExamples, Out.ok.injEq] at h; simp [h]
  | cons ex rest ih =>
    simp only [requestExamples] at h
    split at h
    · rename_i ht
      split at h
      · rw [ih h, mem_keys_mset]
        simp only [List.mem_cons, exists_eq_or_imp, ht, true_and, eq_comm (a := n)]
        rw [or_left_comm, or_assoc]
      · cases h
    · rename_i ht
      rw [ih h]
      simp only [List.mem_cons, exists_eq_or_imp, ht, false_and, false_or]

theorem responseExamples_ok (rq rs : String) (xs : List HttpExceptionSpec) (exs : List ExampleDef) (acc : GoMap (GoMap Value)) :
    (∃ r, responseExamples rq rs xs exs acc = .ok r) ↔
      ∀ ex ∈ exs, ex.target ≠ rq → (ex.target = rs ∨ ∃ x ∈ xs, x.type = ex.target) → ex.name ∈ acc.map Prod.fst →
        IsObject ex.example := by
  induction exs generalizing acc with
  | nil => simp [responseExamples]
  | cons ex rest ih =>
    simp only [responseExamples, List.forall_mem_cons]
    by_cases h : ex.target = rq
    · simp only [h, if_true, ne_eq, not_true, false_implies, true_and, ih]
    · simp only [h, if_false, ne_eq, not_false_eq_true, true_implies]
      cases hg : mget acc ex.name with
      | none => simp only [(mget_none_iff _ _).1 hg, false_implies, implies_true, true_and, ih, ne_eq]
      | some d =>
        have hm : ex.name ∈ acc.map Prod.fst := by
          by_contra hc
          rw [(mget_none_iff _ _).2 hc] at hg
          cases hg
        have hk : ∀ (v : GoMap Value) k, k ∈ (mset acc ex.name v).map Prod.fst ↔ k ∈ acc.map Prod.fst := by
          intro v k
          rw [keys_mset, if_pos hm]
        simp only [hm, true_implies]
        by_cases h1 : ex.target = rs
        · simp only [h1, if_true, true_or, true_implies]
          cases hv : ex.example <;> simp only [IsObject, reduceCtorEq, exists_false, false_and, ih, hk, ne_eq]
          simp
        · have h2 : (xs.any (fun x => x.type == ex.target) = true) ↔ ∃ x ∈ xs, x.type = ex.target := by simp
          simp only [h1, if_false, false_or, h2]
          by_cases h3 : ∃ x ∈ xs, x.type = ex.target
          · simp only [h3, if_true, true_implies]
            cases hv : ex.example <;> simp only [IsObject, reduceCtorEq, exists_false, false_and, ih, hk, ne_eq]
            simp
          · simp only [h3, if_false, false_implies, true_and, ih, ne_eq]

theorem sadlExamples_ok (order : GoMap (GoMap Value) → GoMap (GoMap Value)) (s : Schema) (h : HttpDef) :
    (∃ r, sadlExamplesForAction order s h = .ok r) ↔
      (∀ ex ∈ s.examples, ex.target = capitalize h.name ++ "Request" → IsObject ex.example) ∧
      ∀ ex ∈ s.examples, (ex.target = capitalize h.name ++ "Response" ∨ ∃ x ∈ h.exceptions, x.type = ex.target) →
        (∃ rq ∈ s.examples, rq.target = capitalize h.name ++ "Request" ∧ rq.name = ex.name) → IsObject ex.example := by
  unfold sadlExamplesForAction
  simp only [Out.bind_eq_ok, Out.ok.injEq]
  constructor
  · rintro ⟨_, named, h1, named2, h2, _⟩
    have h3 := (requestExamples_ok _ _ _).1 ⟨_, h1⟩
    refine ⟨h3, fun ex hex ht hrq => ?_⟩
    by_cases h4 : ex.target = capitalize h.name ++ "Request"
    · exact h3 ex hex h4
    · exact (responseExamples_ok _ _ _ _ _).1 ⟨_, h2⟩ ex hex h4 ht ((requestExamples_keys h1 _).2 (.inl hrq))
  · rintro ⟨h1, h2⟩
    obtain ⟨named, h3⟩ := (requestExamples_ok _ _ []).2 h1
    obtain ⟨named2, h4⟩ := (responseExamples_ok (capitalize h.name ++ "Request") (capitalize h.name ++ "Response") h.exceptions
      s.examples named).2 fun ex hex _ ht hn => h2 ex hex ht (by simpa using (requestExamples_keys h3 _).1 hn)
    exact ⟨_, named, h3, named2, h4, rfl⟩

theorem examplesFromSadl_ok (order : GoMap (GoMap Value) → GoMap (GoMap Value)) (ns : String) (s : Schema) (hs : List HttpDef)
    (shapes : GoMap Shape) :
    (∃ r, examplesFromSADL order ns s hs shapes = .ok r) ↔ ∀ h ∈ hs, ∃ l, sadlExamplesForAction order s h = .ok l := by
  induction hs generalizing shapes with
  | nil => simp [examplesFromSADL]
  | cons h rest ih =>
    simp only [examplesFromSADL, List.forall_mem_cons, Out.bind_eq_ok]
    constructor
    · rintro ⟨r, l, h1, h2⟩
      exact ⟨⟨l, h1⟩, (ih _).1 ⟨r, h2⟩⟩
    · rintro ⟨⟨l, h1⟩, h2⟩
      obtain ⟨r, hr⟩ := (ih _).2 h2
      exact ⟨r, l, h1, hr⟩

/-- The names of the operations, actions first. -/
def opTargets (ns : String) (s : Schema) : List String :=
  s.http.map (fun h => ns ++ "#" ++ OpName h) ++ s.operations.map (fun od => ns ++ "#" ++ capitalize od.name)

/-- The shapes with the operations without HTTP binding and the service. -/
def serviceShapes (suf : Suffixes) (ns : String) (s : Schema) (shapes : GoMap Shape) : GoMap Shape :=
  let shapes := exportOperations suf ns s.operations shapes
  if opTargets ns s ≠ [] then mset shapes (ns ++ "#" ++ capitalize s.name) (serviceShape s (opTargets ns s)) else shapes

/-- The steps of the export. -/
theorem fromSadl_steps {order : GoMap (GoMap Value) → GoMap (GoMap Value)} {suf : Suffixes} {m : Model} {ns : String} {ast : Ast} :
    fromSadl order suf m ns = .ok ast ↔
      (∀ td ∈ m.schema.types, td.ts.type ∈ SmithyBases) ∧ ∃ sh1 sh2,
        exportActions suf ns m.schema.base m.schema.http (typeShapes ns m.schema.types []) = .ok sh1 ∧
        withExamples order ns m.schema (serviceShapes suf ns m.schema sh1) = .ok sh2 ∧
        ast = { metadata := if m.schema.base ≠ "" then [("base", .str m.schema.base)] else [], shapes := sh2 } := by
  have ho : m.schema.http.map (fun h => ns ++ "#" ++ actionName h) ++
      m.schema.operations.map (fun od => ns ++ "#" ++ capitalize od.name) = opTargets ns m.schema := by
    simp only [opTargets, actionName_eq]
  unfold fromSadl
  simp only [Out.bind_eq_ok, ho, Out.ok.injEq]
  constructor
  · rintro ⟨sh, h1, sh1, h2, sh2, h3, rfl⟩
    have ht : ∀ td ∈ m.schema.types, td.ts.type ∈ SmithyBases := by
      by_contra hc
      rw [defineShapes_panic _ _ _ _ hc] at h1
      cases h1
    rw [defineShapes_ok _ _ _ _ ht] at h1
    cases h1
    exact ⟨ht, sh1, sh2, h2, h3, rfl⟩
  · rintro ⟨ht, sh1, sh2, h2, h3, rfl⟩
    exact ⟨_, defineShapes_ok _ _ _ _ ht, sh1, h2, sh2, h3, rfl⟩

/-- The export succeeds exactly for the schemas that are ready for it. -/
theorem fromSadl_ok (order : GoMap (GoMap Value) → GoMap (GoMap Value)) (suf : Suffixes) (m : Model) (ns : String) :
    (∃ ast, fromSadl order suf m ns = .ok ast) ↔ SmithyReady suf m.schema := by
  have hE : ∀ (s : Schema), (∀ h ∈ s.http, ∃ l, sadlExamplesForAction order s h = .ok l) ↔
      (∀ h ∈ s.http, ∀ ex ∈ s.examples, ex.target = capitalize h.name ++ "Request" → IsObject ex.example) ∧
      ∀ h ∈ s.http, ∀ ex ∈ s.examples,
        (ex.target = capitalize h.name ++ "Response" ∨ ∃ x ∈ h.exceptions, x.type = ex.target) →
        (∃ rq ∈ s.examples, rq.target = capitalize h.name ++ "Request" ∧ rq.name = ex.name) → IsObject ex.example := by
    intro s
    simp only [sadlExamples_ok]
    exact ⟨fun h => ⟨fun a ha => (h a ha).1, fun a ha => (h a ha).2⟩, fun h a ha => ⟨h.1 a ha, h.2 a ha⟩⟩
  have hW : ∀ sh, (∃ r, withExamples order ns m.schema sh = .ok r) ↔
      ∀ h ∈ m.schema.http, ∃ l, sadlExamplesForAction order m.schema h = .ok l := by
    intro sh
    unfold withExamples
    by_cases he : m.schema.examples = []
    · rw [hE]; simp [he]
    · rw [if_pos he, examplesFromSadl_ok]
  have hK : ∀ n, ns ++ "#" ++ n ∈ (typeShapes ns m.schema.types []).map Prod.fst ↔ Named m.schema n := by
    intro n
    simp [typeShapes_keys, ns_inj, Named, eq_comm]
  simp only [fromSadl_steps]
  constructor
  · rintro ⟨ast, ht, sh1, sh2, h2, h3, _⟩
    obtain ⟨h4, h5, h6⟩ := (exportActions_ok suf ns m.schema.base m.schema.http _).1 ⟨_, h2⟩
    have h7 := (hE _).1 ((hW _).1 ⟨_, h3⟩)
    exact ⟨ht, h4, h5, (errorsOk_iff _ _ _).1 ((errorsOk_congr suf hK _).1 h6), h7.1, h7.2⟩
  · intro h
    obtain ⟨sh1, h2⟩ := (exportActions_ok suf ns m.schema.base m.schema.http (typeShapes ns m.schema.types [])).2
      ⟨h.expected, h.paginated, (errorsOk_congr suf hK _).2 ((errorsOk_iff _ _ _).2 h.exceptions)⟩
    obtain ⟨sh2, h3⟩ := (hW (serviceShapes suf ns m.schema sh1)).2 ((hE _).2 ⟨h.requests, h.responses⟩)
    exact ⟨_, h.types, sh1, sh2, h2, h3, rfl⟩

end Smithy
end Sadl
