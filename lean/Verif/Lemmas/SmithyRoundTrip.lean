import Verif.Lemmas.SmithyActionBack
import Verif.Lemmas.NewModel
/-
Lemmas about the Smithy import of an exported AST.
-/
namespace Sadl
open Smithy Spec
namespace Smithy

/-- An exported AST that has arrived. -/
structure Trip (T : Transport) (suf : Suffixes) (ns : String) (s : Schema) (f : String → Shape → Shape) (ast : Ast) : Prop where
  hash : '#' ∉ ns.toList
  prelude : ns ≠ "smithy.api"
  clash : NoClash suf s
  names : ∀ h ∈ s.http, h.name ≠ ""
  methods : ∀ h ∈ s.http, h.method ≠ ""
  bases : ∀ td ∈ s.types, td.ts.type ∈ SmithyBases
  uuid : ∀ td ∈ s.types, td.name ≠ "UUID"
  ready : ∀ h ∈ s.http, actionShape s.base h = .ok (opShape s.base h)
  expected : ∀ h ∈ s.http, h.expected ≠ none
  exceptions : ∀ h ∈ s.http, ∀ x ∈ h.exceptions, ∃ td ∈ s.types, td.name = x.type
  adds : AddsExamples ns s.http f
  shapes : ast.shapes = (layout suf ns s).map fun kv => (kv.1, T.shape (f kv.1 kv.2))

variable {lib : SLib} {T : Transport} {suf : Suffixes} {ns : String} {s : Schema} {f : String → Shape → Shape} {ast : Ast}

theorem Trip.find (t : Trip T suf ns s f ast) {k : String} {sh : Shape} (h : (k, sh) ∈ layout suf ns s) :
    mget ast.shapes k = some (T.shape (f k sh)) := by
  apply mget_of_mem
  · rw [t.shapes, GoMap.Distinct, List.map_map]
    exact layout_distinct t.clash
  · rw [t.shapes]
    exact List.mem_map.2 ⟨(k, sh), h, rfl⟩

theorem opName_of {h : HttpDef} (hn : h.name ≠ "") : OpName h = capitalize h.name := by simp [OpName, hn]

theorem Trip.fixed (t : Trip T suf ns s f ast) {n : String} (sh : Shape) (hn : ∀ h ∈ s.http, n ≠ OpName h) : f (q ns n) sh = sh := by
  apply t.adds.others
  intro h hh e
  exact hn h hh (by rw [opName_of (t.names h hh)]; exact q_inj.1 e)

/-! ### Names are apart -/

theorem Trip.type_op (t : Trip T suf ns s f ast) {td : TypeDef} (htd : td ∈ s.types) {h : HttpDef} (hh : h ∈ s.http) : td.name ≠ OpName h := by
  have hc := t.clash
  unfold NoClash ShapeNames at hc
  have h2 := (List.nodup_append.1 (List.nodup_append.1 (List.nodup_append.1 hc).1).1).2.2
  exact h2 _ (List.mem_map.2 ⟨td, htd, rfl⟩) _ (List.mem_flatMap.2 ⟨h, hh, by simp⟩)

theorem Trip.type_io (t : Trip T suf ns s f ast) {td : TypeDef} (htd : td ∈ s.types) {h : HttpDef} (hh : h ∈ s.http) :
    td.name ∉ IoNames suf h := by
  have hc := t.clash
  unfold NoClash ShapeNames at hc
  have h2 := (List.nodup_append.1 (List.nodup_append.1 (List.nodup_append.1 hc).1).1).2.2
  exact fun hm => h2 _ (List.mem_map.2 ⟨td, htd, rfl⟩) _ (List.mem_flatMap.2 ⟨h, hh, by simp [hm]⟩) rfl

theorem Trip.type_plain (t : Trip T suf ns s f ast) {td : TypeDef} (htd : td ∈ s.types) {od : OperationDef} (ho : od ∈ s.operations) :
    td.name ∉ PlainIoNames suf od := by
  have hc := t.clash
  unfold NoClash ShapeNames at hc
  have h2 := (List.nodup_append.1 (List.nodup_append.1 hc).1).2.2
  exact fun hm => h2 _ (List.mem_append_left _ (List.mem_map.2 ⟨td, htd, rfl⟩)) _ (List.mem_flatMap.2 ⟨od, ho, by simp [hm]⟩) rfl

theorem Trip.op_plain (t : Trip T suf ns s f ast) {h : HttpDef} (hh : h ∈ s.http) {od : OperationDef} (ho : od ∈ s.operations)
    {n : String} (hn : n ∈ IoNames suf h ++ [OpName h]) : n ∉ PlainIoNames suf od ++ [capitalize od.name] := by
  have hc := t.clash
  unfold NoClash ShapeNames at hc
  have h2 := (List.nodup_append.1 (List.nodup_append.1 hc).1).2.2
  exact fun hm => h2 _ (List.mem_append_right _ (List.mem_flatMap.2 ⟨h, hh, hn⟩)) _ (List.mem_flatMap.2 ⟨od, ho, hm⟩) rfl

theorem flatMap_apart {α : Type} {l : List α} {f : α → List String} {g : α → String} (hn : (l.flatMap fun a => f a ++ [g a]).Nodup)
    {a b : α} (ha : a ∈ l) (hb : b ∈ l) : g a ∉ f b := by
  induction l with
  | nil => simp at ha
  | cons x r ih =>
    rw [List.flatMap_cons, List.nodup_append] at hn
    intro hm
    rcases List.mem_cons.1 ha with rfl | ha' <;> rcases List.mem_cons.1 hb with rfl | hb'
    · exact (List.nodup_append.1 hn.1).2.2 _ hm _ (by simp) rfl
    · exact hn.2.2 (g a) (by simp) (g a) (List.mem_flatMap.2 ⟨b, hb', by simp [hm]⟩) rfl
    · exact hn.2.2 (g a) (by simp [hm]) (g a) (List.mem_flatMap.2 ⟨a, ha', by simp⟩) rfl
    · exact ih hn.2.1 ha' hb' hm

theorem Trip.op_io (t : Trip T suf ns s f ast) {a b : HttpDef} (ha : a ∈ s.http) (hb : b ∈ s.http) : OpName a ∉ IoNames suf b := by
  have hc := t.clash
  unfold NoClash ShapeNames at hc
  have h2 := (List.nodup_append.1 (List.nodup_append.1 (List.nodup_append.1 hc).1).1).2.1
  exact flatMap_apart h2 ha hb

theorem Trip.plain_io (t : Trip T suf ns s f ast) {a b : OperationDef} (ha : a ∈ s.operations) (hb : b ∈ s.operations) :
    capitalize a.name ∉ PlainIoNames suf b := by
  have hc := t.clash
  unfold NoClash ShapeNames at hc
  have h2 := (List.nodup_append.1 (List.nodup_append.1 hc).1).2.1
  exact flatMap_apart h2 ha hb

/-! ### The scan -/

/-- The structures for inputs and outputs of a shape. -/
def ioOf (sh : Shape) : List String := if sh.type = "operation" then sh.input.toList ++ sh.output.toList else []

theorem scan_none (service : String) (l : GoMap Shape) (hl : ∀ kv ∈ l, kv.2.type ≠ "service") (found : String × String) (io : List String)
    (rest : GoMap Shape) : scanShapes service (l ++ rest) found io = scanShapes service rest found (io ++ l.flatMap fun kv => ioOf kv.2) := by
  induction l generalizing io with
  | nil => simp
  | cons kv r ih =>
    obtain ⟨k, sh⟩ := kv
    have h1 := hl (k, sh) (by simp)
    simp only [List.cons_append, scanShapes, if_neg h1]
    by_cases h2 : sh.type = "operation"
    · rw [if_pos h2, ih fun kv hkv => hl kv (by simp [hkv])]
      simp [ioOf, h2]
    · rw [if_neg h2, ih fun kv hkv => hl kv (by simp [hkv])]
      simp [ioOf, h2]

/-- The names of the structures of inputs and outputs. -/
def allIo (suf : Suffixes) (ns : String) (s : Schema) : List String :=
  (s.http.flatMap (IoNames suf)).map (q ns) ++ (s.operations.flatMap (PlainIoNames suf)).map (q ns)

/-- Everything but the service. -/
def layoutBody (suf : Suffixes) (ns : String) (s : Schema) : GoMap Shape :=
  s.types.map (fun td => (q ns td.name, marks ns (s.http.flatMap (·.exceptions)) (q ns td.name) (typeShape ns td))) ++
  s.http.flatMap (actionPairs suf ns s.base) ++ s.operations.flatMap (plainPairs suf ns)

/-- What arrives of a shape. -/
def arrive (T : Transport) (f : String → Shape → Shape) (kv : String × Shape) : String × Shape := (kv.1, T.shape (f kv.1 kv.2))

theorem f_type (hf : AddsExamples ns s.http f) (k : String) (sh : Shape) :
    (f k sh).type = sh.type ∧ (f k sh).input = sh.input ∧ (f k sh).output = sh.output ∧ (f k sh).errors = sh.errors ∧
    (f k sh).members = sh.members := by
  rcases hf.adds k sh with e | ⟨v, e⟩ <;> rw [e] <;> simp [Shape.put]

theorem ioOf_arrive (hf : AddsExamples ns s.http f) (kv : String × Shape) : ioOf (arrive T f kv).2 = ioOf kv.2 := by
  obtain ⟨h1, h2, h3, _⟩ := f_type hf kv.1 kv.2
  simp only [ioOf, arrive, Transport.shape, h1, h2, h3]

theorem bare_type (ns : String) (td : TypeDef) : (bareShape ns td).type ≠ "service" ∧ (bareShape ns td).type ≠ "operation" := by
  unfold bareShape
  simp only []
  split_ifs with h1
  · have e : (shapeFromNumber td.ts).type = numberShapeType td.ts.type := by
      unfold shapeFromNumber
      cases rangeTrait td.ts.min td.ts.max <;> rfl
    rw [e]
    exact (by decide : ∀ x ∈ numberTypes, numberShapeType x ≠ "service" ∧ numberShapeType x ≠ "operation") _ h1
  · rw [(string_traits td.ts).2.2.2.2]; decide
  · exact (by decide : "enum" ≠ "service" ∧ "enum" ≠ "operation")
  · exact (by decide : "structure" ≠ "service" ∧ "structure" ≠ "operation")
  · unfold shapeFromArray
    cases lengthTrait td.ts.minSize td.ts.maxSize <;> (simp only [Shape.putOpt, Shape.put]; split_ifs <;> decide)
  · exact (by decide : "union" ≠ "service" ∧ "union" ≠ "operation")
  · unfold shapeFromMap
    cases lengthTrait td.ts.minSize td.ts.maxSize <;> (simp only [Shape.putOpt, Shape.put]; decide)
  · exact (by decide : "string" ≠ "service" ∧ "string" ≠ "operation")

theorem type_shape_type (ns : String) (td : TypeDef) (xs : List HttpExceptionSpec) :
    (marks ns xs (q ns td.name) (typeShape ns td)).type ≠ "service" ∧ (marks ns xs (q ns td.name) (typeShape ns td)).type ≠ "operation" := by
  have hm := marks_marked ns xs (q ns td.name) (typeShape ns td)
  have e : (marks ns xs (q ns td.name) (typeShape ns td)).type = (bareShape ns td).type := by
    rw [hm.type, (typeShape_same ns td).1]
  rw [e]
  exact bare_type ns td

theorem Trip.opTraits (t : Trip T suf ns s f ast) {h : HttpDef} (hh : h ∈ s.http) : OpTraits s.base h (opShape s.base h) :=
  actionShape_traits (t.ready h hh)

theorem Trip.op_input (t : Trip T suf ns s f ast) {h : HttpDef} (hh : h ∈ s.http) :
    (withIo suf ns h (opShape s.base h)).input = if h.inputs = [] then none else some (q ns (OpName h ++ suf.input)) := by
  by_cases a : h.inputs = [] <;> simp [withIo, a, (t.opTraits hh).input, q]

theorem Trip.op_output (t : Trip T suf ns s f ast) {h : HttpDef} (hh : h ∈ s.http) :
    (withIo suf ns h (opShape s.base h)).output = if ActionOutputs h = [] then none else some (q ns (OpName h ++ suf.output)) := by
  by_cases a : ActionOutputs h = [] <;> simp [withIo, a, (t.opTraits hh).output, q]

theorem plain_input (suf : Suffixes) (ns : String) (od : OperationDef) :
    (plainOpShape suf ns od).input = if od.inputs = [] then none else some (q ns (capitalize od.name ++ suf.input)) := rfl

theorem plain_output (suf : Suffixes) (ns : String) (od : OperationDef) :
    (plainOpShape suf ns od).output = if od.outputs = [] then none else some (q ns (capitalize od.name ++ suf.output)) := rfl

theorem Trip.body_service (t : Trip T suf ns s f ast) : ∀ kv ∈ (layoutBody suf ns s).map (arrive T f), kv.2.type ≠ "service" := by
  intro kv hkv
  obtain ⟨kv', h1, rfl⟩ := List.mem_map.1 hkv
  have e : (arrive T f kv').2.type = kv'.2.type := (f_type t.adds kv'.1 kv'.2).1
  rw [e]
  unfold layoutBody at h1
  simp only [List.mem_append] at h1
  rcases h1 with (h1 | h1) | h1
  · obtain ⟨td, _, rfl⟩ := List.mem_map.1 h1
    exact (type_shape_type ns td _).1
  · obtain ⟨h, hh, h2⟩ := List.mem_flatMap.1 h1
    unfold actionPairs ioPairs at h2
    simp only [List.mem_append, List.mem_cons, List.not_mem_nil, or_false] at h2
    rcases h2 with (h2 | h2) | rfl
    · split at h2
      · simp at h2
      · simp only [List.mem_cons, List.not_mem_nil, or_false] at h2
        subst h2
        exact (by decide : "structure" ≠ "service")
    · split at h2
      · simp at h2
      · simp only [List.mem_cons, List.not_mem_nil, or_false] at h2
        subst h2
        exact (by decide : "structure" ≠ "service")
    · rw [show (withIo suf ns h (opShape s.base h)).type = "operation" from (t.opTraits hh).type]
      decide
  · obtain ⟨od, _, h2⟩ := List.mem_flatMap.1 h1
    unfold plainPairs plainIoPairs at h2
    simp only [List.mem_append, List.mem_cons, List.not_mem_nil, or_false] at h2
    rcases h2 with (h2 | h2) | rfl
    · split at h2
      · simp at h2
      · simp only [List.mem_cons, List.not_mem_nil, or_false] at h2
        subst h2
        exact (by decide : "structure" ≠ "service")
    · split at h2
      · simp at h2
      · simp only [List.mem_cons, List.not_mem_nil, or_false] at h2
        subst h2
        exact (by decide : "structure" ≠ "service")
    · exact (by decide : "operation" ≠ "service")

theorem Trip.body_io (t : Trip T suf ns s f ast) : ((layoutBody suf ns s).map (arrive T f)).flatMap (fun kv => ioOf kv.2) = allIo suf ns s := by
  rw [List.flatMap_map]
  simp only [ioOf_arrive t.adds]
  unfold layoutBody allIo
  rw [List.flatMap_append, List.flatMap_append, List.flatMap_map]
  have h1 : (s.types.flatMap fun td => ioOf (marks ns (s.http.flatMap (·.exceptions)) (q ns td.name) (typeShape ns td))) = [] := by
    rw [List.flatMap_eq_nil_iff]
    intro td _
    simp [ioOf, (type_shape_type ns td _).2]
  have h2 : (s.http.flatMap (actionPairs suf ns s.base)).flatMap (fun kv => ioOf kv.2) = (s.http.flatMap (IoNames suf)).map (q ns) := by
    rw [List.flatMap_assoc, List.map_flatMap]
    refine List.flatMap_congr fun h hh => ?_
    have ho := t.opTraits hh
    unfold actionPairs ioPairs IoNames
    have e : (withIo suf ns h (opShape s.base h)).type = "operation" := ho.type
    have e1 : ioOf (inputShape ns h) = [] := by simp [ioOf, inputShape, Shape.put]
    have e2 : ioOf (outputShape ns h) = [] := by simp [ioOf, outputShape, Shape.put]
    have e3 : ioOf (withIo suf ns h (opShape s.base h)) = (withIo suf ns h (opShape s.base h)).input.toList ++
        (withIo suf ns h (opShape s.base h)).output.toList := by simp only [ioOf, e, if_true]
    by_cases a : h.inputs = [] <;> by_cases b : ActionOutputs h = [] <;>
      simp [a, b, e1, e2, e3, t.op_input hh, t.op_output hh]
  have h3 : (s.operations.flatMap (plainPairs suf ns)).flatMap (fun kv => ioOf kv.2) = (s.operations.flatMap (PlainIoNames suf)).map (q ns) := by
    rw [List.flatMap_assoc, List.map_flatMap]
    refine List.flatMap_congr fun od _ => ?_
    unfold plainPairs plainIoPairs PlainIoNames
    have e1 : ∀ ps, ioOf (plainShape ns ps) = [] := by intro ps; simp [ioOf, plainShape]
    have e3 : ioOf (plainOpShape suf ns od) = (plainOpShape suf ns od).input.toList ++ (plainOpShape suf ns od).output.toList := by
      simp [ioOf, plainOpShape, Shape.put]
    by_cases a : od.inputs = [] <;> by_cases b : od.outputs = [] <;>
      simp [a, b, e1, e3, plain_input, plain_output]
  rw [h1, h2, h3, List.nil_append]

/-- The AST is the body and the service. -/
theorem Trip.parts (t : Trip T suf ns s f ast) : ∃ sv, ast.shapes = (layoutBody suf ns s).map (arrive T f) ++ sv ∧
    (sv = [] ∨ ∃ k sh, sv = [(k, sh)] ∧ sh.type = "service") := by
  rw [t.shapes]
  by_cases h : s.http = [] ∧ s.operations = []
  · refine ⟨[], ?_, .inl rfl⟩
    simp [layout, layoutBody, h, arrive]
  · refine ⟨[arrive T f (q ns (capitalize s.name), serviceShape s (opTargets ns s))], ?_, .inr ⟨_, _, rfl, ?_⟩⟩
    · unfold layout layoutBody
      rw [if_neg h, List.map_append]
      rfl
    · have : (serviceShape s (opTargets ns s)).type = "service" := by
        by_cases c : s.comment = "" <;> simp [serviceShape, c, Shape.put]
      simp only [Transport.shape]
      rw [(f_type t.adds _ _).1, this]

theorem Trip.scan (t : Trip T suf ns s f ast) (service : String) :
    ∃ found, scanShapes service ast.shapes ("", "") [] = .ok (found, allIo suf ns s) := by
  obtain ⟨sv, e, h⟩ := t.parts
  rw [e, scan_none service _ t.body_service, t.body_io, List.nil_append]
  rcases h with rfl | ⟨k, sh, rfl, h⟩
  · exact ⟨_, rfl⟩
  · simp only [scanShapes, if_pos h]
    split_ifs
    · exact ⟨_, rfl⟩
    · exact ⟨_, rfl⟩
    · exact absurd rfl ‹"" ≠ ""›
    · exact ⟨_, rfl⟩

/-! ### Actions -/

theorem layout_action {h : HttpDef} (hh : h ∈ s.http) {kv : String × Shape} (hm : kv ∈ actionPairs suf ns s.base h) : kv ∈ layout suf ns s := by
  unfold layout
  simp only [List.mem_append]
  exact .inl (.inl (.inr (List.mem_flatMap.2 ⟨h, hh, hm⟩)))

theorem layout_plain {od : OperationDef} (ho : od ∈ s.operations) {kv : String × Shape} (hm : kv ∈ plainPairs suf ns od) :
    kv ∈ layout suf ns s := by
  unfold layout
  simp only [List.mem_append]
  exact .inl (.inr (List.mem_flatMap.2 ⟨od, ho, hm⟩))

theorem layout_type {td : TypeDef} (ht : td ∈ s.types) :
    (q ns td.name, marks ns (s.http.flatMap (·.exceptions)) (q ns td.name) (typeShape ns td)) ∈ layout suf ns s := by
  unfold layout
  simp only [List.mem_append]
  exact .inl (.inl (.inl (List.mem_map.2 ⟨td, ht, rfl⟩)))

theorem q_unit (hash : '#' ∉ ns.toList) (hp : ns ≠ "smithy.api") (n : String) : q ns n ≠ "smithy.api#Unit" := by
  intro e
  have h1 := congrArg String.toList e
  have h2 : (q ns n).toList = ns.toList ++ '#' :: n.toList := by simp [q, String.toList_append]
  rw [h2] at h1
  have h3 := congrArg (splitFirst '#') h1
  rw [splitFirst_some_of _ hash] at h3
  have h4 : splitFirst '#' "smithy.api#Unit".toList = some ("smithy.api".toList, "Unit".toList) := by decide
  rw [h4] at h3
  simp only [Option.some.injEq, Prod.mk.injEq] at h3
  exact hp (String.toList_inj.1 h3.1)

/-- The structure for the inputs arrives. -/
theorem Trip.find_input (t : Trip T suf ns s f ast) {h : HttpDef} (hh : h ∈ s.http) (hi : h.inputs ≠ []) :
    mget ast.shapes (q ns (OpName h ++ suf.input)) = some (T.shape (inputShape ns h)) := by
  have h1 : (q ns (OpName h ++ suf.input), inputShape ns h) ∈ actionPairs suf ns s.base h := by
    unfold actionPairs ioPairs
    simp [hi]
  rw [t.find (layout_action hh h1), t.fixed]
  intro h' hh' e
  exact t.op_io hh' hh (by rw [← e]; unfold IoNames; simp [hi])

theorem Trip.find_output (t : Trip T suf ns s f ast) {h : HttpDef} (hh : h ∈ s.http) (hi : ActionOutputs h ≠ []) :
    mget ast.shapes (q ns (OpName h ++ suf.output)) = some (T.shape (outputShape ns h)) := by
  have h1 : (q ns (OpName h ++ suf.output), outputShape ns h) ∈ actionPairs suf ns s.base h := by
    unfold actionPairs ioPairs
    simp [hi]
  rw [t.find (layout_action hh h1), t.fixed]
  intro h' hh' e
  exact t.op_io hh' hh (by rw [← e]; unfold IoNames; simp [hi])

theorem Trip.find_type (t : Trip T suf ns s f ast) {td : TypeDef} (ht : td ∈ s.types) :
    mget ast.shapes (q ns td.name) = some (T.shape (marks ns (s.http.flatMap (·.exceptions)) (q ns td.name) (typeShape ns td))) := by
  rw [t.find (layout_type ht), t.fixed]
  exact fun h hh => t.type_op ht hh

theorem input_members (T : Transport) (ns : String) (h : HttpDef) (hn : (h.inputs.map (·.field.name)).Nodup) :
    (T.shape (inputShape ns h)).members = h.inputs.map fun p => (p.field.name, inputMember ns p) := by
  have : (inputShape ns h).members = h.inputs.map fun p => (p.field.name, inputMember ns p) := by
    have := paramMembers_fresh (inputMember ns) h.inputs [] (by simpa using hn)
    simpa [inputShape, Shape.put] using this
  simp only [Transport.shape, this, List.map_map, Function.comp_def, inputMember_arrives]

theorem output_members (T : Transport) (ns : String) (h : HttpDef) (hn : ((ActionOutputs h).map (·.field.name)).Nodup) :
    (T.shape (outputShape ns h)).members = (ActionOutputs h).map fun p => (p.field.name, outputMember ns p) := by
  have : (outputShape ns h).members = (ActionOutputs h).map fun p => (p.field.name, outputMember ns p) := by
    have := paramMembers_fresh (outputMember ns) (ActionOutputs h) [] (by simpa using hn)
    simpa [outputShape, Shape.put] using this
  simp only [Transport.shape, this, List.map_map, Function.comp_def, outputMember_arrives]

theorem forall₂_map {α β γ : Type} {R : α → γ → Prop} (g : β → γ) (k : α → β) (l : List α) (h : ∀ a ∈ l, R a (g (k a))) :
    List.Forall₂ R l ((l.map k).map g) := by
  induction l with
  | nil => exact .nil
  | cons a r ih => exact .cons (h a (by simp)) (ih fun b hb => h b (by simp [hb]))

/-- The inputs of an action come back. -/
theorem Trip.inputs_back (t : Trip T suf ns s f ast) (lib : SLib) {h : HttpDef} (hh : h ∈ s.http) (hk : ActionKept lib T s h) :
    ∃ ps, importInputs lib ast (if h.inputs = [] then none else some (q ns (OpName h ++ suf.input))) = (ps, QueryText h.inputs) ∧
      List.Forall₂ SameParam h.inputs ps := by
  by_cases hi : h.inputs = []
  · refine ⟨[], ?_, by rw [hi]; exact .nil⟩
    simp [hi, importInputs, QueryText]
  · rw [if_neg hi]
    simp only [importInputs, if_neg (q_unit t.hash t.prelude _), t.find_input hh hi, input_members T ns h hk.inputNames]
    have hb : bindsInput lib (h.inputs.map fun p => (p.field.name, inputMember ns p)) = true := by
      rcases hk.bound with hc | ⟨p, hp, hc⟩
      · exact absurd hc hi
      · unfold bindsInput
        rw [List.any_eq_true]
        refine ⟨_, List.mem_map.2 ⟨p, hp, rfl⟩, ?_⟩
        obtain ⟨_, a2, _, _, _, a6, a7⟩ := input_traits lib ns p
        simp only [a2, a6, a7]
        by_cases c1 : p.path = true
        · simp [c1]
        · rcases hc with hc | ⟨c2, c3⟩ | ⟨c2, c3⟩
          · exact absurd hc c1
          · simp [c1, c2, c3]
          · simp [c1, c2, c3]
    rw [if_pos hb]
    refine ⟨(h.inputs.map fun p => (p.field.name, inputMember ns p)).map (importInput lib), ?_, ?_⟩
    · rw [queryString_text ns h.inputs fun p hp c => ((hk.inputs p hp).2.1 c).1]
    · exact forall₂_map _ _ _ fun p hp =>
        input_back lib ns t.hash t.prelude p (hk.inputs p hp).1 (hk.inputs p hp).2.1 (hk.inputs p hp).2.2

theorem Trip.outputs_ok (t : Trip T suf ns s f ast) (lib : SLib) {h : HttpDef} (hh : h ∈ s.http) :
    ∃ ps, importOutputs lib ast (if ActionOutputs h = [] then none else some (q ns (OpName h ++ suf.output))) = .ok ps := by
  by_cases hi : ActionOutputs h = []
  · exact ⟨[], by simp [hi, importOutputs]⟩
  · simp only [if_neg hi, importOutputs, if_neg (q_unit t.hash t.prelude _), membersOf, t.find_output hh hi]
    split_ifs
    · exact ⟨_, rfl⟩
    · exact ⟨_, rfl⟩

theorem Trip.outputs_back (t : Trip T suf ns s f ast) (lib : SLib) {h : HttpDef} (hh : h ∈ s.http)
    (hn : ((ActionOutputs h).map (·.field.name)).Nodup)
    (ho : ∀ p ∈ ActionOutputs h, ParamTypeKept p ∧ p.path = false ∧ p.query = "")
    (hb : ActionOutputs h = [] ∨ ∃ p ∈ ActionOutputs h, p.header = "") :
    ∃ ps, importOutputs lib ast (if ActionOutputs h = [] then none else some (q ns (OpName h ++ suf.output))) = .ok ps ∧
      List.Forall₂ SameParam (ActionOutputs h) ps := by
  by_cases hi : ActionOutputs h = []
  · exact ⟨[], by simp [hi, importOutputs], by rw [hi]; exact .nil⟩
  · simp only [if_neg hi, importOutputs, if_neg (q_unit t.hash t.prelude _), membersOf, t.find_output hh hi, output_members T ns h hn]
    have hb : bindsOutput lib ((ActionOutputs h).map fun p => (p.field.name, outputMember ns p)) = true := by
      rcases hb with hc | ⟨p, hp, hc⟩
      · exact absurd hc hi
      · unfold bindsOutput
        rw [List.any_eq_true]
        refine ⟨_, List.mem_map.2 ⟨p, hp, rfl⟩, ?_⟩
        obtain ⟨_, a2, _, _, _, a6⟩ := output_traits lib ns p
        simp [a6, hc]
    rw [if_pos hb]
    exact ⟨_, rfl, forall₂_map _ _ _ fun p hp => output_back lib ns t.hash t.prelude p (ho p hp).1 (ho p hp).2.1 (ho p hp).2.2⟩

theorem Trip.errors_back (t : Trip T suf ns s f ast) (lib : SLib) (xs : List HttpExceptionSpec)
    (hx : ∀ x ∈ xs, ∃ h ∈ s.http, x ∈ h.exceptions) :
    ∃ ys, importErrors lib ast (xs.map fun x => q ns x.type) = .ok ys ∧
      ((∀ x ∈ xs, StatusKept lib T x.status ∧ ∀ h' ∈ s.http, ∀ x' ∈ h'.exceptions, x'.type = x.type → x'.status = x.status) →
        List.Forall₂ (fun x x' => x'.type = x.type ∧ x'.status = x.status) xs ys) := by
  induction xs with
  | nil => exact ⟨[], rfl, fun _ => .nil⟩
  | cons x r ih =>
    obtain ⟨ys, h1, h2⟩ := ih fun y hy => hx y (by simp [hy])
    obtain ⟨h, hh, hxm⟩ := hx x (by simp)
    obtain ⟨td, htd, hname⟩ := t.exceptions h hh x hxm
    have hfind := t.find_type htd
    rw [hname] at hfind
    simp only [List.map_cons, importErrors, hfind, h1, Out.bind_ok]
    refine ⟨_, rfl, fun hk => .cons ⟨?_, ?_⟩ (h2 fun y hy => hk y (by simp [hy]))⟩
    · show shapeRefToTypeRef (q ns x.type) = x.type
      rw [q, shapeRef_qualified ns x.type (.inl t.prelude), stripNamespace_qualified ns x.type t.hash]
    · obtain ⟨⟨_, k2, k3, k4⟩, k5⟩ := hk x (by simp)
      have hst := marks_status ns (s.http.flatMap (·.exceptions)) x.type x.status (typeShape ns td)
        ⟨x, List.mem_flatMap.2 ⟨h, hh, hxm⟩, rfl⟩ (by
          intro x' hx' e
          obtain ⟨h', hh', hx''⟩ := List.mem_flatMap.1 hx'
          exact k5 h' hh' x' hx'' e)
      simp only [Transport.shape, Traits.int, mget_traits, hst, Option.map_some, k4, toInt32_id _ k2 k3]

/-- The operation shape of an action arrives with its traits. -/
theorem Trip.op_arrives (t : Trip T suf ns s f ast) {h : HttpDef} (hh : h ∈ s.http) :
    ∃ sh, OpTraits s.base h sh ∧ (f (q ns (OpName h)) (withIo suf ns h (opShape s.base h))).traits = sh.traits := by
  have ho := t.opTraits hh
  rcases t.adds.adds (q ns (OpName h)) (withIo suf ns h (opShape s.base h)) with e | ⟨v, e⟩
  · exact ⟨_, ho, by rw [e]; rfl⟩
  · exact ⟨_, opTraits_put ho "smithy.api#examples" v (by decide), by rw [e]; rfl⟩

theorem tags_seen (lib : SLib) (ast : Ast) (T : Transport) (annos : GoMap String) (h : TagsKept T annos) (tr : Traits)
    (hs : seen tr = match mget annos "x_tags" with | some t => [("smithy.api#tags", splitTags t)] | none => []) :
    importTraits lib ast (T.traits tr) [] = .ok annos := by
  have := tags_import lib ast T annos h {} rfl
  rw [importTraits_seen, seen_traits] at this ⊢
  rw [hs]
  rcases h with rfl | ⟨t, rfl, ht, hT⟩
  · exact this
  · have e : seen (annotationTraits [("x_tags", t)] ({} : Shape)).traits = [("smithy.api#tags", splitTags t)] := by
      simp only [annotationTraits, if_true, Shape.put]
      rw [seen_mset _ _ _ (by decide)]
      rfl
    rw [e] at this
    exact this

theorem tags_paginated (T : Transport) (annos : GoMap String) (h : TagsKept T annos) : mget annos "x_paginated" = none := by
  rcases h with rfl | ⟨t, rfl, ht, hT⟩ <;> simp [mget]

/-- The code that is read. -/
def codeOf (lib : SLib) (kvs : GoMap Value) : Int :=
  match mget kvs "code" with
  | some v => lib.int v
  | none => 0

/-- The fields of the `http` trait after the transport. -/
theorem http_fields (T : Transport) (lib : SLib) (uri method : String) (code : Int) :
    ∃ kvs, asMap (T.carry (httpTrait uri method code)) = some kvs ∧ asString (getKey kvs "method") = method ∧
      asString (getKey kvs "uri") = uri ∧
      codeOf lib kvs = if code ≠ 0 then lib.int (T.carry (.int code)) else 0 := by
  unfold httpTrait
  rw [T.obj]
  refine ⟨_, rfl, ?_, ?_, ?_⟩
  · simp [getKey, mget, T.str, asString]
  · simp [getKey, mget, T.str, asString]
  · by_cases h : code = 0 <;> simp [h, mget, codeOf]

theorem Trip.op_not_io (t : Trip T suf ns s f ast) {h : HttpDef} (hh : h ∈ s.http) : q ns (OpName h) ∉ allIo suf ns s := by
  unfold allIo
  intro hm
  simp only [List.mem_append, List.mem_map, List.mem_flatMap] at hm
  rcases hm with ⟨n, ⟨h', hh', hn⟩, e⟩ | ⟨n, ⟨od, ho, hn⟩, e⟩
  · rw [q_inj.1 e] at hn
    exact t.op_io hh hh' hn
  · rw [q_inj.1 e] at hn
    exact t.op_plain hh ho (n := OpName h) (by simp) (by simp [hn])

theorem Trip.type_not_io (t : Trip T suf ns s f ast) {td : TypeDef} (ht : td ∈ s.types) : q ns td.name ∉ allIo suf ns s := by
  unfold allIo
  intro hm
  simp only [List.mem_append, List.mem_map, List.mem_flatMap] at hm
  rcases hm with ⟨n, ⟨h', hh', hn⟩, e⟩ | ⟨n, ⟨od, ho, hn⟩, e⟩
  · rw [q_inj.1 e] at hn
    exact t.type_io ht hh' hn
  · rw [q_inj.1 e] at hn
    exact t.type_plain ht ho hn

theorem Trip.plain_not_io (t : Trip T suf ns s f ast) {od : OperationDef} (ho : od ∈ s.operations) :
    q ns (capitalize od.name) ∉ allIo suf ns s := by
  unfold allIo
  intro hm
  simp only [List.mem_append, List.mem_map, List.mem_flatMap] at hm
  rcases hm with ⟨n, ⟨h', hh', hn⟩, e⟩ | ⟨n, ⟨od', ho', hn⟩, e⟩
  · rw [q_inj.1 e] at hn
    exact t.op_plain hh' ho (n := capitalize od.name) (by simp [hn]) (by simp)
  · rw [q_inj.1 e] at hn
    exact t.plain_io ho ho' hn

/-- An action after the round trip. -/
def ActionBecomes (lib : SLib) (T : Transport) (s : Schema) (h h' : HttpDef) : Prop :=
  h'.name = uncapitalize (OpName h) ∧ (ActionKept lib T s h → SameAction s.base h h')

theorem Trip.action_back (t : Trip T suf ns s f ast) (lib : SLib) {h : HttpDef} (hh : h ∈ s.http) :
    ∃ h' exs, ActionBecomes lib T s h h' ∧ ∀ acc, importShape lib suf ast (allIo suf ns s) (q ns (OpName h))
      (T.shape (f (q ns (OpName h)) (withIo suf ns h (opShape s.base h)))) acc =
        .ok { acc with examples := acc.examples ++ exs, http := acc.http ++ [h'] } := by
  obtain ⟨sh, ho, etr⟩ := t.op_arrives hh
  obtain ⟨e1, e2, e3, e4, e5⟩ := f_type t.adds (q ns (OpName h)) (withIo suf ns h (opShape s.base h))
  generalize hsh : f (q ns (OpName h)) (withIo suf ns h (opShape s.base h)) = sh0 at *
  obtain ⟨kvs, k1, k2, k3, k4⟩ := http_fields T lib (actionUri s.base h) h.method (statusOf h)
  have hhttp : ((T.shape sh0).traits.map "smithy.api#http").getD [] = kvs := by
    simp only [Transport.shape, Traits.map, mget_traits, etr, ho.http, Option.map_some]
    rw [k1]
    rfl
  obtain ⟨annos, ha⟩ := importTraits_ok lib ast (T.traits sh0.traits) [] (by
    intro kv hkv
    have h1 : kv.1 ∈ List.map Prod.fst sh0.traits := by rw [← keys_traits T]; exact List.mem_map.2 ⟨kv, hkv, rfl⟩
    rw [etr] at h1
    exact ho.keys _ h1)
  obtain ⟨outs, hout⟩ := t.outputs_ok lib hh
  obtain ⟨errs, herr, herr2⟩ := t.errors_back lib h.exceptions fun x hx => ⟨h, hh, hx⟩
  have hmem : q ns (OpName h) ∉ allIo suf ns s := t.op_not_io hh
  have hty : (T.shape sh0).type = "operation" := by
    simp only [Transport.shape]
    rw [e1]
    exact (t.opTraits hh).type
  have hin : (T.shape sh0).input = if h.inputs = [] then none else some (q ns (OpName h ++ suf.input)) := by
    simp only [Transport.shape]
    rw [e2, t.op_input hh]
  have hou : (T.shape sh0).output = if ActionOutputs h = [] then none else some (q ns (OpName h ++ suf.output)) := by
    simp only [Transport.shape]
    rw [e3, t.op_output hh]
  have her : (T.shape sh0).errors = h.exceptions.map fun x => q ns x.type := by
    simp only [Transport.shape]
    rw [e4]
    rfl
  have hdoc : docOf (T.shape sh0).traits = escapeComment h.comment := by
    simp only [docOf, Transport.shape, Traits.str, mget_traits, etr, ho.doc, Option.map_some, T.str, asString]
  have htraits : (T.shape sh0).traits = T.traits sh0.traits := rfl
  have himp : ∀ acc, importShape lib suf ast (allIo suf ns s) (q ns (OpName h)) (T.shape sh0) acc =
      importOperationShape lib suf ast (q ns (OpName h)) (T.shape sh0) acc := by
    intro acc
    unfold importShape
    rw [if_neg hmem]
    simp only [hty, numberShapes, List.mem_cons, List.not_mem_nil, String.reduceEq, or_false, if_false, if_true]
  simp only [himp]
  unfold importOperationShape
  simp only [hhttp, k2, k3, if_neg (t.methods h hh)]
  unfold importAction
  simp only [htraits, ha, hin, hou, her, hout, herr, Out.bind_ok]
  rw [← htraits, hdoc]
  refine ⟨_, _, ⟨?_, fun hk => ?_⟩, fun acc => rfl⟩
  · show uncapitalize (stripNamespace (q ns (OpName h))) = uncapitalize (OpName h)
    rw [strip_q ns t.hash]
  · obtain ⟨e, he, ⟨hs0, hs1, hs2, hs3⟩, hn, hop, hob⟩ := hk.expected
    have hao : ActionOutputs h = e.outputs := by simp [ActionOutputs, he]
    obtain ⟨outs', ho1, ho2⟩ := t.outputs_back lib hh (by rw [hao]; exact hn) (by rw [hao]; exact hop) (by rw [hao]; exact hob)
    rw [hout] at ho1
    injection ho1 with ho1
    obtain ⟨ps, hp1, hp2⟩ := t.inputs_back lib hh hk
    have hannos : annos = h.annotations := by
      have := tags_seen lib ast T h.annotations hk.annotations sh0.traits (by rw [etr]; exact ho.seen (tags_paginated T _ hk.annotations))
      rw [ha] at this
      injection this
    obtain ⟨uri, hu1, hu2⟩ := hk.path
    have hcode : codeOf lib kvs = e.status := by
      rw [k4, show statusOf h = e.status by simp [statusOf, he]]
      simp only [ne_eq, hs0, not_false_eq_true, if_true, hs3]
    refine ⟨?_, rfl, ?_, ?_, hannos, hk.resource.symm, ?_, ?_, herr2 hk.exceptions⟩
    · show uncapitalize (stripNamespace (q ns (OpName h))) = h.name
      rw [strip_q ns t.hash, opName_of hk.name.2, uncapitalize_capitalize _ hk.name.1]
    · show actionUri s.base h ++ (importInputs lib ast _).2 = s.base ++ h.path
      rw [hp1, actionUri_back s.base uri h hu1 hu2, hu2, String.append_assoc]
    · exact escapeComment_tidy _ hk.comment
    · show List.Forall₂ SameParam h.inputs (importInputs lib ast _).1
      rw [hp1]
      exact hp2
    · refine ⟨e, _, he, rfl, ?_, ?_⟩
      · show toInt32 (if codeOf lib kvs = 0 then 200 else codeOf lib kvs) = e.status
        rw [hcode, if_neg hs0, toInt32_id _ hs1 hs2]
      · rw [ho1, ← hao]
        exact ho2

/-! ### Operations without HTTP binding -/

theorem plainMembers_fresh (ns : String) (ps : List (String × String)) (ms : GoMap Member)
    (h : (ms.map Prod.fst ++ ps.map Prod.fst).Nodup) :
    plainMembers ns ps ms = ms ++ ps.map fun p => (p.1, { target := typeReferenceByName ns p.2 }) := by
  induction ps generalizing ms with
  | nil => simp [plainMembers]
  | cons p r ih =>
    have e : plainMembers ns (p :: r) ms = plainMembers ns r (mset ms p.1 { target := typeReferenceByName ns p.2 }) := rfl
    have h' : (ms.map Prod.fst ++ ((p.1, ({ target := typeReferenceByName ns p.2 } : Member)) ::
        r.map fun p => (p.1, ({ target := typeReferenceByName ns p.2 } : Member))).map Prod.fst).Nodup := by
      simpa [List.map_map, Function.comp_def] using h
    obtain ⟨h1, h2⟩ := append_fresh _ h'
    rw [e, h1, ih]
    · simp
    · simpa [List.map_map, Function.comp_def] using h2

theorem plain_members (T : Transport) (ns : String) (ps : List (String × String)) (h : (ps.map Prod.fst).Nodup) :
    (T.shape (plainShape ns ps)).members = ps.map fun p => (p.1, ({ target := typeReferenceByName ns p.2 } : Member)) := by
  have : (plainShape ns ps).members = ps.map fun p => (p.1, ({ target := typeReferenceByName ns p.2 } : Member)) := by
    have := plainMembers_fresh ns ps [] (by simpa using h)
    simpa [plainShape] using this
  simp only [Transport.shape, this, List.map_map]
  rfl

/-- An operation after the round trip. -/
def OperationBecomes (od od' : OperationDef) : Prop :=
  od'.name = uncapitalize (capitalize od.name) ∧ (OperationKept od → od' = od)

theorem Trip.plain_op (t : Trip T suf ns s f ast) {od : OperationDef} (ho : od ∈ s.operations) {h : HttpDef} (hh : h ∈ s.http) :
    ∀ n ∈ PlainIoNames suf od ++ [capitalize od.name], n ≠ OpName h := by
  intro n hn e
  exact t.op_plain hh ho (n := n) (by simp [e]) hn

theorem Trip.find_plain (t : Trip T suf ns s f ast) {od : OperationDef} (ho : od ∈ s.operations) {n : String} {sh : Shape}
    (hm : (q ns n, sh) ∈ plainPairs suf ns od) (hn : n ∈ PlainIoNames suf od ++ [capitalize od.name]) :
    mget ast.shapes (q ns n) = some (T.shape sh) := by
  rw [t.find (layout_plain ho hm), t.fixed]
  exact fun h hh => t.plain_op ho hh n hn

theorem Trip.operation_back (t : Trip T suf ns s f ast) (lib : SLib) {od : OperationDef} (ho : od ∈ s.operations) :
    ∃ od', OperationBecomes od od' ∧ ∀ acc, importShape lib suf ast (allIo suf ns s) (q ns (capitalize od.name))
      (T.shape (f (q ns (capitalize od.name)) (plainOpShape suf ns od))) acc = .ok { acc with operations := acc.operations ++ [od'] } := by
  rw [t.fixed _ fun h hh => t.plain_op ho hh _ (by simp)]
  have hmem := t.plain_not_io ho
  have htr : (T.shape (plainOpShape suf ns od)).traits = [("smithy.api#documentation", .str od.comment)] := by
    simp [Transport.shape, plainOpShape, Shape.put, mset, Transport.traits, T.str]
  have hin : ∃ ins, plainInputs lib ast (T.shape (plainOpShape suf ns od)).input = Out.ok ins ∧ (OperationKept od → ins = od.inputs) := by
    show ∃ ins, plainInputs lib ast (if od.inputs = [] then none else some (q ns (capitalize od.name ++ suf.input))) = Out.ok ins ∧
      (OperationKept od → ins = od.inputs)
    by_cases hi : od.inputs = []
    · simp [hi, plainInputs]
    · simp only [if_neg hi, membersOf, plainInputs]
      rw [t.find_plain ho (sh := plainShape ns (od.inputs.map fun p => (p.name, p.ts.type))) (by simp [plainPairs, plainIoPairs, hi])
        (by simp [PlainIoNames, hi])]
      simp only [Out.bind_ok]
      refine ⟨_, rfl, fun hk => ?_⟩
      rw [plain_members T ns _ (by simpa [List.map_map, Function.comp_def] using hk.inputNames)]
      simp only [importOpInputs, List.map_map]
      conv_rhs => rw [← List.map_id od.inputs]
      refine List.map_congr_left fun p hp => ?_
      obtain ⟨ty, h1, h2⟩ := hk.inputs p hp
      have hty : p.ts.type = ty := by rw [h2]
      simp only [Function.comp_def, id, hty, refKept ns ty t.hash t.prelude h1, Traits.bool, mget]
      rw [← h2]
  have hou : ∃ ous, plainOutputs ast (T.shape (plainOpShape suf ns od)).output = Out.ok ous ∧ (OperationKept od → ous = od.outputs) := by
    show ∃ ous, plainOutputs ast (if od.outputs = [] then none else some (q ns (capitalize od.name ++ suf.output))) = Out.ok ous ∧
      (OperationKept od → ous = od.outputs)
    by_cases hi : od.outputs = []
    · simp [hi, plainOutputs]
    · simp only [if_neg hi, membersOf, plainOutputs]
      rw [t.find_plain ho (sh := plainShape ns (od.outputs.map fun p => (p.name, p.ts.type))) (by simp [plainPairs, plainIoPairs, hi])
        (by simp [PlainIoNames, hi])]
      simp only [Out.bind_ok]
      refine ⟨_, rfl, fun hk => ?_⟩
      rw [plain_members T ns _ (by simpa [List.map_map, Function.comp_def] using hk.outputNames)]
      simp only [importOpOutputs, List.map_map]
      conv_rhs => rw [← List.map_id od.outputs]
      refine List.map_congr_left fun p hp => ?_
      obtain ⟨ty, h1, h2⟩ := hk.outputs p hp
      have hty : p.ts.type = ty := by rw [h2]
      simp only [Function.comp_def, id, hty, refKept ns ty t.hash t.prelude h1]
      rw [← h2]
  obtain ⟨ins, hin1, hin2⟩ := hin
  obtain ⟨ous, hou1, hou2⟩ := hou
  have hannos : importTraits lib ast (T.shape (plainOpShape suf ns od)).traits [] = .ok [] := by
    rw [htr, importTraits_seen]
    have : seen [("smithy.api#documentation", .str od.comment)] = [] := by simp [seen, ignoredTraits]
    rw [this]
    rfl
  have hdoc : docOf (T.shape (plainOpShape suf ns od)).traits = escapeComment od.comment := by
    rw [htr]
    simp [docOf, Traits.str, mget, asString]
  have hplain : importPlainOperation lib ast (q ns (capitalize od.name)) (T.shape (plainOpShape suf ns od)) = .ok
      { name := uncapitalize (capitalize od.name), comment := escapeComment od.comment, inputs := ins, outputs := ous } := by
    unfold importPlainOperation
    rw [hannos, hdoc]
    simp only [Out.bind_ok]
    rw [hin1, hou1]
    simp only [Out.bind_ok, strip_q ns t.hash]
    rfl
  refine ⟨{ name := uncapitalize (capitalize od.name), comment := escapeComment od.comment, inputs := ins, outputs := ous },
    ⟨rfl, ?_⟩, fun acc => ?_⟩
  rotate_left
  · unfold importShape
    rw [if_neg hmem]
    have hty : (T.shape (plainOpShape suf ns od)).type = "operation" := rfl
    simp only [hty, numberShapes, List.mem_cons, List.not_mem_nil, String.reduceEq, or_false, if_false, if_true]
    unfold importOperationShape
    have h1 : (T.shape (plainOpShape suf ns od)).traits.map "smithy.api#http" = none := by rw [htr]; simp [Traits.map, mget]
    have h2 : (T.shape (plainOpShape suf ns od)).traits.array "smithy.api#examples" = none := by rw [htr]; simp [Traits.array, mget]
    simp only [h1, h2, Option.getD_none, getKey, mget, asString, if_true, hplain, Out.bind_ok, importOpExamples, List.append_nil]
  · intro hk
    rw [uncapitalize_capitalize _ hk.name, escapeComment_tidy _ hk.comment, hin2 hk, hou2 hk]
    have h1 := hk.annotations
    have h2 := hk.exceptions
    cases od
    simp_all

/-! ### All shapes -/

theorem importShapes_cons {lib : SLib} {suf : Suffixes} {ast : Ast} {io : List String} {service : String} {k : String} {sh : Shape}
    (h : sh.type ≠ "service") (rest : GoMap Shape) (acc : Imported) :
    importShapes lib suf ast io service ((k, sh) :: rest) acc =
      (importShape lib suf ast io k sh acc >>= importShapes lib suf ast io service rest) := by
  simp only [importShapes, if_pos (Or.inl h : sh.type ≠ "service" ∨ k = service)]

theorem importShapes_skip {lib : SLib} {suf : Suffixes} {ast : Ast} {io : List String} {service : String} (l : GoMap Shape)
    (h : ∀ kv ∈ l, kv.2.type ≠ "service" ∧ kv.1 ∈ io) (rest : GoMap Shape) (acc : Imported) :
    importShapes lib suf ast io service (l ++ rest) acc = importShapes lib suf ast io service rest acc := by
  induction l with
  | nil => rfl
  | cons kv r ih =>
    obtain ⟨k, sh⟩ := kv
    have h1 := h (k, sh) (by simp)
    rw [List.cons_append, importShapes_cons h1.1]
    have : importShape lib suf ast io k sh acc = .ok acc := by
      unfold importShape
      rw [if_pos h1.2]
    rw [this, Out.bind_ok, ih fun kv hkv => h kv (by simp [hkv])]

theorem Trip.types_back (t : Trip T suf ns s f ast) (lib : SLib) (service : String) (tds : List TypeDef) (hsub : ∀ td ∈ tds, td ∈ s.types) :
    ∃ tds', List.Forall₂ (Becomes lib T s) tds tds' ∧ ∀ rest acc,
      importShapes lib suf ast (allIo suf ns s) service
        ((tds.map fun td => (q ns td.name, marks ns (s.http.flatMap (·.exceptions)) (q ns td.name) (typeShape ns td))).map (arrive T f) ++ rest) acc =
      importShapes lib suf ast (allIo suf ns s) service rest { acc with types := acc.types ++ tds' } := by
  induction tds with
  | nil => exact ⟨[], .nil, fun rest acc => by simp⟩
  | cons td r ih =>
    obtain ⟨tds', h1, h2⟩ := ih fun x hx => hsub x (by simp [hx])
    have htd := hsub td (by simp)
    obtain ⟨td', h3, h4⟩ := type_back lib suf ast (allIo suf ns s) T ns t.hash t.prelude s td (t.bases td htd) (t.uuid td htd) (t.type_not_io htd)
    refine ⟨td' :: tds', .cons h4 h1, fun rest acc => ?_⟩
    have e := t.fixed (n := td.name) (marks ns (s.http.flatMap (·.exceptions)) (q ns td.name) (typeShape ns td)) fun h hh => t.type_op htd hh
    rw [List.map_cons, List.map_cons, List.cons_append, arrive]
    simp only [e]
    rw [importShapes_cons (sh := T.shape _) (type_shape_type ns td _).1, h3 acc, Out.bind_ok]
    refine (h2 rest _).trans ?_
    simp [Imported.add]

theorem ioPairs_io {h : HttpDef} (hh : h ∈ s.http) (hf : AddsExamples ns s.http f) :
    ∀ kv ∈ (ioPairs suf ns h).map (arrive T f), kv.2.type ≠ "service" ∧ kv.1 ∈ allIo suf ns s := by
  intro kv hkv
  obtain ⟨kv', h1, rfl⟩ := List.mem_map.1 hkv
  constructor
  · show (f kv'.1 kv'.2).type ≠ "service"
    rw [(f_type hf _ _).1]
    unfold ioPairs at h1
    simp only [List.mem_append] at h1
    rcases h1 with h2 | h2
    · split at h2
      · simp at h2
      · simp only [List.mem_cons, List.not_mem_nil, or_false] at h2
        subst h2
        exact (by decide : "structure" ≠ "service")
    · split at h2
      · simp at h2
      · simp only [List.mem_cons, List.not_mem_nil, or_false] at h2
        subst h2
        exact (by decide : "structure" ≠ "service")
  · have h2 : kv'.1 ∈ (IoNames suf h).map (q ns) := by
      rw [← ioPairs_keys]
      exact List.mem_map.2 ⟨kv', h1, rfl⟩
    obtain ⟨n, h3, h4⟩ := List.mem_map.1 h2
    unfold allIo
    exact List.mem_append_left _ (List.mem_map.2 ⟨n, List.mem_flatMap.2 ⟨h, hh, h3⟩, h4⟩)

theorem plainIoPairs_io {od : OperationDef} (ho : od ∈ s.operations) (hf : AddsExamples ns s.http f) :
    ∀ kv ∈ (plainIoPairs suf ns od).map (arrive T f), kv.2.type ≠ "service" ∧ kv.1 ∈ allIo suf ns s := by
  intro kv hkv
  obtain ⟨kv', h1, rfl⟩ := List.mem_map.1 hkv
  constructor
  · show (f kv'.1 kv'.2).type ≠ "service"
    rw [(f_type hf _ _).1]
    unfold plainIoPairs at h1
    simp only [List.mem_append] at h1
    rcases h1 with h2 | h2
    · split at h2
      · simp at h2
      · simp only [List.mem_cons, List.not_mem_nil, or_false] at h2
        subst h2
        exact (by decide : "structure" ≠ "service")
    · split at h2
      · simp at h2
      · simp only [List.mem_cons, List.not_mem_nil, or_false] at h2
        subst h2
        exact (by decide : "structure" ≠ "service")
  · have h2 : kv'.1 ∈ (PlainIoNames suf od).map (q ns) := by
      rw [← plainIoPairs_keys]
      exact List.mem_map.2 ⟨kv', h1, rfl⟩
    obtain ⟨n, h3, h4⟩ := List.mem_map.1 h2
    unfold allIo
    exact List.mem_append_right _ (List.mem_map.2 ⟨n, List.mem_flatMap.2 ⟨od, ho, h3⟩, h4⟩)

theorem Trip.actions_back (t : Trip T suf ns s f ast) (lib : SLib) (service : String) (hs : List HttpDef) (hsub : ∀ h ∈ hs, h ∈ s.http) :
    ∃ hs' exs, List.Forall₂ (ActionBecomes lib T s) hs hs' ∧ ∀ rest acc,
      importShapes lib suf ast (allIo suf ns s) service ((hs.flatMap (actionPairs suf ns s.base)).map (arrive T f) ++ rest) acc =
      importShapes lib suf ast (allIo suf ns s) service rest { acc with examples := acc.examples ++ exs, http := acc.http ++ hs' } := by
  induction hs with
  | nil => exact ⟨[], [], .nil, fun rest acc => by simp⟩
  | cons h r ih =>
    obtain ⟨hs', exs, h1, h2⟩ := ih fun x hx => hsub x (by simp [hx])
    have hh := hsub h (by simp)
    obtain ⟨h', ex, h3, h4⟩ := t.action_back lib hh
    refine ⟨h' :: hs', ex ++ exs, .cons h3 h1, fun rest acc => ?_⟩
    rw [List.flatMap_cons, List.map_append, actionPairs, List.map_append, List.append_assoc, List.append_assoc,
      importShapes_skip _ (ioPairs_io hh t.adds), List.map_cons, List.map_nil, List.singleton_append, arrive, importShapes_cons, h4 acc, Out.bind_ok]
    · refine (h2 rest _).trans ?_
      simp
    · show (f _ _).type ≠ "service"
      rw [(f_type t.adds _ _).1, show (withIo suf ns h (opShape s.base h)).type = "operation" from (t.opTraits hh).type]
      decide

theorem Trip.operations_back (t : Trip T suf ns s f ast) (lib : SLib) (service : String) (ods : List OperationDef)
    (hsub : ∀ od ∈ ods, od ∈ s.operations) :
    ∃ ods', List.Forall₂ OperationBecomes ods ods' ∧ ∀ rest acc,
      importShapes lib suf ast (allIo suf ns s) service ((ods.flatMap (plainPairs suf ns)).map (arrive T f) ++ rest) acc =
      importShapes lib suf ast (allIo suf ns s) service rest { acc with operations := acc.operations ++ ods' } := by
  induction ods with
  | nil => exact ⟨[], .nil, fun rest acc => by simp⟩
  | cons od r ih =>
    obtain ⟨ods', h1, h2⟩ := ih fun x hx => hsub x (by simp [hx])
    have ho := hsub od (by simp)
    obtain ⟨od', h3, h4⟩ := t.operation_back lib ho
    refine ⟨od' :: ods', .cons h3 h1, fun rest acc => ?_⟩
    rw [List.flatMap_cons, List.map_append, plainPairs, List.map_append, List.append_assoc, List.append_assoc,
      importShapes_skip _ (plainIoPairs_io ho t.adds), List.map_cons, List.map_nil, List.singleton_append, arrive, importShapes_cons, h4 acc, Out.bind_ok]
    · refine (h2 rest _).trans ?_
      simp
    · show (f _ _).type ≠ "service"
      rw [(f_type t.adds _ _).1]
      exact (by decide : "operation" ≠ "service")

/-- All shapes are imported. -/
theorem Trip.shapes_back (t : Trip T suf ns s f ast) (lib : SLib) (service : String) :
    ∃ tds' hs' ods' exs, List.Forall₂ (Becomes lib T s) s.types tds' ∧ List.Forall₂ (ActionBecomes lib T s) s.http hs' ∧
      List.Forall₂ OperationBecomes s.operations ods' ∧
      importShapes lib suf ast (allIo suf ns s) service ast.shapes {} = .ok { types := tds', examples := exs, operations := ods', http := hs' } := by
  obtain ⟨sv, e, h⟩ := t.parts
  obtain ⟨tds', h1, h2⟩ := t.types_back lib service s.types fun _ h => h
  obtain ⟨hs', exs, h3, h4⟩ := t.actions_back lib service s.http fun _ h => h
  obtain ⟨ods', h5, h6⟩ := t.operations_back lib service s.operations fun _ h => h
  refine ⟨tds', hs', ods', exs, h1, h3, h5, ?_⟩
  rw [e, layoutBody, List.map_append, List.map_append, List.append_assoc, List.append_assoc, h2, h4, h6]
  simp only [List.nil_append]
  rcases h with rfl | ⟨k, sh, rfl, hty⟩
  · rfl
  · have : ∀ acc, importShape lib suf ast (allIo suf ns s) k sh acc = .ok acc := by
      intro acc
      unfold importShape
      simp only [hty, numberShapes, List.mem_cons, List.not_mem_nil, String.reduceEq, or_false, if_false, if_true]
      split <;> rfl
    simp only [importShapes]
    split
    · rw [this]; rfl
    · rfl

theorem forall₂_names {α β : Type} {R : α → β → Prop} {f : α → String} {g : β → String} {l : List α} {l' : List β}
    (h : List.Forall₂ R l l') (hR : ∀ a b, R a b → g b = f a) : l'.map g = l.map f := by
  induction h with
  | nil => rfl
  | cons h _ ih => simp [hR _ _ h, ih]

/-- The import succeeds. -/
theorem Trip.model_back (t : Trip T suf ns s f ast) (lib : SLib) (version : String) (conf : SConf)
    (h1 : (s.types.map (·.name)).Nodup) (h2 : ∀ td ∈ s.types, td.name ∉ BaseTypes) :
    ∃ m', toSadl lib suf version ast conf = .ok m' ∧ List.Forall₂ (Becomes lib T s) s.types m'.schema.types ∧
      List.Forall₂ (ActionBecomes lib T s) s.http m'.schema.http ∧ List.Forall₂ OperationBecomes s.operations m'.schema.operations := by
  obtain ⟨found, hscan⟩ := t.scan conf.service
  obtain ⟨tds', hs', ods', exs, k1, k2, k3, k4⟩ := t.shapes_back lib found.1
  unfold toSadl
  rw [hscan]
  simp only [Out.bind_ok, k4]
  have n1 := forall₂_names (f := (·.name)) (g := (·.name)) k1 fun a b h => h.1
  have n2 := forall₂_names (f := fun h => uncapitalize (OpName h)) (g := (·.name)) k2 fun a b h => h.1
  refine ⟨_, (newModel_ok_iff _ _).2 ⟨?_, ?_, ?_, rfl⟩, k1, k2, k3⟩
  · show (tds'.map (·.name)).Nodup
    rw [n1]
    exact h1
  · show ∀ td ∈ tds', td.name ∉ BaseTypes
    intro td htd
    have : td.name ∈ s.types.map (·.name) := by rw [← n1]; exact List.mem_map.2 ⟨td, htd, rfl⟩
    obtain ⟨td0, h3, h4⟩ := List.mem_map.1 this
    rw [← h4]
    exact h2 td0 h3
  · show (hs'.map (·.name)).Nodup
    rw [n2]
    have hc := t.clash
    unfold NoClash ShapeNames at hc
    have h3 := (List.nodup_append.1 (List.nodup_append.1 (List.nodup_append.1 hc).1).1).2.1
    have h4 : (s.http.map OpName).Nodup := by
      have : List.Sublist (s.http.map OpName) (s.http.flatMap fun h => IoNames suf h ++ [OpName h]) := by
        generalize s.http = l
        induction l with
        | nil => exact .slnil
        | cons a r ih =>
          rw [List.map_cons, List.flatMap_cons]
          exact List.Sublist.append (l₁ := [OpName a]) (List.sublist_append_right _ _) ih
      exact List.Nodup.sublist this h3
    have h5 : ((s.http.map fun h => uncapitalize (OpName h)).map capitalize).Nodup := by
      rw [List.map_map]
      have : (capitalize ∘ fun h => uncapitalize (OpName h)) = OpName := by
        funext h
        exact capitalize_uncapitalize _ (capital_opName h)
      rw [this]
      exact h4
    exact List.Nodup.of_map _ h5

end Smithy
end Sadl
