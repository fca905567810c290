import Verif.Lemmas.SmithyExport
import Mathlib.Data.List.Nodup
/-
Lemmas about the Smithy export: the shapes of the AST when no names clash.
-/
namespace Sadl
open Smithy Spec
namespace Smithy

theorem mset_distinct {α : Type} {m : GoMap α} (hd : m.Distinct) {k : String} (hk : k ∈ m.map Prod.fst) (v : α) :
    mset m k v = m.map fun kv => (kv.1, if kv.1 = k then v else kv.2) := by
  induction m with
  | nil => simp at hk
  | cons p r ih =>
    obtain ⟨a, b⟩ := p
    simp only [GoMap.Distinct, List.map_cons, List.nodup_cons] at hd
    by_cases h : a = k
    · subst h
      simp only [mset, if_true, List.map_cons, List.cons.injEq, true_and]
      symm
      conv_rhs => rw [← List.map_id r]
      refine List.map_congr_left fun kv hkv => ?_
      have : kv.1 ≠ a := fun e => hd.1 (e ▸ List.mem_map.2 ⟨kv, hkv, rfl⟩)
      simp [this]
    · simp only [mset, h, if_false, List.map_cons, List.cons.injEq, true_and]
      refine ih hd.2 ?_
      rcases List.mem_cons.1 hk with e | e
      · exact absurd e.symm h
      · exact e

theorem mget_map {α β : Type} (m : GoMap α) (f : String → α → β) (k : String) :
    mget (m.map fun kv => (kv.1, f kv.1 kv.2)) k = (mget m k).map (f k) := by
  induction m with
  | nil => rfl
  | cons p r ih =>
    obtain ⟨a, b⟩ := p
    by_cases h : a = k
    · subst h; simp [mget]
    · simp [mget, h, ih]

theorem mget_append {α : Type} (a b : GoMap α) (k : String) : mget (a ++ b) k = (mget a k).orElse fun _ => mget b k := by
  induction a with
  | nil => simp [mget]
  | cons p r ih =>
    obtain ⟨a, v⟩ := p
    by_cases h : a = k
    · simp [mget, h]
    · simp [mget, h, ih]

theorem map_fst_map {α β : Type} (m : GoMap α) (f : String → α → β) :
    (m.map fun kv => (kv.1, f kv.1 kv.2)).map Prod.fst = m.map Prod.fst := by
  simp [List.map_map, Function.comp_def]

/-! ### Types -/

/-- The shape name of a local name. -/
def q (ns n : String) : String := ns ++ "#" ++ n

theorem q_inj {ns a b : String} : q ns a = q ns b ↔ a = b := ns_inj

theorem typeShapes_fresh (ns : String) (tds : List TypeDef) (shapes : GoMap Shape)
    (hn : (shapes.map Prod.fst ++ tds.map fun td => q ns td.name).Nodup) :
    typeShapes ns tds shapes = shapes ++ tds.map fun td => (q ns td.name, typeShape ns td) := by
  induction tds generalizing shapes with
  | nil => simp [typeShapes]
  | cons td rest ih =>
    have h1 : q ns td.name ∉ shapes.map Prod.fst := by
      intro hc
      rw [List.nodup_append] at hn
      exact hn.2.2 _ hc _ (by simp) rfl
    simp only [typeShapes]
    rw [show ns ++ "#" ++ td.name = q ns td.name from rfl, mset_of_not_mem h1, ih]
    · simp
    · simpa using hn

/-! ### Exceptions -/

/-- What exceptions add to the shape with a name. -/
def marks (ns : String) (xs : List HttpExceptionSpec) (k : String) (sh : Shape) : Shape :=
  xs.foldl (fun sh x => if k = q ns x.type then markError x sh else sh) sh

theorem marks_append (ns : String) (xs ys : List HttpExceptionSpec) (k : String) (sh : Shape) :
    marks ns (xs ++ ys) k sh = marks ns ys k (marks ns xs k sh) := by
  simp [marks]

theorem marks_other (ns : String) (xs : List HttpExceptionSpec) (k : String) (sh : Shape)
    (h : ∀ x ∈ xs, k ≠ q ns x.type) : marks ns xs k sh = sh := by
  induction xs generalizing sh with
  | nil => rfl
  | cons x rest ih =>
    simp only [marks, List.foldl_cons, h x (by simp), if_false]
    exact ih _ fun y hy => h y (by simp [hy])

theorem actionErrors_marks {ns : String} {xs : List HttpExceptionSpec} {shapes r : GoMap Shape} (hd : shapes.Distinct)
    (h : actionErrors ns xs shapes = .ok r) : r = shapes.map fun kv => (kv.1, marks ns xs kv.1 kv.2) := by
  induction xs generalizing shapes with
  | nil => simp only [actionErrors, Out.ok.injEq] at h; simp [marks, h]
  | cons x rest ih =>
    simp only [actionErrors] at h
    split at h
    · rename_i s hs
      rw [ih (distinct_mset hd _ _) h]
      have hk : q ns x.type ∈ shapes.map Prod.fst := by
        by_contra hc
        rw [q, ← mget_none_iff, hs] at hc
        cases hc
      rw [show ns ++ "#" ++ x.type = q ns x.type from rfl, mset_distinct hd hk, List.map_map]
      refine List.map_congr_left fun kv hkv => ?_
      simp only [Function.comp, marks, List.foldl_cons]
      by_cases he : kv.1 = q ns x.type
      · have : s = kv.2 := by
          have := mget_of_mem hd hkv
          rw [he] at this
          rw [show ns ++ "#" ++ x.type = q ns x.type from rfl, this] at hs
          cases hs; rfl
        simp [he, this]
      · simp [he]
    · cases h

/-! ### Actions -/

/-- The operation shape of an action before its structures. -/
def opShape (base : String) (h : HttpDef) : Shape :=
  match actionShape base h with
  | .ok s => s
  | _ => {}

/-- The structures of an action. -/
def ioPairs (suf : Suffixes) (ns : String) (h : HttpDef) : GoMap Shape :=
  (if h.inputs = [] then [] else [(q ns (OpName h ++ suf.input), inputShape ns h)]) ++
  (if ActionOutputs h = [] then [] else [(q ns (OpName h ++ suf.output), outputShape ns h)])

/-- The shapes of an action. -/
def actionPairs (suf : Suffixes) (ns base : String) (h : HttpDef) : GoMap Shape :=
  ioPairs suf ns h ++ [(q ns (OpName h), withIo suf ns h (opShape base h))]

theorem ioPairs_keys (suf : Suffixes) (ns : String) (h : HttpDef) : (ioPairs suf ns h).map Prod.fst = (IoNames suf h).map (q ns) := by
  unfold ioPairs IoNames
  by_cases h1 : h.inputs = [] <;> by_cases h2 : ActionOutputs h = [] <;> simp [h1, h2]

theorem actionPairs_keys (suf : Suffixes) (ns base : String) (h : HttpDef) :
    (actionPairs suf ns base h).map Prod.fst = (IoNames suf h ++ [OpName h]).map (q ns) := by
  simp [actionPairs, ioPairs_keys]

theorem ioShapes_fresh {suf : Suffixes} {ns : String} {h : HttpDef} {shapes : GoMap Shape}
    (hn : (shapes.map Prod.fst ++ (IoNames suf h).map (q ns)).Nodup) : ioShapes suf ns h shapes = shapes ++ ioPairs suf ns h := by
  rw [← ioPairs_keys] at hn
  unfold ioShapes
  unfold ioPairs at *
  by_cases h1 : h.inputs = [] <;> by_cases h2 : ActionOutputs h = [] <;>
    simp only [h1, h2, ne_eq, not_true, not_false_eq_true, if_true, if_false, List.append_nil, List.nil_append,
      List.map_append, List.map_cons, List.map_nil] at hn ⊢
  · rw [show ns ++ "#" ++ (OpName h ++ suf.output) = q ns (OpName h ++ suf.output) from rfl, mset_of_not_mem]
    rw [List.nodup_append] at hn
    exact fun hc => hn.2.2 _ hc _ (by simp) rfl
  · rw [show ns ++ "#" ++ (OpName h ++ suf.input) = q ns (OpName h ++ suf.input) from rfl, mset_of_not_mem]
    rw [List.nodup_append] at hn
    exact fun hc => hn.2.2 _ hc _ (by simp) rfl
  · rw [show ns ++ "#" ++ (OpName h ++ suf.output) = q ns (OpName h ++ suf.output) from rfl,
      show ns ++ "#" ++ (OpName h ++ suf.input) = q ns (OpName h ++ suf.input) from rfl]
    rw [← List.append_assoc] at hn
    have h3 : q ns (OpName h ++ suf.input) ∉ shapes.map Prod.fst := by
      rw [List.nodup_append] at hn
      intro hc
      have := (List.nodup_append.1 hn.1).2.2 _ hc _ (by simp) rfl
      exact this
    rw [mset_of_not_mem h3, mset_of_not_mem]
    · simp
    · intro hc
      rw [List.nodup_append] at hn
      exact hn.2.2 _ (by simpa using hc) _ (by simp) rfl

theorem exportAction_fresh {suf : Suffixes} {ns base : String} {h : HttpDef} {shapes r : GoMap Shape}
    (hr : exportAction suf ns base h shapes = .ok r)
    (hn : (shapes.map Prod.fst ++ (IoNames suf h ++ [OpName h]).map (q ns)).Nodup)
    (hx : ∀ x ∈ h.exceptions, q ns x.type ∈ shapes.map Prod.fst) :
    r = (shapes.map fun kv => (kv.1, marks ns h.exceptions kv.1 kv.2)) ++ actionPairs suf ns base h := by
  obtain ⟨h1, shape, sh1, h2, h3, rfl⟩ := exportAction_ok.1 hr
  have hn1 : (shapes.map Prod.fst ++ (IoNames suf h).map (q ns)).Nodup := by
    simp only [List.map_append, ← List.append_assoc] at hn
    exact (List.nodup_append.1 hn).1
  have e1 := ioShapes_fresh hn1
  have hd : (ioShapes suf ns h shapes).Distinct := by
    rw [e1, GoMap.Distinct, List.map_append, ioPairs_keys]
    exact hn1
  have e2 := actionErrors_marks hd h3
  have e3 : sh1 = (shapes.map fun kv => (kv.1, marks ns h.exceptions kv.1 kv.2)) ++ ioPairs suf ns h := by
    rw [e2, e1, List.map_append]
    congr 1
    conv_rhs => rw [← List.map_id (ioPairs suf ns h)]
    refine List.map_congr_left fun kv hkv => ?_
    rw [marks_other]
    · rfl
    · intro x hxm he
      have : kv.1 ∈ (IoNames suf h).map (q ns) := by
        rw [← ioPairs_keys]; exact List.mem_map.2 ⟨kv, hkv, rfl⟩
      exact (List.nodup_append.1 hn1).2.2 _ (hx x hxm) _ this he.symm
  have e4 : opShape base h = shape := by simp [opShape, h2]
  rw [e3, show ns ++ "#" ++ OpName h = q ns (OpName h) from rfl, mset_of_not_mem]
  · simp [actionPairs, e4]
  · rw [List.map_append, map_fst_map, ioPairs_keys]
    intro hc
    simp only [List.map_append, ← List.append_assoc] at hn
    exact (List.nodup_append.1 hn).2.2 _ hc _ (by simp) rfl

theorem exportActions_fresh {suf : Suffixes} {ns base : String} {hs : List HttpDef} {shapes r : GoMap Shape}
    (hr : exportActions suf ns base hs shapes = .ok r)
    (hn : (shapes.map Prod.fst ++ (hs.flatMap fun h => IoNames suf h ++ [OpName h]).map (q ns)).Nodup)
    (hx : ∀ h ∈ hs, ∀ x ∈ h.exceptions, q ns x.type ∈ shapes.map Prod.fst) :
    r = (shapes.map fun kv => (kv.1, marks ns (hs.flatMap (·.exceptions)) kv.1 kv.2)) ++ hs.flatMap (actionPairs suf ns base) := by
  induction hs generalizing shapes with
  | nil => simp only [exportActions, Out.ok.injEq] at hr; simp [hr, marks]
  | cons h rest ih =>
    simp only [exportActions, Out.bind_eq_ok] at hr
    obtain ⟨sh, h1, h2⟩ := hr
    simp only [List.flatMap_cons, List.map_append (f := q ns) (l₁ := IoNames suf h ++ [OpName h]), ← List.append_assoc] at hn
    have e := exportAction_fresh h1 (by
      rw [List.append_assoc] at hn
      rw [← List.append_assoc] at hn
      simp only [List.map_append, ← List.append_assoc] at hn ⊢
      exact (List.nodup_append.1 hn).1) (hx h (by simp))
    have hk : sh.map Prod.fst = shapes.map Prod.fst ++ (IoNames suf h ++ [OpName h]).map (q ns) := by
      rw [e, List.map_append, map_fst_map, actionPairs_keys]
    have hn' : (sh.map Prod.fst ++ (rest.flatMap fun h => IoNames suf h ++ [OpName h]).map (q ns)).Nodup := by
      rw [hk]
      simpa [List.append_assoc] using hn
    rw [ih h2 hn' fun h' hh' x hxm => by
      rw [hk, List.mem_append]
      exact .inl (hx h' (by simp [hh']) x hxm), e]
    simp only [List.map_append, List.map_map, Function.comp_def, List.flatMap_cons, List.append_assoc, marks_append]
    congr 2
    conv_rhs => rw [← List.map_id (actionPairs suf ns base h)]
    refine List.map_congr_left fun kv hkv => ?_
    rw [marks_other]
    · rfl
    · intro x hxm he
      obtain ⟨h', hh', hx'⟩ := List.mem_flatMap.1 hxm
      have h3 : kv.1 ∈ (IoNames suf h ++ [OpName h]).map (q ns) := by
        rw [← actionPairs_keys suf ns base]; exact List.mem_map.2 ⟨kv, hkv, rfl⟩
      rw [hk] at hn'
      have h4 := (List.nodup_append.1 (List.nodup_append.1 hn').1).2.2 _ (hx h' (by simp [hh']) x hx') _ h3
      exact h4 he.symm

/-! ### Operations without HTTP binding -/

/-- The structure for inputs or outputs. -/
def plainShape (ns : String) (ps : List (String × String)) : Shape :=
  { type := "structure", members := plainMembers ns ps [] }

/-- The structures of an operation. -/
def plainIoPairs (suf : Suffixes) (ns : String) (od : OperationDef) : GoMap Shape :=
  (if od.inputs = [] then [] else
    [(q ns (capitalize od.name ++ suf.input), plainShape ns (od.inputs.map fun p => (p.name, p.ts.type)))]) ++
  (if od.outputs = [] then [] else
    [(q ns (capitalize od.name ++ suf.output), plainShape ns (od.outputs.map fun p => (p.name, p.ts.type)))])

/-- The operation shape. -/
def plainOpShape (suf : Suffixes) (ns : String) (od : OperationDef) : Shape :=
  ({ type := "operation",
     input := if od.inputs = [] then none else some (q ns (capitalize od.name ++ suf.input)),
     output := if od.outputs = [] then none else some (q ns (capitalize od.name ++ suf.output)) } : Shape).put
    "smithy.api#documentation" (.str od.comment)

/-- The shapes of an operation. -/
def plainPairs (suf : Suffixes) (ns : String) (od : OperationDef) : GoMap Shape :=
  plainIoPairs suf ns od ++ [(q ns (capitalize od.name), plainOpShape suf ns od)]

theorem plainIoPairs_keys (suf : Suffixes) (ns : String) (od : OperationDef) :
    (plainIoPairs suf ns od).map Prod.fst = (PlainIoNames suf od).map (q ns) := by
  unfold plainIoPairs PlainIoNames
  by_cases h1 : od.inputs = [] <;> by_cases h2 : od.outputs = [] <;> simp [h1, h2]

theorem plainPairs_keys (suf : Suffixes) (ns : String) (od : OperationDef) :
    (plainPairs suf ns od).map Prod.fst = (PlainIoNames suf od ++ [capitalize od.name]).map (q ns) := by
  simp [plainPairs, plainIoPairs_keys]

theorem append_fresh {α : Type} {m : GoMap α} {k : String} {v : α} (l : GoMap α)
    (hn : (m.map Prod.fst ++ ((k, v) :: l).map Prod.fst).Nodup) : mset m k v = m ++ [(k, v)] ∧
      ((m ++ [(k, v)]).map Prod.fst ++ l.map Prod.fst).Nodup := by
  constructor
  · refine mset_of_not_mem (fun hc => ?_) v
    exact (List.nodup_append.1 hn).2.2 _ hc _ (by simp) rfl
  · simpa using hn

theorem exportOperation_fresh {suf : Suffixes} {ns : String} {od : OperationDef} {shapes : GoMap Shape}
    (hn : (shapes.map Prod.fst ++ (PlainIoNames suf od ++ [capitalize od.name]).map (q ns)).Nodup) :
    exportOperation suf ns od shapes = shapes ++ plainPairs suf ns od := by
  rw [← plainPairs_keys] at hn
  unfold exportOperation
  unfold plainPairs plainIoPairs plainOpShape plainShape at *
  by_cases h1 : od.inputs = [] <;> by_cases h2 : od.outputs = [] <;>
    simp only [h1, h2, ne_eq, not_true, not_false_eq_true, if_true, if_false, List.append_nil, List.nil_append,
      List.cons_append, q, String.append_assoc] at hn ⊢
  · exact (append_fresh _ hn).1
  · obtain ⟨e, hn⟩ := append_fresh _ hn
    rw [e]
    exact ((append_fresh _ hn).1).trans (by simp)
  · obtain ⟨e, hn⟩ := append_fresh _ hn
    rw [e]
    exact ((append_fresh _ hn).1).trans (by simp)
  · obtain ⟨e, hn⟩ := append_fresh _ hn
    rw [e]
    obtain ⟨e, hn⟩ := append_fresh _ hn
    rw [e]
    exact ((append_fresh _ hn).1).trans (by simp)

theorem exportOperations_fresh {suf : Suffixes} {ns : String} {ods : List OperationDef} {shapes : GoMap Shape}
    (hn : (shapes.map Prod.fst ++ (ods.flatMap fun od => PlainIoNames suf od ++ [capitalize od.name]).map (q ns)).Nodup) :
    exportOperations suf ns ods shapes = shapes ++ ods.flatMap (plainPairs suf ns) := by
  induction ods generalizing shapes with
  | nil => simp [exportOperations]
  | cons od rest ih =>
    simp only [exportOperations, List.flatMap_cons] at hn ⊢
    rw [List.map_append, ← List.append_assoc] at hn
    rw [exportOperation_fresh (List.nodup_append.1 hn).1, ih]
    · simp
    · rw [List.map_append, plainPairs_keys]
      exact hn

/-! ### Examples -/

/-- A change that adds examples to the operations of the actions. -/
structure AddsExamples (ns : String) (hs : List HttpDef) (f : String → Shape → Shape) : Prop where
  others : ∀ k sh, (∀ h ∈ hs, k ≠ q ns (capitalize h.name)) → f k sh = sh
  adds : ∀ k sh, f k sh = sh ∨ ∃ v, f k sh = sh.put "smithy.api#examples" v

theorem mset_mset {α : Type} (m : GoMap α) (k : String) (a b : α) : mset (mset m k a) k b = mset m k b := by
  induction m with
  | nil => simp [mset]
  | cons p r ih =>
    obtain ⟨c, d⟩ := p
    by_cases h : c = k
    · simp [mset, h]
    · simp [mset, h, ih]

theorem examplesFromSadl_adds {order : GoMap (GoMap Value) → GoMap (GoMap Value)} {ns : String} {s : Schema} {hs : List HttpDef}
    {shapes r : GoMap Shape} (hns : ns ≠ "") (hd : shapes.Distinct) (hr : examplesFromSADL order ns s hs shapes = .ok r) :
    ∃ f, AddsExamples ns hs f ∧ r = shapes.map fun kv => (kv.1, f kv.1 kv.2) := by
  induction hs generalizing shapes with
  | nil =>
    simp only [examplesFromSADL, Out.ok.injEq] at hr
    exact ⟨fun _ sh => sh, ⟨fun _ _ _ => rfl, fun _ _ => .inl rfl⟩, by simp [hr]⟩
  | cons h rest ih =>
    simp only [examplesFromSADL, Out.bind_eq_ok, if_pos hns] at hr
    obtain ⟨exs, _, h2⟩ := hr
    have key : ∃ g : String → Shape → Shape, (∀ k sh, k ≠ q ns (capitalize h.name) → g k sh = sh) ∧
        (∀ k sh, g k sh = sh ∨ ∃ v, g k sh = sh.put "smithy.api#examples" v) ∧
        (match mget shapes (ns ++ "#" ++ capitalize h.name) with
         | none => shapes
         | some shape => if exs ≠ [] then mset shapes (ns ++ "#" ++ capitalize h.name) (shape.put "smithy.api#examples" (.arr exs)) else shapes) =
        shapes.map fun kv => (kv.1, g kv.1 kv.2) := by
      cases hg : mget shapes (ns ++ "#" ++ capitalize h.name) with
      | none => exact ⟨fun _ sh => sh, fun _ _ _ => rfl, fun _ _ => .inl rfl, by simp⟩
      | some shape =>
        by_cases he : exs = []
        · exact ⟨fun _ sh => sh, fun _ _ _ => rfl, fun _ _ => .inl rfl, by simp [he]⟩
        · refine ⟨fun k sh => if k = q ns (capitalize h.name) then sh.put "smithy.api#examples" (.arr exs) else sh, ?_, ?_, ?_⟩
          · intro k sh hk
            simp [hk]
          · intro k sh
            by_cases hk : k = q ns (capitalize h.name)
            · exact .inr ⟨.arr exs, by simp [hk]⟩
            · exact .inl (by simp [hk])
          · have hk : q ns (capitalize h.name) ∈ shapes.map Prod.fst := by
              by_contra hc
              rw [q, ← mget_none_iff, hg] at hc
              cases hc
            simp only [ne_eq, he, not_false_eq_true, if_true]
            rw [show ns ++ "#" ++ capitalize h.name = q ns (capitalize h.name) from rfl, mset_distinct hd hk]
            refine List.map_congr_left fun kv hkv => ?_
            by_cases h3 : kv.1 = q ns (capitalize h.name)
            · have : kv.2 = shape := by
                have h4 := mget_of_mem hd hkv
                rw [h3] at h4
                rw [show ns ++ "#" ++ capitalize h.name = q ns (capitalize h.name) from rfl, h4] at hg
                cases hg; rfl
              simp [h3, this]
            · simp [h3]
    obtain ⟨g, hg1, hg2, hg3⟩ := key
    replace h2 := (congrArg (examplesFromSADL order ns s rest ·) hg3).symm.trans h2
    obtain ⟨f, hf, rfl⟩ := ih (by rw [GoMap.Distinct, map_fst_map]; exact hd) h2
    refine ⟨fun k sh => f k (g k sh), ⟨?_, ?_⟩, by simp [List.map_map, Function.comp_def]⟩
    · intro k sh hk
      rw [hg1 k sh (hk h (by simp)), hf.others k sh fun h' hh' => hk h' (by simp [hh'])]
    · intro k sh
      rcases hg2 k sh with e | ⟨v, e⟩ <;> rw [e]
      · exact hf.adds k sh
      · rcases hf.adds k (sh.put "smithy.api#examples" v) with e' | ⟨w, e'⟩ <;> rw [e']
        · exact .inr ⟨v, rfl⟩
        · exact .inr ⟨w, by simp [Shape.put, mset_mset]⟩

/-! ### The whole AST -/

/-- The shapes without the examples, given the changes that exceptions make. -/
def layout (suf : Suffixes) (ns : String) (s : Schema) : GoMap Shape :=
  s.types.map (fun td => (q ns td.name, marks ns (s.http.flatMap (·.exceptions)) (q ns td.name) (typeShape ns td))) ++
  s.http.flatMap (actionPairs suf ns s.base) ++ s.operations.flatMap (plainPairs suf ns) ++
  (if s.http = [] ∧ s.operations = [] then [] else [(q ns (capitalize s.name), serviceShape s (opTargets ns s))])

theorem layout_keys (suf : Suffixes) (ns : String) (s : Schema) : (layout suf ns s).map Prod.fst = (ShapeNames suf s).map (q ns) := by
  unfold layout ShapeNames
  simp only [List.map_append, List.map_map, Function.comp_def, List.map_flatMap, actionPairs_keys, plainPairs_keys]
  congr 1
  split <;> simp

theorem layout_distinct {suf : Suffixes} {ns : String} {s : Schema} (hc : NoClash suf s) : (layout suf ns s).Distinct := by
  rw [GoMap.Distinct, layout_keys]
  exact List.Nodup.map (fun a b h => q_inj.1 h) hc

/-- Without clashes the AST has exactly the shapes of the layout, in its order. -/
theorem fromSadl_layout {order : GoMap (GoMap Value) → GoMap (GoMap Value)} {suf : Suffixes} {m : Model} {ns : String} {ast : Ast}
    (hns : ns ≠ "") (hc : NoClash suf m.schema) (hx : ∀ h ∈ m.schema.http, ∀ x ∈ h.exceptions, Named m.schema x.type)
    (hr : fromSadl order suf m ns = .ok ast) :
    ∃ f, AddsExamples ns m.schema.http f ∧ ast.shapes = (layout suf ns m.schema).map (fun kv => (kv.1, f kv.1 kv.2)) ∧
      ast.metadata = if m.schema.base ≠ "" then [("base", .str m.schema.base)] else [] := by
  obtain ⟨_, sh1, sh2, h1, h2, rfl⟩ := fromSadl_steps.1 hr
  have hall : ((ShapeNames suf m.schema).map (q ns)).Nodup := List.Nodup.map (fun a b h => q_inj.1 h) hc
  unfold ShapeNames at hall
  simp only [List.map_append, List.map_map] at hall
  have hn3 := (List.nodup_append.1 hall).1
  have hn2 := (List.nodup_append.1 hn3).1
  have hn1 := (List.nodup_append.1 hn2).1
  have e1 : typeShapes ns m.schema.types [] = m.schema.types.map fun td => (q ns td.name, typeShape ns td) := by
    rw [typeShapes_fresh] <;> simp
    simpa [Function.comp_def] using hn1
  have k1 : (typeShapes ns m.schema.types []).map Prod.fst = m.schema.types.map (q ns ∘ (·.name)) := by
    simp [e1, Function.comp_def]
  have e2 := exportActions_fresh h1 (by rw [k1]; exact hn2) (by
    intro h hh x hxm
    rw [k1]
    obtain ⟨td, h3, h4⟩ := hx h hh x hxm
    exact List.mem_map.2 ⟨td, h3, by simp [h4]⟩)
  rw [e1, List.map_map] at e2
  have k2 : sh1.map Prod.fst = m.schema.types.map (q ns ∘ (·.name)) ++
      (m.schema.http.flatMap fun h => IoNames suf h ++ [OpName h]).map (q ns) := by
    rw [e2]
    simp [Function.comp_def, List.map_flatMap, actionPairs_keys]
  have e3 : serviceShapes suf ns m.schema sh1 = layout suf ns m.schema := by
    unfold serviceShapes layout
    rw [exportOperations_fresh (by rw [k2]; exact hn3)]
    have ho : opTargets ns m.schema = [] ↔ m.schema.http = [] ∧ m.schema.operations = [] := by
      simp [opTargets]
    by_cases h3 : m.schema.http = [] ∧ m.schema.operations = []
    · simp only [ho.2 h3, h3, ne_eq, not_true, if_false, if_true, and_self, List.append_nil]
      rw [e2]
      simp [Function.comp_def, h3]
    · have : ¬ opTargets ns m.schema = [] := fun hc => h3 (ho.1 hc)
      simp only [ne_eq, this, not_false_eq_true, if_true, h3, if_false]
      rw [show ns ++ "#" ++ capitalize m.schema.name = q ns (capitalize m.schema.name) from rfl, mset_of_not_mem]
      · rw [e2]; simp [Function.comp_def]
      · rw [List.map_append, k2]
        intro hcm
        rw [if_neg h3] at hall
        refine (List.nodup_append.1 hall).2.2 (q ns (capitalize m.schema.name)) ?_ (q ns (capitalize m.schema.name)) (by simp) rfl
        simpa [List.map_flatMap, plainPairs_keys] using hcm
  rw [e3] at h2
  unfold withExamples at h2
  split at h2
  · obtain ⟨f, hf, e⟩ := examplesFromSadl_adds hns (layout_distinct hc) h2
    exact ⟨f, hf, e, rfl⟩
  · simp only [Out.ok.injEq] at h2
    exact ⟨fun _ sh => sh, ⟨fun _ _ _ => rfl, fun _ _ => .inl rfl⟩, by simp [h2], rfl⟩

end Smithy
end Sadl
