import Verif.Lemmas.GoCompiles
/-
The generated file mirrors the schema.
-/
namespace Sadl
open Sadl.Spec

theorem forall₂_map_right {α β : Type} {R : α → β → Prop} {f : α → β} {l : List α} (h : ∀ a ∈ l, R a (f a)) :
    List.Forall₂ R l (l.map f) := by
  induction l with
  | nil => exact .nil
  | cons a l ih => exact .cons (h a (by simp)) (ih fun b hb => h b (by simp [hb]))

section
variable {m : Model} (hm : newModel m.schema = .ok m) {conf : GoConf} (hr : GoReady m.schema)
include hm

theorem fieldOf_mirrors {fd : StructFieldDef} (h : GoWritable m.schema fd.ts) :
    GoFieldOf m.schema conf.runtime fd (fieldOf m conf fd) :=
  ⟨rfl, rfl, by simp [fieldOf], (typeOf_iff hm h _).2 rfl⟩

theorem variantOf_mirrors {v : UnionVariantDef} (h : GoWritable m.schema v.ts) :
    GoVariantOf m.schema conf.runtime v (variantOf m conf v) :=
  ⟨rfl, rfl, rfl, (typeOf_iff hm h _).2 rfl⟩

omit hm in
theorem errorOf_mirrors (s : Schema) (n : String) : GoErrorOf s n (goErrorMethod (exceptionsOf s) n) := by
  unfold goErrorMethod GoErrorOf GoIsError
  split
  · next h => exact .inl ⟨(mem_exceptionsOf s n).1 h, rfl⟩
  · next h => exact .inr ⟨fun h' => h ((mem_exceptionsOf s n).2 h'), rfl⟩

include hr in
theorem declsOf_mirrors {td : TypeDef} (htd : td ∈ m.schema.types) :
    GoDeclsOf m.schema conf.runtime td (.heading td.name :: (declsOf m conf (exceptionsOf m.schema) td).1) := by
  have h := hr.1 td htd
  rcases goKinds_split.1 h.kind with k | k | k | k | k | k | k | k | k
  · simp only [declsOf, k, if_true]
    exact .struct k (forall₂_map_right fun f hf => fieldOf_mirrors hm (h.struct k f hf).2) (errorOf_mirrors _ _)
  · have e : (td.ts.variants.map fun v => capitalize v.name) = (td.ts.variants.map (variantOf m conf)).map (·.name) := by
      simp [variantOf]
    simp only [declsOf, k, if_true]
    rw [if_neg (by decide), e]
    exact .union k (forall₂_map_right fun f hf => variantOf_mirrors hm (h.union k f hf).2) (errorOf_mirrors _ _)
  · have : (declsOf m conf (exceptionsOf m.schema) td).1 = [.enum td.name (td.ts.elements.map fun e => (e.symbol, goEnumValue e))] := by
      simp [declsOf, k]
    rw [this]
    exact .enum k (forall₂_map_right fun el _ => ⟨rfl, (enumText_iff el _).2 rfl⟩)
  · have : (declsOf m conf (exceptionsOf m.schema) td).1 = [.defn td.name (.ident "string") ""] := by simp [declsOf, k]
    rw [this]; exact .string k
  · have : (declsOf m conf (exceptionsOf m.schema) td).1 = [.defn td.name (.ident "string") " //UUID"] := by simp [declsOf, k]
    rw [this]; exact .uuid k
  · have : (declsOf m conf (exceptionsOf m.schema) td).1 = [.defn td.name (.ident "Decimal") ""] := by simp [declsOf, k]
    rw [this]; exact .decimal k
  · have : (declsOf m conf (exceptionsOf m.schema) td).1 = [.defn td.name (.slice (tyOf m conf td.ts td.ts.items).1) ""] := by simp [declsOf, k]
    rw [this]; exact .array k ((itemsOf_iff hm (h.array k) _).2 rfl)
  · have : (declsOf m conf (exceptionsOf m.schema) td).1 =
        [.defn td.name (.map (tyOf m conf td.ts td.ts.keys).1 (tyOf m conf td.ts td.ts.items).1) ""] := by simp [declsOf, k]
    rw [this]; exact .map k ((keysOf_iff hm (h.map k) _).2 rfl) ((itemsOf_iff hm (h.map k).1 _).2 rfl)
  · have : (declsOf m conf (exceptionsOf m.schema) td).1 = [.defn td.name (.ident (uncapitalize td.ts.type)) "", .fromString td.name] := by
      simp only [goNumbers, List.mem_cons, List.not_mem_nil, or_false] at k
      rcases k with k | k | k | k | k | k <;> simp [declsOf, k]
    rw [this]; exact .number (number_iff.2 ⟨k, rfl⟩)

include hr in
theorem actionDecls_mirrors {hd : HttpDef} (h : hd ∈ m.schema.http) :
    GoActionDeclsOf m.schema conf.runtime hd (actionDecls m conf hd).1 := by
  obtain ⟨e, he, h5⟩ := (hr.2 hd h).expected
  have ho : outputsOf hd = e.outputs := by simp [outputsOf, he]
  have key : (actionDecls m conf hd).1 = [.struct (capitalize hd.name ++ "Request") (hd.inputs.map fun p => fieldOf m conf p.field),
      .struct (capitalize hd.name ++ "Response") (e.outputs.map fun p => fieldOf m conf p.field)] := by
    rw [← ho]; unfold actionDecls; dsimp only
  have hi : List.Forall₂ (fun p f => GoFieldOf m.schema conf.runtime p.field f) hd.inputs (hd.inputs.map fun p => fieldOf m conf p.field) :=
    forall₂_map_right fun p hp => fieldOf_mirrors hm ((hr.2 hd h).inputs p hp).2
  have hout : List.Forall₂ (fun p f => GoFieldOf m.schema conf.runtime p.field f) e.outputs (e.outputs.map fun p => fieldOf m conf p.field) :=
    forall₂_map_right fun p hp => fieldOf_mirrors hm (h5 p hp).2
  rw [key]
  unfold GoActionDeclsOf
  exact ⟨e, _, _, he, hi, hout, rfl⟩

include hr in
theorem fileOf_mirrors : GoMirrors conf.name conf.runtime m.schema (fileOf m conf).decls := by
  refine ⟨m.schema.http.map fun hd => (actionDecls m conf hd).1,
    m.schema.types.map fun td => .heading td.name :: (declsOf m conf (exceptionsOf m.schema) td).1, (goClosing (notesOf m conf)).1, ?_,
    forall₂_map_right fun hd h => actionDecls_mirrors hm hr h, forall₂_map_right fun td h => declsOf_mirrors hm hr h, ?_, ?_, ?_⟩
  · simp only [fileOf, ← List.flatMap_def, List.cons_append]
  · unfold goClosing
    by_cases h1 : GoNote.timestamp ∈ notesOf m conf <;> by_cases h2 : GoNote.decimal ∈ notesOf m conf <;> simp [h1, h2]
  · rw [← timestamp_noted (conf := conf) hr]
    unfold goClosing
    by_cases h1 : GoNote.timestamp ∈ notesOf m conf <;> by_cases h2 : GoNote.decimal ∈ notesOf m conf <;> simp [h1, h2]
  · rw [← decimal_noted (conf := conf) hr]
    unfold goClosing
    by_cases h1 : GoNote.timestamp ∈ notesOf m conf <;> by_cases h2 : GoNote.decimal ∈ notesOf m conf <;> simp [h1, h2]
end
end Sadl
