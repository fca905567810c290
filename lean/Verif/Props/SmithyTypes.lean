import Verif.Lemmas.SmithyRoundTrip
import Verif.Props.SmithyExport
/-
C61: types survive the export to Smithy and the import from it.  C62: so do actions and operations.
-/
namespace Sadl.Props
open Sadl Sadl.Spec Sadl.Smithy

theorem trip_of {order : MapOrder} {io : Bool} {confNs : String} {m : Model} (hm : newModel m.schema = .ok m)
    (hr : TripReady (chosen io) confNs m.schema) {ast : Ast} (he : exportSmithy order io confNs m = .ok ast) (T : Transport) :
    ∃ f, Trip T (chosen io) (TargetNs confNs m.schema) m.schema f (T.ast ast) := by
  have hready := (C58_succeeds_iff order io confNs m).1 ⟨ast, he⟩
  have hns : TargetNs confNs m.schema ≠ "" := by
    unfold TargetNs
    split
    · assumption
    · split
      · assumption
      · decide
  have he' : fromSadl order (chosen io) m (TargetNs confNs m.schema) = .ok ast := he
  obtain ⟨f, h1, h2, _⟩ := fromSadl_layout hns hr.clash hr.exceptions he'
  obtain ⟨_, h3, _⟩ := (newModel_ok_iff _ _).1 hm
  refine ⟨f, hr.hash, hr.own, hr.clash, fun h hh => (hr.names h hh).1, fun h hh => (hr.names h hh).2, hready.types, ?_, ?_, hready.expected,
    hr.exceptions, h1, ?_⟩
  · intro td htd e
    exact h3 td htd (by rw [e]; decide)
  · intro h hh
    obtain ⟨sh, hsh⟩ := (actionShape_ok m.schema.base h).2 (hready.paginated h hh)
    rw [opShape, hsh]
  · simp only [Transport.ast, h2, List.map_map, Function.comp_def]

/-! ### C61 -/

/-- C61 (part): the import of the exported AST succeeds; it has a type for every type, in the same order and with the same name,
and the types that `SmithyKept` describes are the same again, whatever the others are.
Missing: the types that `SmithyKept` excludes, for which the property is false, see below. -/
theorem C61_types_partial (order : MapOrder) (io : Bool) (confNs : String) (m : Model) (hm : newModel m.schema = .ok m)
    (hr : TripReady (chosen io) confNs m.schema) (ast : Ast) (he : exportSmithy order io confNs m = .ok ast)
    (T : Transport) (lib : SLib) (version : String) (conf : SConf) :
    ∃ m', Smithy.toSadl lib (chosen io) version (T.ast ast) conf = .ok m' ∧
      List.Forall₂ (fun td td' => td'.name = td.name ∧ (SmithyKept lib T td → SameSmithyType m.schema td td')) m.schema.types m'.schema.types := by
  obtain ⟨f, t⟩ := trip_of hm hr he T
  obtain ⟨h1, h2, _⟩ := (newModel_ok_iff _ _).1 hm
  obtain ⟨m', k1, k2, _⟩ := t.model_back lib version conf h1 h2
  exact ⟨m', k1, k2⟩

theorem conforms_congr {lib : Lib} {D D' : String → TypeSpec → Prop} (h : ∀ n ts, D n ts → D' n ts) {ts : TypeSpec} {v : Value}
    (hc : Conforms lib D ts v) : Conforms lib D' ts v := by
  induction hc with
  | bool b h1 h2 => exact .bool b h1 h2
  | string s h1 h2 h3 => exact .string s h1 h2 h3
  | enum s h1 h2 h3 h4 => exact .enum s h1 h2 h3 h4
  | number d h1 h2 h3 => exact .number d h1 h2 h3
  | timestampPtr h1 h2 => exact .timestampPtr h1 h2
  | timestampText s h1 h2 h3 => exact .timestampText s h1 h2 h3
  | uuid s h1 h2 => exact .uuid s h1 h2
  | uuidText s h1 h2 h3 => exact .uuidText s h1 h2 h3
  | unitValue val unit d tv tu h1 h2 h3 h4 h5 h6 _ h7 _ ih1 ih2 => exact .unitValue val unit d tv tu h1 h2 h3 h4 h5 (h _ _ h6) ih1 (h _ _ h7) ih2
  | struct kvs h1 h2 h3 h4 _ ih => exact .struct kvs h1 h2 h3 h4 ih
  | arrayAny xs h1 h2 h3 h4 => exact .arrayAny xs h1 h2 h3 h4
  | arrayOf xs ti h1 h2 h3 h4 _ h5 ih => exact .arrayOf xs ti h1 h2 h3 (h _ _ h4) ih h5
  | mapAny kvs h1 h2 h3 h4 => exact .mapAny kvs h1 h2 h3 h4
  | mapOf kvs ti h1 h2 h3 h4 _ h5 ih => exact .mapOf kvs ti h1 h2 h3 (h _ _ h4) ih h5
  | bytes h1 => exact .bytes h1
  | any h1 => exact .any h1
  | named t h1 h2 _ ih => exact .named t h1 (h _ _ h2) ih

theorem defines_back {s s' : Schema} (h : List.Forall₂ (fun td td' : TypeDef => td'.name = td.name ∧ td'.ts = td.ts) s.types s'.types)
    (n : String) (ts : TypeSpec) : Defines s' n ts ↔ Defines s n ts := by
  have key : (∃ td ∈ s'.types, td.name = n ∧ td.ts = ts) ↔ ∃ td ∈ s.types, td.name = n ∧ td.ts = ts := by
    generalize s.types = l at h ⊢
    generalize s'.types = l' at h ⊢
    induction h with
    | nil => simp
    | cons hx _ ih => simp only [List.mem_cons, exists_eq_or_imp, ih, hx.1, hx.2]
  unfold Defines
  rw [key]

/-- C61 (part): if all types are kept, the imported types admit exactly the values that the original ones admit. -/
theorem C61_values_partial (order : MapOrder) (io : Bool) (confNs : String) (m : Model) (hm : newModel m.schema = .ok m)
    (hr : TripReady (chosen io) confNs m.schema) (ast : Ast) (he : exportSmithy order io confNs m = .ok ast)
    (T : Transport) (lib : SLib) (version : String) (conf : SConf) (hk : ∀ td ∈ m.schema.types, SmithyKept lib T td)
    (vlib : Lib) :
    ∃ m', Smithy.toSadl lib (chosen io) version (T.ast ast) conf = .ok m' ∧
      ∀ n v, Conforms vlib (Defines m'.schema) { type := n } v ↔ Conforms vlib (Defines m.schema) { type := n } v := by
  obtain ⟨m', h1, h2⟩ := C61_types_partial order io confNs m hm hr ast he T lib version conf
  refine ⟨m', h1, fun n v => ?_⟩
  have h3 : List.Forall₂ (fun td td' : TypeDef => td'.name = td.name ∧ td'.ts = td.ts) m.schema.types m'.schema.types := by
    rw [List.forall₂_iff_get] at h2 ⊢
    refine ⟨h2.1, fun i hi hi' => ?_⟩
    have := h2.2 i hi hi'
    exact ⟨this.1, (this.2 (hk _ (List.get_mem _ _))).ts⟩
  exact ⟨conforms_congr fun n ts h => (defines_back h3 n ts).1 h, conforms_congr fun n ts h => (defines_back h3 n ts).2 h⟩

/-! ### C62 -/

/-- C62 (part): the imported model has an action for every action and an operation for every operation, in the same order,
and those that `ActionKept` and `OperationKept` describe are the same again, except that the base is part of
the paths and that exactly the parameters in the path are required.
Missing: the others, for which the property is false, see below. -/
theorem C62_actions_partial (order : MapOrder) (io : Bool) (confNs : String) (m : Model) (hm : newModel m.schema = .ok m)
    (hr : TripReady (chosen io) confNs m.schema) (ast : Ast) (he : exportSmithy order io confNs m = .ok ast)
    (T : Transport) (lib : SLib) (version : String) (conf : SConf) :
    ∃ m', Smithy.toSadl lib (chosen io) version (T.ast ast) conf = .ok m' ∧
      List.Forall₂ (fun h h' => ActionKept lib T m.schema h → SameAction m.schema.base h h') m.schema.http m'.schema.http ∧
      List.Forall₂ (fun od od' => OperationKept od → od' = od) m.schema.operations m'.schema.operations := by
  obtain ⟨f, t⟩ := trip_of hm hr he T
  obtain ⟨h1, h2, _⟩ := (newModel_ok_iff _ _).1 hm
  obtain ⟨m', k1, _, k3, k4⟩ := t.model_back lib version conf h1 h2
  exact ⟨m', k1, k3.imp fun _ _ h => h.2, k4.imp fun _ _ h => h.2⟩

/-! ### An example -/

mutual
/-- What becomes of a value in a JSON file: numbers are read as float64, lists of strings as lists.  Integers that a
float64 does not hold, and other values, do not matter here. -/
def jsonValue : Value → Value
  | .int n => .float64 (.fin n 0)
  | .int64 n => .float64 (.fin n 0)
  | .dec d => .float64 d
  | .strArr l => .arr (l.map .str)
  | .arr xs => .arr (jsonValues xs)
  | .obj kvs => .obj (jsonFields kvs)
  | v => v
def jsonValues : List Value → List Value
  | [] => []
  | v :: r => jsonValue v :: jsonValues r
def jsonFields : List (String × Value) → List (String × Value)
  | [] => []
  | (k, v) :: r => (k, jsonValue v) :: jsonFields r
end

theorem jsonValues_map (xs : List Value) : jsonValues xs = xs.map jsonValue := by
  induction xs with
  | nil => rfl
  | cons v r ih => simp [jsonValues, ih]

theorem jsonFields_map (kvs : List (String × Value)) : jsonFields kvs = kvs.map fun kv => (kv.1, jsonValue kv.2) := by
  induction kvs with
  | nil => rfl
  | cons kv r ih => obtain ⟨k, v⟩ := kv; simp [jsonFields, ih]

/-- The AST is written to a JSON file and read again. -/
def throughJson : Transport where
  carry := jsonValue
  str _ := by simp [jsonValue]
  bool _ := by simp [jsonValue]
  arr _ := by simp [jsonValue, jsonValues_map]
  obj _ := by simp [jsonValue, jsonFields_map]

/-- Numbers are read as one expects. -/
def plainS : SLib where
  truth _ := false
  int
    | .int n => n
    | .int64 n => n
    | .float64 (.fin n 0) => n
    | _ => 0
  text _ := ""
  wild := 0

theorem json_size (n : Int) (h : n ≠ 0) (h1 : -(2 : Int) ^ 63 ≤ n) (h2 : n < 2 ^ 63) : SizeKept plainS throughJson n := by
  refine ⟨h, ?_⟩
  simp only [throughJson, jsonValue, asInt64, truncInt]
  simp only [le_refl, if_true, Int.toNat_zero, pow_zero, mul_one]
  rw [if_pos ⟨h1, h2⟩]

theorem json_tags (t : String) (ht : t ≠ "") : TagsKept throughJson [("x_tags", t)] :=
  .inr ⟨t, rfl, ht, fun l => by simp [throughJson, jsonValue]⟩

theorem json_status (n : Int) (h : n ≠ 0) (h1 : -2 ^ 31 ≤ n) (h2 : n < 2 ^ 31) : StatusKept plainS throughJson n :=
  ⟨h, h1, h2, by simp [throughJson, jsonValue, plainS]⟩

/-- A schema of kept types, actions and operations. -/
def farm : Schema :=
  { name := "farm", «namespace» := "farm", base := "/v1", types :=
      [{ name := "Species", comment := "A species.", annotations := [("x_tags", "a,b")],
         ts := { type := "Enum", elements := [{ symbol := "CAT" }, { symbol := "DOG", annotations := [("x_enumValue", "dog")] }] } },
       { name := "Name", ts := { type := "String", pattern := "[a-z]*", minSize := some 1, maxSize := some 20 } },
       { name := "Grade", ts := { type := "String", values := some ["a", "b+"] } },
       { name := "Id", ts := { type := "UUID" } },
       { name := "Age", ts := { type := "Int8" } },
       { name := "Names", annotations := [("x_unique", "true")], ts := { type := "Array", items := "Name" } },
       { name := "Ages", ts := { type := "Map", keys := "Name", items := "Int32" } },
       { name := "Animal", ts := { type := "Struct", fields :=
          [{ name := "name", required := true, ts := { type := "Name" } }, { name := "species", ts := { type := "Species" } },
           { name := "weight", ts := { type := "Float64" } }] } },
       { name := "Found", ts := { type := "Union", variants := [{ name := "Animal", ts := { type := "Animal" } }, { name := "Names", ts := { type := "Names" } }] } },
       { name := "NotFound", ts := { type := "Struct", fields := [{ name := "message", ts := { type := "String" } }] } }],
    http := [{ method := "GET", path := "/animals/{name}?limit={limit}&skip={skip}", name := "getAnimal", comment := "Finds animals.",
               annotations := [("x_tags", "animals")],
               inputs := [{ path := true, field := { name := "name", required := true, ts := { type := "Name" } } },
                          { query := "limit", field := { name := "limit", ts := { type := "Int32" } } },
                          { header := "X-Trace", field := { name := "trace", ts := { type := "String" } } },
                          { query := "skip", field := { name := "skip", ts := { type := "Int32" } } }],
               expected := some { status := 200, outputs := [{ field := { name := "body", ts := { type := "Animal" } } },
                 { header := "ETag", field := { name := "tag", ts := { type := "String" } } }] },
               exceptions := [{ type := "NotFound", status := 404 }] }],
    operations := [{ name := "feed", comment := "Feeds an animal.", inputs := [{ name := "animal", ts := { type := "Animal" } }],
                     outputs := [{ name := "left", ts := { type := "Int32" } }] }] }

theorem farm_ready (io : Bool) : TripReady (chosen io) "" farm where
  hash := by decide
  own := by decide
  clash := by unfold NoClash; cases io <;> decide
  names := by
    intro h hh
    simp only [farm, List.mem_singleton] at hh
    subst hh
    decide
  exceptions := by
    intro h hh x hx
    simp only [farm, List.mem_singleton] at hh
    subst hh
    simp only [List.mem_singleton] at hx
    subst hx
    exact ⟨{ name := "NotFound", ts := { type := "Struct", fields := [{ name := "message", ts := { type := "String" } }] } },
      by simp [farm], rfl⟩

theorem farm_types : ∀ td ∈ farm.types, SmithyKept plainS throughJson td := by
  have tidy0 : TidyComment "" := .inl (by decide)
  have ref : ∀ t, t ∈ ["Name", "Species", "Float64", "String", "Int32", "Animal", "Names"] → RefKept t := by
    intro t ht
    exact (by decide : ∀ t ∈ ["Name", "Species", "Float64", "String", "Int32", "Animal", "Names"], t ≠ "UUID" ∧ t ≠ "Array") t ht
  intro td h
  simp only [farm, List.mem_cons, List.not_mem_nil, or_false] at h
  rcases h with rfl | rfl | rfl | rfl | rfl | rfl | rfl | rfl | rfl | rfl
  · refine .enum _ (.inl (by decide)) (json_tags _ (by decide)) (by decide) ?_ rfl
    intro e he
    simp only [List.mem_cons, List.not_mem_nil, or_false] at he
    rcases he with rfl | rfl
    · exact ⟨rfl, .inl rfl⟩
    · exact ⟨rfl, .inr ⟨"dog", by decide, rfl⟩⟩
  · refine .string "[a-z]*" (some 1) (some 20) none tidy0 rfl (by decide) ?_ (by simp) rfl
    intro n hn
    rcases hn with hn | hn <;> (injection hn with hn; subst hn; exact json_size _ (by decide) (by decide) (by decide))
  · exact .string "" none none (some ["a", "b+"]) tidy0 rfl (by decide) (by simp) (by simp) rfl
  · exact .uuid tidy0 rfl rfl
  · exact .number "Int8" none none tidy0 (.inl rfl) (by decide) (by simp) rfl
  · exact .array "Name" tidy0 (.inr rfl) (ref _ (by simp)) rfl
  · exact .map "Name" "Int32" tidy0 rfl (ref _ (by simp)) (ref _ (by simp)) rfl
  · refine .struct _ tidy0 (.inl rfl) (by decide) ?_ rfl
    intro f hf
    simp only [List.mem_cons, List.not_mem_nil, or_false] at hf
    rcases hf with rfl | rfl | rfl
    · exact ⟨"Name", ref _ (by simp), rfl⟩
    · exact ⟨"Species", ref _ (by simp), rfl⟩
    · exact ⟨"Float64", ref _ (by simp), rfl⟩
  · refine .union _ tidy0 (.inl rfl) (by decide) ?_ rfl
    intro v hv
    simp only [List.mem_cons, List.not_mem_nil, or_false] at hv
    rcases hv with rfl | rfl
    · exact ⟨tidy0, "Animal", by unfold VariantKept; decide, rfl⟩
    · exact ⟨tidy0, "Names", by unfold VariantKept; decide, rfl⟩
  · refine .struct _ tidy0 (.inl rfl) (by decide) ?_ rfl
    intro f hf
    simp only [List.mem_cons, List.not_mem_nil, or_false] at hf
    subst hf
    exact ⟨"String", ref _ (by simp), rfl⟩

theorem farm_actions : ∀ h ∈ farm.http, ActionKept plainS throughJson farm h := by
  intro h hh
  simp only [farm, List.mem_singleton] at hh
  subst hh
  have par : ∀ t : String, t ≠ "UUID" ∧ t ≠ "Array" → ∀ p : HttpParamSpec, p.field.ts = { type := t } → ParamTypeKept p := fun t h p e => ⟨t, h, e⟩
  refine ⟨⟨?_, by decide⟩, .inl (by decide), json_tags _ (by decide), rfl, ⟨"/animals/{name}", by decide, by decide⟩, by decide, ?_, ?_, ?_, ?_⟩
  · intro c r e
    have : "getAnimal".toList = 'g' :: "etAnimal".toList := by decide
    rw [this] at e
    injection e with e1 _
    subst e1
    decide
  · intro p hp
    simp only [List.mem_cons, List.not_mem_nil, or_false] at hp
    rcases hp with rfl | rfl | rfl | rfl
    · exact ⟨par "Name" (by decide) _ rfl, by decide, by decide⟩
    · exact ⟨par "Int32" (by decide) _ rfl, by decide, by decide⟩
    · exact ⟨par "String" (by decide) _ rfl, by decide, by decide⟩
    · exact ⟨par "Int32" (by decide) _ rfl, by decide, by decide⟩
  · exact .inr ⟨_, List.mem_cons_self, .inl rfl⟩
  · refine ⟨_, rfl, json_status _ (by decide) (by decide) (by decide), by decide, ?_, .inr ⟨_, List.mem_cons_self, rfl⟩⟩
    intro p hp
    simp only [List.mem_cons, List.not_mem_nil, or_false] at hp
    rcases hp with rfl | rfl
    · exact ⟨par "Animal" (by decide) _ rfl, rfl, rfl⟩
    · exact ⟨par "String" (by decide) _ rfl, rfl, rfl⟩
  · intro x hx
    simp only [List.mem_singleton] at hx
    subst hx
    refine ⟨json_status _ (by decide) (by decide) (by decide), ?_⟩
    intro h' hh' x' hx' _
    simp only [farm, List.mem_singleton] at hh'
    subst hh'
    simp only [List.mem_singleton] at hx'
    subst hx'
    rfl

theorem farm_operations : ∀ od ∈ farm.operations, OperationKept od := by
  intro od hod
  simp only [farm, List.mem_singleton] at hod
  subst hod
  refine ⟨?_, .inl (by decide), rfl, by decide, ?_, by decide, ?_, rfl⟩
  · intro c r e
    have : "feed".toList = 'f' :: "eed".toList := by decide
    rw [this] at e
    injection e with e1 _
    subst e1
    decide
  · intro p hp
    simp only [List.mem_singleton] at hp
    subst hp
    exact ⟨"Animal", ⟨by decide, by decide⟩, rfl⟩
  · intro p hp
    simp only [List.mem_singleton] at hp
    subst hp
    exact ⟨"Int32", ⟨by decide, by decide⟩, rfl⟩

/-- The example is exported, written to a file, read and imported: it has the same types, the same action up to the base, and the same
operation. -/
example : ∃ m ast m', m.schema = farm ∧ exportSmithy id true "" m = .ok ast ∧
    Smithy.toSadl plainS (chosen true) "" (throughJson.ast ast) {} = .ok m' ∧
    List.Forall₂ (SameSmithyType farm) farm.types m'.schema.types ∧ List.Forall₂ (SameAction "/v1") farm.http m'.schema.http ∧
    m'.schema.operations = farm.operations := by
  have hok : ∃ m, newModel farm = .ok m := by
    refine ⟨_, (newModel_ok_iff _ _).2 ⟨by decide, by decide, by decide, rfl⟩⟩
  obtain ⟨m, hm⟩ := hok
  have hs : m.schema = farm := by obtain ⟨_, _, _, rfl⟩ := (newModel_ok_iff _ _).1 hm; rfl
  have hready : SmithyReady (chosen true) m.schema := by
    rw [hs]
    refine ⟨by decide, ?_, ?_, ?_, by simp [farm], by simp [farm]⟩
    · intro h hh; simp only [farm, List.mem_singleton] at hh; subst hh; simp
    · intro h hh v hv; simp only [farm, List.mem_singleton] at hh; subst hh; simp [mget] at hv
    · intro pre h post e x hx
      left
      have hh : h ∈ farm.http := by rw [e]; simp
      exact (farm_ready true).exceptions h hh x hx
  obtain ⟨ast, he⟩ := (C58_succeeds_iff id true "" m).2 hready
  obtain ⟨m', h1, h2⟩ := C61_types_partial id true "" m (by rw [hs]; exact hm) (by rw [hs]; exact farm_ready true) ast he throughJson plainS "" {}
  obtain ⟨m'', h3, h4, h5⟩ := C62_actions_partial id true "" m (by rw [hs]; exact hm) (by rw [hs]; exact farm_ready true) ast he throughJson plainS "" {}
  rw [h1] at h3
  injection h3 with h3
  subst h3
  rw [hs] at h2 h4 h5
  have all : ∀ {α β : Type} {P : α → Prop} {Q : α → β → Prop} {l : List α} {l' : List β}, List.Forall₂ (fun a b => P a → Q a b) l l' →
      (∀ a ∈ l, P a) → List.Forall₂ Q l l' := by
    intro α β P Q l l' h
    induction h with
    | nil => exact fun _ => .nil
    | cons a _ ih => exact fun hp => .cons (a (hp _ (by simp))) (ih fun b hb => hp b (by simp [hb]))
  refine ⟨m, ast, m', hs, he, h1, all (h2.imp fun _ _ h => h.2) farm_types, all h4 farm_actions, ?_⟩
  have := all h5 farm_operations
  generalize farm.operations = l at this ⊢
  generalize m'.schema.operations = l' at this ⊢
  induction this with
  | nil => rfl
  | cons a _ ih => rw [a, ih]

/-! ### What is false -/

/-- Exports a model, carries the AST and imports it again. -/
def tripped (T : Transport) (m : Model) : Option Model :=
  match exportSmithy id false "" m with
  | .ok ast => match Smithy.toSadl plainS (chosen false) "" (T.ast ast) {} with
    | .ok m' => some m'
    | _ => none
  | _ => none

/-- The type `Foo` has the property, and then no longer. -/
def smithyChangesB (T : Transport) (q : TypeDef → Bool) (m : Model) : Bool :=
  m.schema.types.any (fun td => td.name == "Foo" && q td) &&
  match tripped T m with
  | some m' => m'.schema.types.all (fun td => td.name != "Foo" || !q td)
  | none => false

/-- Some accepted source defines a type with the property `q` that, after export and import, does not have it any more. -/
def SmithyChanges (T : Transport) (q : TypeDef → Bool) : Prop :=
  ∃ lib m ast m' td, Accepted lib m ∧ exportSmithy id false "" m = .ok ast ∧
    Smithy.toSadl plainS (chosen false) "" (T.ast ast) {} = .ok m' ∧ td ∈ m.schema.types ∧ q td = true ∧
    ∀ td' ∈ m'.schema.types, td'.name = td.name → q td' = false

theorem smithyChanges_of (lib : PLib) (T : Transport) (toks : List Token) (q : TypeDef → Bool)
    (h1 : toks.all (fun t => decide (t.type = .symbol → t.text ≠ "")) = true)
    (h : accepts lib toks (smithyChangesB T q) = true) : SmithyChanges T q := by
  obtain ⟨m, hm, h⟩ := accepted_of lib toks _ h1 h
  unfold smithyChangesB tripped at h
  rw [Bool.and_eq_true] at h
  obtain ⟨h2, h⟩ := h
  obtain ⟨td, h3, h4⟩ := List.any_eq_true.1 h2
  rw [Bool.and_eq_true, beq_iff_eq] at h4
  cases hd : exportSmithy id false "" m with
  | ok ast =>
    rw [hd] at h
    dsimp only at h
    cases hs : Smithy.toSadl plainS (chosen false) "" (T.ast ast) {} with
    | ok m' =>
      rw [hs] at h
      refine ⟨lib, m, ast, m', td, hm, hd, hs, h3, h4.2, fun td' h5 h6 => ?_⟩
      have := List.all_eq_true.1 h td' h5
      rw [h6, h4.1] at this
      simpa using this
    | _ => rw [hs] at h; simp at h
  | _ => rw [hd] at h; simp at h

/-- `(name=3)` -/
def optThree (name : String) : List Token := [punct .openParen, sym name, punct .equals, num "3", punct .closeParen]


/-- `type Foo …` -/
def smithyFoo (spec : List Token) : List Token := [sym "type", sym "Foo"] ++ spec ++ [nl]

/-- `type Foo Struct { a … }` -/
def smithyField (spec : List Token) : List Token :=
  smithyFoo ([sym "Struct", punct .openBrace, nl, sym "a"] ++ spec ++ [nl, punct .closeBrace])

/-- A library that reads every decimal as 3. -/
def threes : PLib := { noLib with parseDecimal := fun _ => some (.fin 3 0) }

/-- The sizes of strings do not survive if the AST is imported without being written to a file. -/
theorem C61_refuted_size : SmithyChanges inMemory (fun td => td.ts.minSize.isSome) :=
  smithyChanges_of noLib _ (smithyFoo ([sym "String"] ++ optThree "minsize")) _ (by decide +kernel) (by decide +kernel)

/-- The limits of numbers do not survive if it is written to a file. -/
theorem C61_refuted_limit : SmithyChanges throughJson (fun td => td.ts.min.isSome) :=
  smithyChanges_of threes _ (smithyFoo ([sym "Int32"] ++ optThree "min")) _ (by decide +kernel) (by decide +kernel)

/-- The sizes of arrays do not survive at all. -/
theorem C61_refuted_array_size : SmithyChanges throughJson (fun td => td.ts.maxSize.isSome) :=
  smithyChanges_of noLib _ (smithyFoo ([sym "Array"] ++ optThree "maxsize")) _ (by decide +kernel) (by decide +kernel)

/-- UUIDs become strings. -/
theorem C61_refuted_uuid : SmithyChanges throughJson (fun td => td.ts.fields.any (·.ts.type == "UUID")) :=
  smithyChanges_of noLib _ (smithyField [sym "UUID"]) _ (by decide +kernel) (by decide +kernel)

/-- Constraints written at a field do not survive. -/
theorem C61_refuted_field_size : SmithyChanges throughJson (fun td => td.ts.fields.any (·.ts.minSize.isSome)) :=
  smithyChanges_of noLib _ (smithyField ([sym "String"] ++ optThree "minsize")) _ (by decide +kernel) (by decide +kernel)

/-- Arrays written at a field do not survive. -/
theorem C61_refuted_field_array : SmithyChanges throughJson (fun td => td.ts.fields.any (·.ts.type == "Array")) :=
  smithyChanges_of noLib _ (smithyField [sym "Array"]) _ (by decide +kernel) (by decide +kernel)

/-- Default values do not survive. -/
theorem C61_refuted_default :
    SmithyChanges throughJson (fun td => td.ts.fields.any fun f => match f.default with | .null => false | _ => true) :=
  smithyChanges_of noLib _ (smithyField [sym "String", punct .openParen, sym "default", punct .equals, str "x", punct .closeParen]) _
    (by decide +kernel) (by decide +kernel)

/-- Comments of fields do not survive. -/
theorem C61_refuted_field_comment : SmithyChanges throughJson (fun td => td.ts.fields.any (·.comment != "")) :=
  smithyChanges_of noLib _ (smithyField [sym "String", { type := .lineComment, text := " hello" }]) _
    (by decide +kernel) (by decide +kernel)

/-- Comments of the symbols of an enumeration do not survive. -/
theorem C61_refuted_symbol_comment : SmithyChanges throughJson (fun td => td.ts.elements.any (·.comment != "")) :=
  smithyChanges_of noLib _ (smithyFoo [sym "Enum", punct .openBrace, nl, sym "a",
    { type := .lineComment, text := " hello" }, nl, punct .closeBrace]) _ (by decide +kernel) (by decide +kernel)

/-- Annotations other than `x_tags` do not survive. -/
theorem C61_refuted_annotation : SmithyChanges throughJson (fun td => !td.annotations.isEmpty) :=
  smithyChanges_of noLib _ (smithyFoo [sym "Struct", punct .openParen, sym "x_foo", punct .equals, str "a",
    punct .closeParen, punct .openBrace, nl, punct .closeBrace]) _ (by decide +kernel) (by decide +kernel)

/-! ### Actions that change -/

/-- Some accepted source has an action with the property `q`, and none after export and import. -/
def SmithyActionChanges (T : Transport) (q : HttpDef → Bool) : Prop :=
  ∃ lib m ast m' h, Accepted lib m ∧ exportSmithy id false "" m = .ok ast ∧
    Smithy.toSadl plainS (chosen false) "" (T.ast ast) {} = .ok m' ∧ h ∈ m.schema.http ∧ q h = true ∧
    ∀ h' ∈ m'.schema.http, q h' = false

/-- An action has the property, and then none has it. -/
def smithyActionChangesB (T : Transport) (q : HttpDef → Bool) (m : Model) : Bool :=
  m.schema.http.any q &&
  match tripped T m with
  | some m' => m'.schema.http.all (fun h => !q h)
  | none => false

theorem smithyActionChanges_of (lib : PLib) (T : Transport) (toks : List Token) (q : HttpDef → Bool)
    (h1 : toks.all (fun t => decide (t.type = .symbol → t.text ≠ "")) = true)
    (h : accepts lib toks (smithyActionChangesB T q) = true) : SmithyActionChanges T q := by
  obtain ⟨m, hm, h⟩ := accepted_of lib toks _ h1 h
  unfold smithyActionChangesB tripped at h
  rw [Bool.and_eq_true] at h
  obtain ⟨h2, h⟩ := h
  obtain ⟨hd0, h3, h4⟩ := List.any_eq_true.1 h2
  cases hd : exportSmithy id false "" m with
  | ok ast =>
    rw [hd] at h
    dsimp only at h
    cases hs : Smithy.toSadl plainS (chosen false) "" (T.ast ast) {} with
    | ok m' =>
      rw [hs] at h
      refine ⟨lib, m, ast, m', hd0, hm, hd, hs, h3, h4, fun h' hh' => ?_⟩
      have := List.all_eq_true.1 h h' hh'
      simpa using this
    | err e => rw [hs] at h; simp at h
    | panic e => rw [hs] at h; simp at h
  | err e => rw [hd] at h; simp at h
  | panic e => rw [hd] at h; simp at h

/-- `type Foo Struct { }` and `http GET "/foo/{id}?n={m}" (operation=getFoo) { id String; m Int32; …; expect 200 { foo Foo } }`,
with further inputs and perhaps a base path. -/
def smithyGet (pre path ins : List Token) : List Token :=
  pre ++ [sym "type", sym "Foo", sym "Struct", punct .openBrace, punct .closeBrace, nl,
    sym "http", sym "GET"] ++ path ++ [punct .openParen, sym "operation", punct .equals, sym "getFoo", punct .closeParen,
    punct .openBrace, nl] ++ ins ++
  [sym "expect", num "200", punct .openBrace, nl, sym "foo", sym "Foo", nl, punct .closeBrace, nl, punct .closeBrace, nl]

/-- The path and query inputs of `smithyGet`. -/
def smithyIns : List Token := [sym "id", sym "String", nl, sym "m", sym "Int32", nl]

/-- A header input of `smithyGet`. -/
def smithyHeader : List Token :=
  [sym "h", sym "String", punct .openParen, sym "header", punct .equals, str "X-H", punct .closeParen, nl]

/-- The query parameter of the path template is renamed: `?n={m}` becomes `?m={m}`. -/
theorem C62_refuted_query : SmithyActionChanges throughJson (fun h => h.path == "/foo/{id}?n={m}") :=
  smithyActionChanges_of noLib _ (smithyGet [] [str "/foo/{id}?n={m}"] smithyIns) _ (by decide +kernel) (by decide +kernel)

/-- The base path becomes part of the path of the action. -/
theorem C62_refuted_base : SmithyActionChanges throughJson (fun h => h.path == "/foo") :=
  smithyActionChanges_of noLib _ (smithyGet [sym "base", str "/v1", nl] [str "/foo"] []) _ (by decide +kernel) (by decide +kernel)

/-- The required body of a response is no longer required. -/
theorem C62_refuted_required_output : SmithyActionChanges throughJson (fun h => match h.expected with
    | some e => e.outputs.any (·.field.required) | none => false) :=
  smithyActionChanges_of noLib _ (smithyGet [] [str "/foo"] []) _ (by decide +kernel) (by decide +kernel)

/-- An action whose only input is a header gets a body instead of it. -/
theorem C62_refuted_header : SmithyActionChanges throughJson (fun h => h.inputs.any (·.header == "X-H")) :=
  smithyActionChanges_of noLib _ (smithyGet [] [str "/foo"] smithyHeader) _ (by decide +kernel) (by decide +kernel)

/-- A required header is no longer required. -/
theorem C62_refuted_required_header :
    SmithyActionChanges throughJson (fun h => h.inputs.any fun p => p.field.required && p.header == "X-H") :=
  smithyActionChanges_of noLib _ (smithyGet [] [str "/foo/{id}"] ([sym "id", sym "String", nl] ++ smithyHeader)) _
    (by decide +kernel) (by decide +kernel)

end Sadl.Props
