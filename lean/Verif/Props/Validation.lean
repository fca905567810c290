import Verif.Lemmas.ValidateApi
/-
C01-C10: model construction, lookup, validation of values.
Each theorem is followed by an `example` meeting its hypotheses.
-/
namespace Sadl.Props
open Sadl Sadl.Spec

/-! A concrete schema used by the examples. -/

/-- Example library behaviour. -/
def exLib : Lib :=
  { regexMatch := fun p s => if p = "[" then none else some (decide (s = "abc"))
    parseDecimal := fun s => if s = "123" then some (.fin 123 0) else none
    timestampOk := fun s => decide (s = "2020-01-01T00:00:00.000Z") }

def exColor : TypeDef :=
  { name := "Color", ts := { type := "Enum", elements := [{ symbol := "RED" }, { symbol := "BLUE" }] } }
def exCode : TypeDef :=
  { name := "Code", ts := { type := "String", minSize := some 2, maxSize := some 3, pattern := "a.c" } }
def exByte : TypeDef := { name := "Byte", ts := { type := "Int8" } }
def exSmall : TypeDef := { name := "Small", ts := { type := "Int32", min := some (.fin 1 0), max := some (.fin 5 1) } }
/-- a recursive struct: `Node { color Color (required); next Nodes }` -/
def exNode : TypeDef :=
  { name := "Node"
    ts := { type := "Struct",
            fields := [{ name := "color", required := true, ts := { type := "Color" } },
                       { name := "next", ts := { type := "Nodes" } }] } }
def exNodes : TypeDef := { name := "Nodes", ts := { type := "Array", items := "Node", maxSize := some 2 } }
def exScores : TypeDef := { name := "Scores", ts := { type := "Map", keys := "String", items := "Small", minSize := some 1 } }
def exAction : HttpDef := { name := "getNode", method := "GET", path := "/nodes" }

def exSchema : Schema :=
  { types := [exColor, exCode, exByte, exSmall, exNode, exNodes, exScores], http := [exAction] }

def exModel : Model :=
  { schema := exSchema
    typeIndex := baseIndex ++ exSchema.types.map (fun td => (td.name, td))
    httpIndex := exSchema.http.map (fun hd => (hd.name, hd)) }

theorem exModel_ok : newModel exSchema = .ok exModel := by
  rw [newModel_ok_iff]
  refine ⟨by decide, ?_, by decide, rfl⟩
  have : exSchema.types.map TypeDef.name = ["Color", "Code", "Byte", "Small", "Node", "Nodes", "Scores"] := rfl
  intro td htd
  have hm : td.name ∈ exSchema.types.map TypeDef.name := List.mem_map.2 ⟨td, htd, rfl⟩
  rw [this] at hm
  revert hm
  generalize td.name = n
  simp only [List.mem_cons, List.not_mem_nil, or_false]
  rintro (rfl | rfl | rfl | rfl | rfl | rfl | rfl) <;> decide

/-! ### C01 -/

/-- C01: `NewModel` succeeds exactly when all names are distinct and no built-in name is
reused; otherwise it returns an error (and never crashes). -/
theorem C01_newModel_iff_unique (s : Schema) :
    ((∃ m, newModel s = .ok m) ↔
      (s.types.map (·.name)).Nodup ∧ (∀ td ∈ s.types, td.name ∉ BaseTypes) ∧ (s.http.map (·.name)).Nodup) ∧
    ((¬ ∃ m, newModel s = .ok m) → ∃ e, newModel s = .err e) := by
  constructor
  · constructor
    · rintro ⟨m, h⟩
      obtain ⟨h1, h2, h3, _⟩ := (newModel_ok_iff s m).1 h
      exact ⟨h1, h2, h3⟩
    · rintro ⟨h1, h2, h3⟩
      exact ⟨_, (newModel_ok_iff s _).2 ⟨h1, h2, h3, rfl⟩⟩
  · intro h
    cases hs : newModel s with
    | ok m => exact absurd ⟨m, hs⟩ h
    | err e => exact ⟨e, rfl⟩
    | panic e => exact absurd hs (newModel_no_panic s e)

/-- C01: the model returned holds the given schema unchanged. -/
theorem C01_newModel_keeps_schema (s : Schema) (m : Model) (h : newModel s = .ok m) : m.schema = s := by
  obtain ⟨_, _, _, rfl⟩ := (newModel_ok_iff s m).1 h
  rfl

example : ∃ m, newModel exSchema = .ok m := ⟨_, exModel_ok⟩
example : ∃ e, newModel { types := [exByte, exColor, exByte] } = .err e := by
  refine (C01_newModel_iff_unique _).2 ?_
  rw [(C01_newModel_iff_unique _).1]
  rintro ⟨h, -⟩
  revert h; decide

/-! ### C02 -/

/-- C02: what `FindType` returns. -/
theorem C02_findType (s : Schema) (m : Model) (h : newModel s = .ok m) (n : String) (td : TypeDef) :
    m.findType n = some td ↔
      (td ∈ s.types ∧ td.name = n) ∨ (n ∈ BaseTypes ∧ td = { name := n, ts := { type := n } }) :=
  newModel_findType_iff h n td

/-- C02: `FindType` finds nothing exactly for undefined names. -/
theorem C02_findType_none (s : Schema) (m : Model) (h : newModel s = .ok m) (n : String) :
    m.findType n = none ↔ n ∉ BaseTypes ∧ ∀ td ∈ s.types, td.name ≠ n := by
  constructor
  · intro hn
    constructor
    · intro hb
      have := (C02_findType s m h n _).2 (Or.inr ⟨hb, rfl⟩)
      rw [hn] at this; cases this
    · intro td htd e
      have := (C02_findType s m h n td).2 (Or.inl ⟨htd, e⟩)
      rw [hn] at this; cases this
  · rintro ⟨h1, h2⟩
    cases hf : m.findType n with
    | none => rfl
    | some td =>
      rcases (C02_findType s m h n td).1 hf with ⟨a, b⟩ | ⟨a, _⟩
      · exact absurd b (h2 td a)
      · exact absurd a h1

/-- C02: a lookup never returns a definition with another name. -/
theorem C02_findType_name (s : Schema) (m : Model) (h : newModel s = .ok m) (n : String) (td : TypeDef)
    (hf : m.findType n = some td) : td.name = n := by
  rcases (C02_findType s m h n td).1 hf with ⟨_, e⟩ | ⟨_, rfl⟩
  · exact e
  · rfl

/-- C02: what `FindHttp` returns. -/
theorem C02_findHttp (s : Schema) (m : Model) (h : newModel s = .ok m) (n : String) :
    (∀ hd, m.findHttp n = some hd ↔ hd ∈ s.http ∧ hd.name = n) ∧
    (m.findHttp n = none ↔ ∀ hd ∈ s.http, hd.name ≠ n) := by
  refine ⟨fun hd => newModel_findHttp_iff h n hd, ?_⟩
  constructor
  · intro hn hd hmem e
    have := (newModel_findHttp_iff h n hd).2 ⟨hmem, e⟩
    rw [hn] at this; cases this
  · intro hall
    cases hf : m.findHttp n with
    | none => rfl
    | some hd =>
      obtain ⟨a, b⟩ := (newModel_findHttp_iff h n hd).1 hf
      exact absurd b (hall hd a)

example : exModel.findType "Node" = some exNode :=
  (C02_findType _ _ exModel_ok _ _).2 (Or.inl ⟨by simp [exSchema], rfl⟩)
example : exModel.findType "Nope" = none :=
  (C02_findType_none _ _ exModel_ok _).2 ⟨by decide, by
    intro td htd
    simp only [exSchema, List.mem_cons, List.not_mem_nil, or_false] at htd
    rcases htd with rfl | rfl | rfl | rfl | rfl | rfl | rfl <;> decide⟩

/-! ### C03 -/

/-- C03: `Validate` accepts exactly the values that conform to the named type. -/
theorem C03_accepts_iff_conforms (lib : Lib) (s : Schema) (m : Model) (h : newModel s = .ok m)
    (name : String) (v : Value) (hv : Real v) :
    Accepts lib m name v ↔ ∃ ts, Defines s name ts ∧ Conforms lib (Defines s) ts v :=
  accepts_conforms h hv

/-- C03: an error is never reported for a conforming value. -/
theorem C03_rejects_not_conforms (lib : Lib) (s : Schema) (m : Model) (h : newModel s = .ok m)
    (name : String) (v : Value) (hv : Real v) (hr : Rejects lib m name v) :
    ¬ ∃ ts, Defines s name ts ∧ Conforms lib (Defines s) ts v := by
  rw [← accepts_conforms h hv]
  rintro ⟨n, hn⟩
  obtain ⟨n', e, hn'⟩ := hr
  cases validate_agree hn hn'

/-- C03: the verdict is unique: a value is not both accepted and rejected. -/
theorem C03_verdict_unique (lib : Lib) (m : Model) (name : String) (v : Value) :
    ¬ (Accepts lib m name v ∧ Rejects lib m name v) := by
  rintro ⟨⟨n, hn⟩, n', e, hn'⟩
  cases validate_agree hn hn'

/-- a list of two nodes, one of them nested -/
def exTree : Value :=
  .arr [.obj [("color", .str "RED"), ("next", .arr [.obj [("color", .strPtr "BLUE")]])],
        .obj [("color", .str "BLUE")]]

theorem exTree_real : Real exTree := by
  have atom : ∀ s, Real (.str s) := fun s => .atom (by simp) (by simp)
  have atom' : ∀ s, Real (.strPtr s) := fun s => .atom (by simp) (by simp)
  have leaf : ∀ x, Real x → Real (.obj [("color", x)]) := by
    intro x hx
    refine .obj (by simp) ?_
    intro k y hy
    simp at hy
    rw [hy.2]; exact hx
  refine .arr ?_
  intro x hx
  simp only [List.mem_cons, List.not_mem_nil, or_false] at hx
  rcases hx with rfl | rfl
  · refine .obj (by decide) ?_
    intro k y hy
    simp only [List.mem_cons, Prod.mk.injEq, List.not_mem_nil, or_false] at hy
    rcases hy with ⟨_, rfl⟩ | ⟨_, rfl⟩
    · exact atom _
    · refine .arr ?_
      intro x hx
      simp at hx
      rw [hx]; exact leaf _ (atom' _)
  · exact leaf _ (atom _)

example : Accepts exLib exModel "Nodes" exTree := ⟨9, by decide⟩
example : ∃ ts, Defines exSchema "Nodes" ts ∧ Conforms exLib (Defines exSchema) ts exTree :=
  (C03_accepts_iff_conforms exLib _ _ exModel_ok _ _ exTree_real).1 ⟨9, by decide⟩
example : Rejects exLib exModel "Nodes" (.arr [.obj [("colour", .str "RED")]]) := ⟨6, _, rfl⟩

/-! ### C04 -/

/-- C04: acceptance does not depend on the enumeration order of object keys, at any depth. -/
theorem C04_order_independent (lib : Lib) (m : Model) (name : String) (v w : Value)
    (hv : Real v) (hvw : Reordered v w) : Accepts lib m name v ↔ Accepts lib m name w := by
  have key : ∀ v w, Real v → Reordered v w → Accepts lib m name v → Accepts lib m name w := by
    intro v w hv hvw h
    rw [accepts_iff] at h ⊢
    obtain ⟨ts, h1, n, h2⟩ := h
    exact ⟨ts, h1, n, validateSpec_reordered n hvw hv ts h2⟩
  exact ⟨key v w hv hvw, key w v (reordered_real hvw hv) (reordered_symm hvw)⟩

/-- C04: with `C05`'s termination, rejection is independent of the order too. -/
theorem C04_rejection_order_independent (lib : Lib) (s : Schema) (m : Model) (h : newModel s = .ok m)
    (ht : Terminating s) (name : String) (hn : name ≠ "Union") (v w : Value)
    (hv : Real v) (hvw : Reordered v w) : Rejects lib m name v ↔ Rejects lib m name w := by
  have fin : ∀ v, Accepts lib m name v ∨ Rejects lib m name v := by
    intro v
    cases hf : m.findType name with
    | none => exact Or.inr ⟨0, _, by rw [validate, validateNamed, hf]; rfl⟩
    | some td =>
      obtain ⟨n, hh⟩ := halts_all (lib := lib) (terminating_flat h ht) v td.ts (terminating_flat h ht _ _ hf hn).2
      have hval : validate lib m n name v = validateSpec lib m n td.ts v := by simp [validate, validateNamed, hf]
      cases hr : validateSpec lib m n td.ts v with
      | none => exact absurd hr hh
      | some r => cases r with
        | ok u => exact Or.inl ⟨n, by rw [hval, hr]⟩
        | error e => exact Or.inr ⟨n, e, by rw [hval, hr]⟩
  have ne : ∀ v, Rejects lib m name v ↔ ¬ Accepts lib m name v := by
    intro v
    constructor
    · exact fun hr ha => C03_verdict_unique lib m name v ⟨ha, hr⟩
    · intro hna
      exact (fin v).resolve_left hna
  rw [ne, ne, C04_order_independent lib m name v w hv hvw]

example : Accepts exLib exModel "Node" (.obj [("next", .arr []), ("color", .str "RED")]) := by
  refine (C04_order_independent exLib exModel "Node" (.obj [("color", .str "RED"), ("next", .arr [])]) _ ?_ ?_).1
    ⟨5, by decide⟩
  · refine .obj (by decide) ?_
    intro k x hx
    simp only [List.mem_cons, Prod.mk.injEq, List.not_mem_nil, or_false] at hx
    rcases hx with ⟨_, rfl⟩ | ⟨_, rfl⟩
    · exact .atom (by simp) (by simp)
    · exact .arr (by simp)
  · refine .obj (by simpa using List.Perm.swap _ _ _) ?_
    intro k x y hx hy
    simp only [List.mem_cons, Prod.mk.injEq, List.not_mem_nil, or_false] at hx hy
    rcases hx with ⟨rfl, rfl⟩ | ⟨rfl, rfl⟩ <;> simp at hy <;> subst hy <;> exact .same _

/-! ### C05 -/

/-- C05, restricted to schemas in which every definition has a built-in supertype and no
definition mentions `Union`: `Validate` always returns.  Missing: types involving `Union`,
for which the claim is false (`C05_union_runs_forever`). -/
theorem C05_terminates_partial (lib : Lib) (s : Schema) (m : Model) (h : newModel s = .ok m)
    (ht : Terminating s) (name : String) (hn : name ≠ "Union") (v : Value) :
    Accepts lib m name v ∨ Rejects lib m name v := by
  cases hf : m.findType name with
  | none => exact Or.inr ⟨0, _, by rw [validate, validateNamed, hf]; rfl⟩
  | some td =>
    obtain ⟨n, hh⟩ := halts_all (lib := lib) (terminating_flat h ht) v td.ts (terminating_flat h ht _ _ hf hn).2
    have hval : validate lib m n name v = validateSpec lib m n td.ts v := by simp [validate, validateNamed, hf]
    cases hr : validateSpec lib m n td.ts v with
    | none => exact absurd hr hh
    | some r => cases r with
      | ok u => exact Or.inl ⟨n, by rw [hval, hr]⟩
      | error e => exact Or.inr ⟨n, e, by rw [hval, hr]⟩

/-- C05 is false in general: in every model, validating any value whatsoever against any
type defined as a `Union` never returns. -/
theorem C05_union_runs_forever (lib : Lib) (s : Schema) (m : Model) (h : newModel s = .ok m)
    (td : TypeDef) (htd : td ∈ s.types) (hu : td.ts.type = "Union") (v : Value) :
    RunsForever lib m td.name v := by
  intro fuel
  have hf : m.findType td.name = some td := (newModel_findType_iff h _ _).2 (Or.inl ⟨htd, rfl⟩)
  have hU : m.findType "Union" = some (baseTypeDef "Union") :=
    (newModel_findType_iff h _ _).2 (Or.inr ⟨by decide, rfl⟩)
  simp only [validate, validateNamed, hf]
  exact union_diverges hU rfl fuel td.ts hu v

def exUnion : Schema :=
  { types := [{ name := "U", ts := { type := "Union", variants := [{ name := "s", ts := { type := "String" } }] } }] }

/-- C05 refuted: a concrete schema, type and value. -/
theorem C05_refuted : ∃ (s : Schema) (m : Model), newModel s = .ok m ∧
    ∀ lib, RunsForever lib m "U" (.str "x") :=
  ⟨exUnion, _, rfl, fun lib => C05_union_runs_forever lib exUnion _ rfl _ (by simp [exUnion]; rfl) rfl _⟩

theorem exSchema_terminating : Terminating exSchema := by
  intro td htd
  simp only [exSchema, List.mem_cons, List.not_mem_nil, or_false] at htd
  have nf : ∀ ts : TypeSpec, ts.fields = [] → ts.type ≠ "Union" → ts.items ≠ "Union" → ts.value ≠ "Union" →
      ts.unit ≠ "Union" → NoUnion ts := by
    intro ts h1 h2 h3 h4 h5
    exact ⟨h2, h3, h4, h5, by rw [h1]; simp⟩
  rcases htd with rfl | rfl | rfl | rfl | rfl | rfl | rfl
  · exact ⟨by decide, nf _ rfl (by decide) (by decide) (by decide) (by decide)⟩
  · exact ⟨by decide, nf _ rfl (by decide) (by decide) (by decide) (by decide)⟩
  · exact ⟨by decide, nf _ rfl (by decide) (by decide) (by decide) (by decide)⟩
  · exact ⟨by decide, nf _ rfl (by decide) (by decide) (by decide) (by decide)⟩
  · refine ⟨by decide, ⟨by decide, by decide, by decide, by decide, ?_⟩⟩
    intro f hf
    simp only [exNode, List.mem_cons, List.not_mem_nil, or_false] at hf
    rcases hf with rfl | rfl
    · exact nf _ rfl (by decide) (by decide) (by decide) (by decide)
    · exact nf _ rfl (by decide) (by decide) (by decide) (by decide)
  · exact ⟨by decide, nf _ rfl (by decide) (by decide) (by decide) (by decide)⟩
  · exact ⟨by decide, nf _ rfl (by decide) (by decide) (by decide) (by decide)⟩

example (v : Value) : Accepts exLib exModel "Nodes" v ∨ Rejects exLib exModel "Nodes" v :=
  C05_terminates_partial exLib exSchema exModel exModel_ok exSchema_terminating "Nodes" (by decide) v

/-! ### C06 -/

/-- C06, explicit bounds: a numeric type accepts exactly the decimals within its declared
bounds, inclusively.  Missing: the implied range of the integer types, which is not
enforced (`C06_int_range_not_enforced`). -/
theorem C06_explicit_bounds_partial (lib : Lib) (s : Schema) (m : Model) (h : newModel s = .ok m)
    (td : TypeDef) (htd : td ∈ s.types) (ht : td.ts.type ∈ NumericNames) (v : Value) :
    Accepts lib m td.name v ↔ ∃ d, v = .dec d ∧
      (∀ lo, td.ts.min = some lo → NumLe lo d) ∧ (∀ hi, td.ts.max = some hi → NumLe d hi) := by
  rw [accepts_step h (Or.inl ⟨td, htd, rfl, rfl⟩)]
  simp only [step_number ht, validateNumber_vok ht, exists_const]
  rfl

/-- C06 is false: without explicit bounds, every number, of whatever size and whether
integral or not, is accepted by the integer types. -/
theorem C06_int_range_not_enforced (lib : Lib) (s : Schema) (m : Model) (h : newModel s = .ok m)
    (td : TypeDef) (htd : td ∈ s.types) (ht : td.ts.type ∈ ["Int8", "Int16", "Int32", "Int64"])
    (h1 : td.ts.min = none) (h2 : td.ts.max = none) (d : BigFloat) : Accepts lib m td.name (.dec d) := by
  have hn : td.ts.type ∈ NumericNames := by
    simp only [List.mem_cons, List.not_mem_nil, or_false] at ht
    rcases ht with e | e | e | e <;> rw [e] <;> decide
  rw [C06_explicit_bounds_partial lib s m h td htd hn]
  exact ⟨d, rfl, by simp [h1], by simp [h2]⟩

/-- C06 refuted: 1000.5 is accepted as an Int8. -/
theorem C06_refuted : ∃ (s : Schema) (m : Model), newModel s = .ok m ∧
    (∃ td ∈ s.types, td.name = "Byte" ∧ td.ts.type = "Int8") ∧
    ∀ lib, Accepts lib m "Byte" (.dec (.fin 2001 (-1))) :=
  ⟨exSchema, exModel, exModel_ok, ⟨exByte, by simp [exSchema], rfl, rfl⟩, fun lib =>
    C06_int_range_not_enforced lib exSchema exModel exModel_ok exByte (by simp [exSchema]) (by decide) rfl rfl _⟩

example : Accepts exLib exModel "Small" (.dec (.fin 10 0)) := ⟨1, by decide⟩
example : Rejects exLib exModel "Small" (.dec (.fin 11 0)) := ⟨1, _, rfl⟩
example : Rejects exLib exModel "Small" (.dec (.fin 1 (-1))) := ⟨1, _, rfl⟩

/-! ### C07 -/

/-- C07: exactly which values a String type accepts. -/
theorem C07_string (lib : Lib) (s : Schema) (m : Model) (h : newModel s = .ok m)
    (td : TypeDef) (htd : td ∈ s.types) (ht : td.ts.type = "String") (v : Value) :
    Accepts lib m td.name v ↔ ∃ text, (v = .str text ∨ v = .strPtr text) ∧
      (∀ lo, td.ts.minSize = some lo → lo ≤ (text.utf8ByteSize : Int)) ∧
      (∀ hi, td.ts.maxSize = some hi → (text.utf8ByteSize : Int) ≤ hi) ∧
      (∀ vals, td.ts.values = some vals → text ∈ vals) ∧
      (td.ts.values = none → td.ts.pattern ≠ "" → lib.regexMatch td.ts.pattern text = some true) := by
  rw [accepts_step h (Or.inl ⟨td, htd, rfl, rfl⟩)]
  simp only [step_string ht, validateString_vok, exists_const, StringOk, Within, IsText, Bytes, and_assoc]

example : Accepts exLib exModel "Code" (.str "abc") := ⟨1, by decide⟩
example : Rejects exLib exModel "Code" (.str "abcd") := ⟨1, _, rfl⟩
example : Rejects exLib exModel "Code" (.str "ab") := ⟨1, _, rfl⟩

/-! ### C08 -/

/-- C08: an Enum type accepts exactly its non-empty declared symbols. -/
theorem C08_enum (lib : Lib) (s : Schema) (m : Model) (h : newModel s = .ok m)
    (td : TypeDef) (htd : td ∈ s.types) (ht : td.ts.type = "Enum") (v : Value) :
    Accepts lib m td.name v ↔ ∃ sym, (v = .str sym ∨ v = .strPtr sym) ∧ sym ≠ "" ∧
      ∃ el ∈ td.ts.elements, el.symbol = sym := by
  rw [accepts_step h (Or.inl ⟨td, htd, rfl, rfl⟩)]
  simp only [step_enum ht, validateEnum_vok, exists_const, IsText]

example : Accepts exLib exModel "Color" (.strPtr "BLUE") := ⟨1, by decide⟩
example : Rejects exLib exModel "Color" (.str "blue") := ⟨1, _, rfl⟩

/-! ### C09 -/

/-- C09: exactly which values a Struct type accepts. -/
theorem C09_struct (lib : Lib) (s : Schema) (m : Model) (h : newModel s = .ok m)
    (td : TypeDef) (htd : td ∈ s.types) (ht : td.ts.type = "Struct") (v : Value) (hv : Real v) :
    Accepts lib m td.name v ↔ ∃ kvs, v = .obj kvs ∧
      (∀ f ∈ td.ts.fields, f.required = true → ∃ x, (f.name, x) ∈ kvs) ∧
      (∀ k x, (k, x) ∈ kvs → ∃ f ∈ td.ts.fields, f.name = k) ∧
      (∀ f ∈ td.ts.fields, ∀ x, (f.name, x) ∈ kvs → Conforms lib (Defines s) f.ts x) := by
  have hd : Defines s td.name td.ts := Or.inl ⟨td, htd, rfl, rfl⟩
  rw [accepts_conforms h hv]
  constructor
  · rintro ⟨ts, h1, h2⟩
    rw [defines_unique h h1 hd] at h2
    cases h2 with
    | struct kvs _ a b c d => exact ⟨kvs, a, c, b, d⟩
    | number d hN _ _ => rw [ht] at hN; simp [NumericNames] at hN
    | named t hN _ _ => rw [ht] at hN; simp [MeaningfulNames, NumericNames] at hN
    | _ => simp_all
  · rintro ⟨kvs, a, b, c, d⟩
    exact ⟨td.ts, hd, .struct kvs ht a c b d⟩

/-- C09, for fields whose declared type is a plain type name: the value stored under the field
is accepted by `Validate` for that name. -/
theorem C09_struct_field_named (lib : Lib) (s : Schema) (m : Model) (h : newModel s = .ok m)
    (td : TypeDef) (htd : td ∈ s.types) (ht : td.ts.type = "Struct") (kvs : List (String × Value))
    (hv : Real (.obj kvs)) (ha : Accepts lib m td.name (.obj kvs))
    (f : StructFieldDef) (hf : f ∈ td.ts.fields) (hft : f.ts.type ∉ MeaningfulNames)
    (x : Value) (hx : (f.name, x) ∈ kvs) : Accepts lib m f.ts.type x := by
  obtain ⟨kvs', e, _, _, hc⟩ := (C09_struct lib s m h td htd ht _ hv).1 ha
  cases e
  have hxr : Real x := by
    cases hv with
    | obj _ hh => exact hh _ _ hx
    | atom _ hh => exact absurd rfl (hh kvs)
  have hcx := hc f hf x hx
  rw [accepts_conforms h hxr]
  cases hcx with
  | named t _ h1 h2 => exact ⟨t, h1, h2⟩
  | number d hN _ _ => exact absurd (by simp only [MeaningfulNames, List.mem_append]; exact Or.inl hN) hft
  | _ => simp_all [MeaningfulNames, NumericNames]

example : Accepts exLib exModel "Node" (.obj [("color", .str "RED")]) := ⟨5, by decide⟩
example : Rejects exLib exModel "Node" (.obj [("next", .arr [])]) := ⟨5, _, rfl⟩
example : Rejects exLib exModel "Node" (.obj [("color", .str "RED"), ("size", .null)]) := ⟨5, _, rfl⟩

/-! ### C10 -/

/-- C10: exactly which values an Array type accepts. -/
theorem C10_array (lib : Lib) (s : Schema) (m : Model) (h : newModel s = .ok m)
    (td : TypeDef) (htd : td ∈ s.types) (ht : td.ts.type = "Array") (v : Value) :
    Accepts lib m td.name v ↔ ∃ xs, v = .arr xs ∧
      (∀ lo, td.ts.minSize = some lo → lo ≤ (xs.length : Int)) ∧
      (∀ hi, td.ts.maxSize = some hi → (xs.length : Int) ≤ hi) ∧
      (td.ts.items = "Any" ∨
        (td.ts.items ≠ "Any" ∧ (∃ ti, Defines s td.ts.items ti) ∧ ∀ x ∈ xs, Accepts lib m td.ts.items x)) := by
  rw [accepts_step h (Or.inl ⟨td, htd, rfl, rfl⟩)]
  simp only [step_array ht, validateArray_vok, means_eq_defines h, Within]
  constructor
  · rintro ⟨n, xs, e, ⟨a, b⟩, c⟩
    refine ⟨xs, e, a, b, ?_⟩
    rcases c with c | ⟨c, t, d1, d2⟩
    · exact Or.inl c
    · refine Or.inr ⟨c, ⟨t, d1⟩, fun x hx => ?_⟩
      rw [accepts_iff, means_eq_defines h]
      exact ⟨t, d1, n, d2 x hx⟩
  · rintro ⟨xs, e, a, b, c⟩
    rcases c with c | ⟨c, ⟨t, d1⟩, d2⟩
    · exact ⟨0, xs, e, ⟨a, b⟩, Or.inl c⟩
    · obtain ⟨n, hn⟩ := common_bound xs (fun x n => validateSpec lib m n t x = vok)
        (fun x n n' hn hP => validateSpec_vok_mono hn hP)
        (fun x hx => by
          obtain ⟨t', h1, n, h2⟩ := accepts_iff.1 (d2 x hx)
          rw [means_eq_defines h] at h1
          rw [defines_unique h h1 d1] at h2
          exact ⟨n, h2⟩)
      exact ⟨n, xs, e, ⟨a, b⟩, Or.inr ⟨c, t, d1, hn⟩⟩

/-- C10: exactly which values a Map type accepts. -/
theorem C10_map (lib : Lib) (s : Schema) (m : Model) (h : newModel s = .ok m)
    (td : TypeDef) (htd : td ∈ s.types) (ht : td.ts.type = "Map") (v : Value) :
    Accepts lib m td.name v ↔ ∃ kvs, v = .obj kvs ∧
      (∀ lo, td.ts.minSize = some lo → lo ≤ (kvs.length : Int)) ∧
      (∀ hi, td.ts.maxSize = some hi → (kvs.length : Int) ≤ hi) ∧
      (td.ts.items = "Any" ∨
        (td.ts.items ≠ "Any" ∧ (∃ ti, Defines s td.ts.items ti) ∧
          ∀ k x, (k, x) ∈ kvs → Accepts lib m td.ts.items x)) := by
  rw [accepts_step h (Or.inl ⟨td, htd, rfl, rfl⟩)]
  simp only [step_map ht, validateMap_vok, means_eq_defines h, Within]
  constructor
  · rintro ⟨n, xs, e, ⟨a, b⟩, c⟩
    refine ⟨xs, e, a, b, ?_⟩
    rcases c with c | ⟨c, t, d1, d2⟩
    · exact Or.inl c
    · refine Or.inr ⟨c, ⟨t, d1⟩, fun k x hx => ?_⟩
      rw [accepts_iff, means_eq_defines h]
      exact ⟨t, d1, n, d2 k x hx⟩
  · rintro ⟨xs, e, a, b, c⟩
    rcases c with c | ⟨c, ⟨t, d1⟩, d2⟩
    · exact ⟨0, xs, e, ⟨a, b⟩, Or.inl c⟩
    · obtain ⟨n, hn⟩ := common_bound xs (fun kv n => validateSpec lib m n t kv.2 = vok)
        (fun x n n' hn hP => validateSpec_vok_mono hn hP)
        (fun kv hx => by
          obtain ⟨t', h1, n, h2⟩ := accepts_iff.1 (d2 kv.1 kv.2 hx)
          rw [means_eq_defines h] at h1
          rw [defines_unique h h1 d1] at h2
          exact ⟨n, h2⟩)
      exact ⟨n, xs, e, ⟨a, b⟩, Or.inr ⟨c, t, d1, fun k x hx => hn (k, x) hx⟩⟩

example : Accepts exLib exModel "Scores" (.obj [("a", .dec (.fin 3 0)), ("b", .dec (.fin 1 2))]) := ⟨3, by decide⟩
example : Rejects exLib exModel "Scores" (.obj []) := ⟨3, _, rfl⟩
example : Rejects exLib exModel "Nodes" (.arr [.null]) := ⟨4, _, rfl⟩

end Sadl.Props
