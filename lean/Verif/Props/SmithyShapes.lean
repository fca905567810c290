import Verif.Lemmas.SmithyShapes
import Verif.Props.SmithyTypes
/-
C117: the import of a Smithy model keeps its shapes.
-/
namespace Sadl
namespace Props
open Sadl.Spec Sadl.Smithy

theorem toSadl_parts {lib : SLib} {suf : Suffixes} {version : String} {ast : Ast} {conf : SConf} {m : Model} (h : Smithy.toSadl lib suf version ast conf = .ok m) :
    ∃ found io imp, scanShapes conf.service ast.shapes ("", "") [] = .ok (found, io) ∧ importShapes lib suf ast io found.1 ast.shapes {} = .ok imp ∧
      m.schema.types = imp.types ∧ m.schema.name = (if conf.name = "" then stripNamespace found.1 else conf.name) ∧
      m.schema.namespace = (if conf.namespace = "example" then "" else conf.namespace) ∧ m.schema.version = found.2 ∧ m.schema.base = conf.base ∧
      m.schema.annotations = importMetadata ast.metadata [] := by
  unfold Smithy.toSadl at h
  obtain ⟨⟨found, io⟩, h1, h⟩ := Out.bind_eq_ok.1 h
  obtain ⟨imp, h2, h⟩ := Out.bind_eq_ok.1 h
  have h3 := ((newModel_ok_iff _ _).1 h).2.2.2
  subst h3
  exact ⟨found, io, imp, h1, h2, rfl, rfl, rfl, rfl, rfl, rfl⟩

/-- C117: every shape of an imported Smithy model that is not the input or output of an operation becomes a type that says the same.
Missing: booleans, strings named UUID, and the lengths of lists and maps; see the refutations below. -/
theorem C117_shapes_partial (lib : SLib) (suf : Suffixes) (version : String) (ast : Ast) (conf : SConf) (m : Model)
    (h : Smithy.toSadl lib suf version ast conf = .ok m) (name : String) (s : Shape) (hs : (name, s) ∈ ast.shapes) (ht : s.type ∈ shapeKinds)
    (hb : NotBound ast name) (hu : s.type = "string" → stripNamespace name ≠ "UUID") : ∃ td ∈ m.schema.types, ShapeKept name s td := by
  obtain ⟨found, io, imp, h1, h2, h3, -⟩ := toSadl_parts h
  have hio : name ∉ io := by
    intro hm
    rcases scanShapes_io h1 name hm with h4 | ⟨k, op, h4, h5, h6⟩
    · cases h4
    · rcases h6 with h6 | h6
      · exact (hb k op h4 h5).1 h6
      · exact (hb k op h4 h5).2 h6
  rw [h3]
  exact importShapes_kept h2 hs hio ht hu

/-- C117: the name, version, base, namespace and metadata of an imported Smithy model. -/
theorem C117_head (lib : SLib) (suf : Suffixes) (version : String) (ast : Ast) (conf : SConf) (m : Model)
    (hd : ast.shapes.Distinct) (hm : ast.metadata.Distinct) (h : Smithy.toSadl lib suf version ast conf = .ok m) : SmithyHeadKept ast conf m.schema := by
  obtain ⟨found, io, imp, h1, h2, h3, h4, h5, h6, h7, h8⟩ := toSadl_parts h
  have hf := (scanShapes_found hd h1).1
  constructor
  · intro hn; rw [h4, if_neg hn]
  · intro ns loc s hn hs ht hh hc
    have hne : ns ++ "#" ++ loc ≠ "" := by
      intro e
      have := congrArg String.toList e
      simp [String.toList_append] at this
    have := hf _ _ hs ht hne hc
    dsimp only at this
    rw [h4, if_pos hn, this, local_name ns loc hh]
  · intro k s hs ht hk hc
    have := hf _ _ hs ht hk hc
    dsimp only at this
    rw [h6, this]
  · intro hn; rw [h5, if_neg hn]
  · exact h7
  · intro k t hk h9 h10; rw [h8]; exact (importMetadata_get hm).1 k t hk h9 h10

/-- A model with a service, an operation and shapes of many kinds. -/
def shopAst : Ast where
  metadata := [("owner", .str "me")]
  shapes := [("x#Shop", { type := "service", version := "1.2" }), ("x#Get", { type := "operation", input := some "x#GetIn" }),
    ("x#GetIn", { type := "structure" }), ("x#Count", { type := "integer", traits := [("smithy.api#range", .obj [("min", .dec (.fin 1 0))])] }),
    ("x#Code", { type := "string", traits := [("smithy.api#length", .obj [("max", .float64 (.fin 9 0))]), ("smithy.api#pattern", .str "a*"), ("smithy.api#documentation", .str "The code")] }),
    ("x#Item", { type := "structure", members := [("code", { target := "x#Code", traits := [("smithy.api#required", .bool true)] }), ("flag", { target := "smithy.api#Boolean" })] }),
    ("x#Items", { type := "list", member := some { target := "x#Item" } }),
    ("x#Either", { type := "union", members := [("a", { target := "x#Item" }), ("b", { target := "x#Count" })] })]

/-- The model is imported. -/
theorem shop_imported : ∃ m, Smithy.toSadl plainS {} "" shopAst {} = .ok m := by
  have h : (match Smithy.toSadl plainS {} "" shopAst {} with | .ok _ => true | _ => false) = true := by decide +kernel
  cases hm : Smithy.toSadl plainS {} "" shopAst {} with
  | ok m => exact ⟨m, rfl⟩
  | _ => rw [hm] at h; cases h

theorem shop_notBound {name : String} (h : name ≠ "x#GetIn") : NotBound shopAst name := by
  intro k op hm ht
  simp only [shopAst, List.mem_cons, Prod.mk.injEq, List.not_mem_nil, or_false] at hm
  rcases hm with ⟨-, rfl⟩ | ⟨-, rfl⟩ | ⟨-, rfl⟩ | ⟨-, rfl⟩ | ⟨-, rfl⟩ | ⟨-, rfl⟩ | ⟨-, rfl⟩ | ⟨-, rfl⟩
  case inr.inl => exact ⟨fun e => h (Option.some.inj e).symm, by simp⟩
  all_goals (exfalso; revert ht; decide)

/-- Its structure has its two fields, the first of them required. -/
example : ∃ m td f g, Smithy.toSadl plainS {} "" shopAst {} = .ok m ∧ td ∈ m.schema.types ∧ td.name = "Item" ∧ td.ts.fields = [f, g] ∧
    f.ts.type = "Code" ∧ f.required = true ∧ g.ts.type = "Bool" ∧ g.required = false ∧ m.schema.name = "Shop" ∧ m.schema.version = "1.2" ∧
    mget m.schema.annotations "x_owner" = some "me" := by
  obtain ⟨m, hm⟩ := shop_imported
  obtain ⟨td, h1, h2⟩ := C117_shapes_partial _ _ _ _ _ _ hm "x#Item" _ (.tail _ (.tail _ (.tail _ (.tail _ (.tail _ (.head _)))))) (by decide) (shop_notBound (by decide)) (by decide)
  have h3 := C117_head _ _ _ _ _ _ (by unfold GoMap.Distinct; decide) (by unfold GoMap.Distinct; decide) hm
  have h4 := (h2.structure_ rfl).2
  generalize hfs : td.ts.fields = fs at h4
  cases h4 with
  | cons a b => cases b with
    | cons c d => cases d with
      | nil =>
        exact ⟨m, td, _, _, hm, h1, h2.name "x" "Item" (by decide) (by decide), hfs, a.type.own "x" "Code" (by decide) (by decide) (by decide), a.required rfl,
          c.type.prelude _ (by decide), c.optional rfl, h3.service "x" "Shop" _ rfl (.head _) rfl (by decide) (.inl rfl),
          h3.version "x#Shop" _ (.head _) rfl (by decide) (.inl rfl), h3.metadata "owner" "me" (.head _) (by decide) (by decide)⟩

/-- A structure with traits. -/
def oldShape : Shape where
  type := "structure"
  traits := [("smithy.api#error", .str "client"), ("smithy.api#tags", .arr [.str "a", .str "b"]), ("smithy.api#deprecated", .obj [("message", .str "gone"), ("since", .str "2.0")])]

/-- Its traits become annotations. -/
example : ∃ m td, Smithy.toSadl plainS {} "" { shapes := [("x#Old", oldShape)] } {} = .ok m ∧ td ∈ m.schema.types ∧ mget td.annotations "x_error" = some "client" ∧
    mget td.annotations "x_tags" = some "a,b" ∧ mget td.annotations "x_deprecated_message" = some "gone" ∧ mget td.annotations "x_deprecated_since" = some "2.0" := by
  have h : (match Smithy.toSadl plainS {} "" { shapes := [("x#Old", oldShape)] } {} with | .ok _ => true | _ => false) = true := by decide +kernel
  cases hm : Smithy.toSadl plainS {} "" { shapes := [("x#Old", oldShape)] } {} with
  | ok m =>
    obtain ⟨td, h1, h2⟩ := C117_shapes_partial _ _ _ _ _ _ hm "x#Old" oldShape (.head _) (by decide)
      (fun k op hm ht => by rw [List.mem_singleton] at hm; cases hm; exact absurd ht (by decide)) (by decide)
    have h3 := h2.annos (by decide) (by unfold GoMap.Distinct; decide)
    exact ⟨m, td, rfl, h1, h3.error.set "client" rfl (by decide), h3.tag ["a", "b"] rfl (by decide), h3.message _ "gone" rfl rfl (by decide), h3.since _ "2.0" rfl rfl (by decide)⟩
  | _ => rw [hm] at h; cases h

/-- The traits of a string are lost. -/
theorem C117_refuted_traits : ∃ m td, Smithy.toSadl plainS {} "" { shapes := [("x#Old", { oldShape with type := "string" })] } {} = .ok m ∧ m.schema.types = [td] ∧ td.annotations = [] :=
  ⟨_, _, rfl, rfl, rfl⟩

/-- A boolean shape becomes a type of a type that does not exist. -/
theorem C117_refuted_boolean : ∃ m, Smithy.toSadl plainS {} "" { shapes := [("x#Flag", { type := "boolean" })] } {} = .ok m ∧
    ∀ td ∈ m.schema.types, td.ts.type = "Boolean" ∧ m.findType "Boolean" = none := by
  refine ⟨_, rfl, ?_⟩
  intro td h
  cases h with
  | head => exact ⟨rfl, by decide +kernel⟩
  | tail _ h => cases h

/-- A string shape with the name UUID is left out. -/
theorem C117_refuted_uuid : ∃ m, Smithy.toSadl plainS {} "" { shapes := [("x#UUID", { type := "string" })] } {} = .ok m ∧ m.schema.types = [] :=
  ⟨_, rfl, rfl⟩

/-- The name in the metadata does not count. -/
theorem C117_refuted_name : ∃ m, Smithy.toSadl plainS {} "" { metadata := [("name", .str "shop")] } {} = .ok m ∧ m.schema.name = "" ∧ m.schema.annotations = [] :=
  ⟨_, rfl, rfl, rfl⟩

/-- A list with limits for its length, however they are written. -/
def lengthAst (v w : Value) : Ast where
  shapes := [("x#List", { type := "list", member := some { target := "smithy.api#String" }, traits := [("smithy.api#length", .obj [("min", v), ("max", w)])] })]

/-- The limits of the length of a list are always lost. -/
theorem C117_refuted_length (lib : SLib) (v w : Value) : ∃ m td, Smithy.toSadl lib {} "" (lengthAst v w) {} = .ok m ∧ m.schema.types = [td] ∧ td.ts.minSize = none ∧ td.ts.maxSize = none :=
  ⟨_, _, rfl, rfl, rfl, rfl⟩

/-- A number and a string with the same lower limit, however it is written. -/
def limitAst (v : Value) : Ast where
  shapes := [("x#Num", { type := "integer", traits := [("smithy.api#range", .obj [("min", v)])] }),
    ("x#Str", { type := "string", traits := [("smithy.api#length", .obj [("min", v)])] })]

/-- Of the two limits, one is always lost: a range has to be a decimal, and a length a float64. -/
theorem C117_refuted_limits (lib : SLib) (v : Value) : ∃ m a b, Smithy.toSadl lib {} "" (limitAst v) {} = .ok m ∧ m.schema.types = [a, b] ∧ (a.ts.min = none ∨ b.ts.minSize = none) := by
  refine ⟨_, _, _, rfl, rfl, ?_⟩
  cases v <;> first | exact .inl rfl | exact .inr rfl

end Props
end Sadl
