import Verif.Lemmas.SmithyActionBack
import Verif.Props.Smithy
import Verif.Lemmas.SmithyAnnos
import Verif.Spec.SmithyShapes
/-
The types imported for the shapes of a Smithy model.
-/
namespace Sadl
namespace Smithy
open Sadl.Spec

theorem docIs (t : Traits) : DocIs t (docOf t) where
  set d h1 h2 := by
    unfold docOf Traits.str
    rw [h1]
    unfold escapeComment asString
    dsimp only
    rw [splitAll_not_mem h2]
    simp
  unset h := by
    unfold docOf Traits.str
    rw [h]
    decide

theorem local_name (ns loc : String) (h : '#' ∉ ns.toList) : stripNamespace (ns ++ "#" ++ loc) = loc := by
  unfold stripNamespace
  have : (ns ++ "#" ++ loc).toList = ns.toList ++ '#' :: loc.toList := by simp [String.toList_append]
  rw [this, splitFirst_some_of _ h]
  simp

theorem targetIs (t : String) : TargetIs t (shapeRefToTypeRef t) where
  prelude u h := by
    have : ∀ p ∈ preludeTypes, shapeRefToTypeRef p.1 = p.2 := by decide
    exact this _ h
  own ns loc e h1 h2 := by
    subst e
    rw [shapeRef_qualified ns loc (.inl h2), local_name ns loc h1]

theorem trait_getKey (s : Shape) (trait key : String) : getKey ((s.traits.map trait).getD []) key = (traitMember s trait key).getD .null := by
  unfold getKey traitMember Traits.map
  cases h : mget s.traits trait with
  | none => rfl
  | some v => cases v <;> rfl

theorem rangeIs (s : Shape) (key : String) : RangeIs s key (asDecimal (getKey ((s.traits.map "smithy.api#range").getD []) key)) where
  set d h := by rw [trait_getKey, h]; rfl
  unset h := by rw [trait_getKey, h]; rfl

theorem lengthIs (s : Shape) (wild : Int) (key : String) : LengthIs s key (nonZero (asInt64 wild (getKey ((s.traits.map "smithy.api#length").getD []) key))) where
  set n h1 h2 h := by
    rw [trait_getKey, h]
    show nonZero (truncInt wild (.fin n 0)) = some n
    have : truncInt wild (.fin n 0) = n := by
      unfold truncInt
      dsimp only
      rw [if_pos (le_refl _), if_pos (by simp; omega)]
      simp
    rw [this, nonZero, if_pos (by omega)]
  unset h := by rw [trait_getKey, h]; rfl

theorem importFields_is {lib : SLib} {ast : Ast} {ms : GoMap Member} {fs : List StructFieldDef} (h : importFields lib ast ms = .ok fs) : List.Forall₂ FieldIs ms fs := by
  induction ms generalizing fs with
  | nil => cases h; exact .nil
  | cons km rest ih =>
    obtain ⟨k, mem⟩ := km
    unfold importFields at h
    obtain ⟨a, h1, h⟩ := Out.bind_eq_ok.1 h
    obtain ⟨r, h2, h⟩ := Out.bind_eq_ok.1 h
    cases h
    refine .cons ⟨rfl, targetIs _, docIs _, fun hd => annosAre hd h1, fun hr => ?_, fun hr => ?_⟩ (ih h2) <;> simp [Traits.bool, hr]

theorem importVariants_is {lib : SLib} {ast : Ast} {ms : GoMap Member} {fs : List UnionVariantDef} (h : importVariants lib ast ms = .ok fs) : List.Forall₂ VariantIs ms fs := by
  induction ms generalizing fs with
  | nil => cases h; exact .nil
  | cons km rest ih =>
    obtain ⟨k, mem⟩ := km
    unfold importVariants at h
    obtain ⟨a, h1, h⟩ := Out.bind_eq_ok.1 h
    obtain ⟨r, h2, h⟩ := Out.bind_eq_ok.1 h
    cases h
    exact .cons ⟨rfl, targetIs _, docIs _, fun hd => annosAre hd h1⟩ (ih h2)

theorem importElements_is {lib : SLib} {ast : Ast} {ms : GoMap Member} {fs : List EnumElementDef} (h : importElements lib ast ms = .ok fs) : List.Forall₂ ElementIs ms fs := by
  induction ms generalizing fs with
  | nil => cases h; exact .nil
  | cons km rest ih =>
    obtain ⟨k, mem⟩ := km
    unfold importElements at h
    obtain ⟨a, h1, h⟩ := Out.bind_eq_ok.1 h
    obtain ⟨r, h2, h⟩ := Out.bind_eq_ok.1 h
    cases h
    exact .cons ⟨rfl, docIs _, fun hd => annosAre hd h1⟩ (ih h2)

/-- The type for a shape that is not left out. -/
theorem importShape_kept {lib : SLib} {suf : Suffixes} {ast : Ast} {io : List String} {name : String} {s : Shape} {acc acc' : Imported}
    (h : importShape lib suf ast io name s acc = .ok acc') (hio : name ∉ io) (ht : s.type ∈ shapeKinds) (hu : s.type = "string" → stripNamespace name ≠ "UUID") :
    ∃ td ∈ acc'.types, ShapeKept name s td := by
  obtain ⟨type, version, member, key, value, members, input, output, errors, operations, traits⟩ := s
  have hname : ∀ {td : TypeDef}, td.name = stripNamespace name → ∀ ns loc : String, name = ns ++ "#" ++ loc → '#' ∉ ns.toList → td.name = loc := by
    intro td h1 ns loc h2 h3
    rw [h1, h2, local_name ns loc h3]
  simp only [shapeKinds, List.mem_cons, List.not_mem_nil, or_false] at ht
  unfold importShape at h
  rw [if_neg hio] at h
  have num : ∀ {t : String}, type ∈ numberShapes → numberType type = t → (∀ u, (type, u) ∈ numberKinds → u = t) → type ∉ ["string", "timestamp", "blob", "list", "set", "map", "structure", "union", "enum"] →
      ∃ td ∈ acc'.types, ShapeKept name ⟨type, version, member, key, value, members, input, output, errors, operations, traits⟩ td := by
    intro t h1 h2 h3 h4
    rw [if_pos h1] at h
    obtain ⟨td, h5, h⟩ := Out.bind_eq_ok.1 h
    cases h
    unfold importNumericShape at h5
    obtain ⟨a, h6, h5⟩ := Out.bind_eq_ok.1 h5
    cases h5
    simp only [List.mem_cons, List.not_mem_nil, or_false, not_or] at h4
    refine ⟨_, List.mem_append.2 (.inr (.head _)), ?_⟩
    constructor
    case name => exact hname rfl
    case doc => exact docIs _
    case annos =>
      intro _ hd
      dsimp only
      by_cases c : type = "bigInteger"
      · rw [if_pos c]; exact annosAre_integer (annosAre hd h6)
      · rw [if_neg c]; exact annosAre hd h6
    case number => intro u hu; exact ⟨h2.trans (h3 u hu).symm, rangeIs _ _, rangeIs _ _⟩
    all_goals (intro e; exfalso; revert e; dsimp only; simp [h4])
  have none : ∀ t, type ∉ numberShapes → (type, t) ∉ numberKinds := by
    intro t h1 h2
    apply h1
    simp only [numberKinds, List.mem_cons, Prod.mk.injEq, List.not_mem_nil, or_false] at h2
    rcases h2 with h2 | h2 | h2 | h2 | h2 | h2 | h2 | h2 <;> rw [h2.1] <;> decide
  rcases ht with rfl | rfl | rfl | rfl | rfl | rfl | rfl | rfl | rfl | rfl | rfl | rfl | rfl | rfl | rfl | rfl | rfl
  iterate 8 (exact num (by decide) rfl (by simp [numberKinds, numberType]) (by decide))
  all_goals (dsimp only at h hu; rw [if_neg (by decide)] at h)
  · -- string
    rw [if_pos rfl] at h
    have hu' := hu rfl
    unfold importStringShape importEnum at h
    simp only [hu', if_false, Bool.false_eq_true] at h
    cases h
    refine ⟨_, List.mem_append.2 (.inr (.head _)), ?_⟩
    constructor
    case name => exact hname rfl
    case doc => exact docIs _
    case annos => intro e; exfalso; revert e; dsimp only; decide
    case number => intro u hu; exact absurd hu (none u (by decide))
    case text =>
      intro _ p hp hne
      have : Traits.str traits "smithy.api#pattern" = p := by
        unfold Traits.str
        rcases hp with hp | ⟨hp, rfl⟩ <;> dsimp only at hp <;> rw [hp] <;> rfl
      dsimp only
      rw [this, if_neg hne]
      exact ⟨rfl, rfl, lengthIs _ _ _, lengthIs _ _ _⟩
    all_goals (intro e; exfalso; revert e; dsimp only; decide)
  · -- timestamp
    iterate 1 (rw [if_neg (by decide)] at h)
    rw [if_pos rfl] at h
    obtain ⟨td, h5, h⟩ := Out.bind_eq_ok.1 h
    cases h
    obtain ⟨a, h6, h5⟩ := Out.bind_eq_ok.1 h5
    cases h5
    refine ⟨_, List.mem_append.2 (.inr (.head _)), ?_⟩
    constructor
    case name => exact hname rfl
    case doc => exact docIs _
    case annos => exact fun _ hd => annosAre hd h6
    case number => intro u hu; exact absurd hu (none u (by decide))
    case timestamp => intro _; rfl
    all_goals (intro e; exfalso; revert e; dsimp only; decide)
  · -- blob
    iterate 8 (rw [if_neg (by decide)] at h)
    rw [if_pos rfl] at h
    cases h
    refine ⟨_, List.mem_append.2 (.inr (.head _)), ?_⟩
    constructor
    case name => exact hname rfl
    case doc => exact docIs _
    case annos => intro e; exfalso; revert e; dsimp only; decide
    case number => intro u hu; exact absurd hu (none u (by decide))
    case blob => intro _; exact ⟨rfl, lengthIs _ _ _, lengthIs _ _ _⟩
    all_goals (intro e; exfalso; revert e; dsimp only; decide)
  · -- list
    iterate 3 (rw [if_neg (by decide)] at h)
    rw [if_pos rfl] at h
    obtain ⟨td, h5, h⟩ := Out.bind_eq_ok.1 h
    cases h
    cases member with
    | none => cases h5
    | some mem =>
      cases h5
      refine ⟨_, List.mem_append.2 (.inr (.head _)), ?_⟩
      constructor
      case name => exact hname rfl
      case doc => exact docIs _
      case annos => intro e; exfalso; revert e; dsimp only; decide
      case number => intro u hu; exact absurd hu (none u (by decide))
      case list => intro _ m hm; cases hm; exact ⟨rfl, targetIs _⟩
      all_goals (intro e; exfalso; revert e; dsimp only; decide)
  · -- set
    iterate 4 (rw [if_neg (by decide)] at h)
    rw [if_pos rfl] at h
    obtain ⟨td, h5, h⟩ := Out.bind_eq_ok.1 h
    cases h
    cases member with
    | none => cases h5
    | some mem =>
      cases h5
      refine ⟨_, List.mem_append.2 (.inr (.head _)), ?_⟩
      constructor
      case name => exact hname rfl
      case doc => exact docIs _
      case annos => intro e; exfalso; revert e; dsimp only; decide
      case number => intro u hu; exact absurd hu (none u (by decide))
      case set => intro _ m hm; cases hm; exact ⟨rfl, targetIs _, by show mget (withAnnotation [] "x_unique" "true") "x_unique" = _; decide⟩
      all_goals (intro e; exfalso; revert e; dsimp only; decide)
  · -- map
    iterate 5 (rw [if_neg (by decide)] at h)
    rw [if_pos rfl] at h
    obtain ⟨td, h5, h⟩ := Out.bind_eq_ok.1 h
    cases h
    cases key with
    | none => cases h5
    | some k =>
      cases value with
      | none => cases h5
      | some v =>
        cases h5
        refine ⟨_, List.mem_append.2 (.inr (.head _)), ?_⟩
        constructor
        case name => exact hname rfl
        case doc => exact docIs _
        case annos => intro e; exfalso; revert e; dsimp only; decide
        case number => intro u hu; exact absurd hu (none u (by decide))
        case map => intro _ k' v' hk hv; cases hk; cases hv; exact ⟨rfl, targetIs _, targetIs _⟩
        all_goals (intro e; exfalso; revert e; dsimp only; decide)
  · -- structure
    iterate 6 (rw [if_neg (by decide)] at h)
    rw [if_pos rfl] at h
    obtain ⟨td, h5, h⟩ := Out.bind_eq_ok.1 h
    cases h
    obtain ⟨a, h6, h5⟩ := Out.bind_eq_ok.1 h5
    obtain ⟨fs, h7, h5⟩ := Out.bind_eq_ok.1 h5
    cases h5
    refine ⟨_, List.mem_append.2 (.inr (.head _)), ?_⟩
    constructor
    case name => exact hname rfl
    case doc => exact docIs _
    case annos => exact fun _ hd => annosAre hd h6
    case number => intro u hu; exact absurd hu (none u (by decide))
    case structure_ => intro _; exact ⟨rfl, importFields_is h7⟩
    all_goals (intro e; exfalso; revert e; dsimp only; decide)
  · -- union
    iterate 7 (rw [if_neg (by decide)] at h)
    rw [if_pos rfl] at h
    obtain ⟨td, h5, h⟩ := Out.bind_eq_ok.1 h
    cases h
    obtain ⟨a, h6, h5⟩ := Out.bind_eq_ok.1 h5
    obtain ⟨fs, h7, h5⟩ := Out.bind_eq_ok.1 h5
    cases h5
    refine ⟨_, List.mem_append.2 (.inr (.head _)), ?_⟩
    constructor
    case name => exact hname rfl
    case doc => exact docIs _
    case annos => exact fun _ hd => annosAre hd h6
    case number => intro u hu; exact absurd hu (none u (by decide))
    case union => intro _; exact ⟨rfl, importVariants_is h7⟩
    all_goals (intro e; exfalso; revert e; dsimp only; decide)
  · -- enum
    iterate 9 (rw [if_neg (by decide)] at h)
    rw [if_pos rfl] at h
    obtain ⟨td, h5, h⟩ := Out.bind_eq_ok.1 h
    cases h
    obtain ⟨a, h6, h5⟩ := Out.bind_eq_ok.1 h5
    obtain ⟨fs, h7, h5⟩ := Out.bind_eq_ok.1 h5
    cases h5
    refine ⟨_, List.mem_append.2 (.inr (.head _)), ?_⟩
    constructor
    case name => exact hname rfl
    case doc => exact docIs _
    case annos => exact fun _ hd => annosAre hd h6
    case number => intro u hu; exact absurd hu (none u (by decide))
    case enum => intro _; exact ⟨rfl, importElements_is h7⟩
    all_goals (intro e; exfalso; revert e; dsimp only; decide)

/-- A shape adds types and removes none. -/
theorem importShape_grows {lib : SLib} {suf : Suffixes} {ast : Ast} {io : List String} {name : String} {s : Shape} {acc acc' : Imported}
    (h : importShape lib suf ast io name s acc = .ok acc') : ∀ td ∈ acc.types, td ∈ acc'.types := by
  intro td htd
  have add : ∀ {o : Out TypeDef}, (do .ok (acc.add (← o)) : Out Imported) = .ok acc' → td ∈ acc'.types := by
    intro o h
    obtain ⟨t, _, h⟩ := Out.bind_eq_ok.1 h
    cases h
    exact List.mem_append_left _ htd
  unfold importShape at h
  by_cases c0 : name ∈ io
  · rw [if_pos c0] at h; cases h; exact htd
  rw [if_neg c0] at h
  by_cases c1 : s.type ∈ numberShapes
  · rw [if_pos c1] at h; exact add h
  rw [if_neg c1] at h
  by_cases c2 : s.type = "string"
  · rw [if_pos c2] at h
    cases hs : importStringShape lib name s with
    | none => rw [hs] at h; cases h; exact htd
    | some t => rw [hs] at h; cases h; exact List.mem_append_left _ htd
  rw [if_neg c2] at h
  by_cases c3 : s.type = "timestamp"
  · rw [if_pos c3] at h; exact add h
  rw [if_neg c3] at h
  by_cases c4 : s.type = "boolean"
  · rw [if_pos c4] at h; exact add h
  rw [if_neg c4] at h
  by_cases c5 : s.type = "list"
  · rw [if_pos c5] at h; exact add h
  rw [if_neg c5] at h
  by_cases c6 : s.type = "set"
  · rw [if_pos c6] at h; exact add h
  rw [if_neg c6] at h
  by_cases c7 : s.type = "map"
  · rw [if_pos c7] at h; exact add h
  rw [if_neg c7] at h
  by_cases c8 : s.type = "structure"
  · rw [if_pos c8] at h; exact add h
  rw [if_neg c8] at h
  by_cases c9 : s.type = "union"
  · rw [if_pos c9] at h; exact add h
  rw [if_neg c9] at h
  by_cases c10 : s.type = "blob"
  · rw [if_pos c10] at h; cases h; exact List.mem_append_left _ htd
  rw [if_neg c10] at h
  by_cases c11 : s.type = "enum"
  · rw [if_pos c11] at h; exact add h
  rw [if_neg c11] at h
  by_cases c12 : s.type = "service"
  · rw [if_pos c12] at h; cases h; exact htd
  rw [if_neg c12] at h
  by_cases c13 : s.type = "operation"
  · rw [if_pos c13] at h
    unfold importOperationShape at h
    dsimp only at h
    by_cases c : asString (getKey ((s.traits.map "smithy.api#http").getD []) "method") = ""
    · rw [if_pos c] at h
      obtain ⟨o, _, h⟩ := Out.bind_eq_ok.1 h
      cases h
      exact htd
    · rw [if_neg c] at h
      obtain ⟨o, _, h⟩ := Out.bind_eq_ok.1 h
      cases h
      exact htd
  rw [if_neg c13] at h
  by_cases c14 : s.type = "resource"
  · rw [if_pos c14] at h; cases h; exact htd
  rw [if_neg c14] at h
  cases h

/-- The shapes add types and remove none. -/
theorem importShapes_grows {lib : SLib} {suf : Suffixes} {ast : Ast} {io : List String} {service : String} {shapes : GoMap Shape} {acc acc' : Imported}
    (h : importShapes lib suf ast io service shapes acc = .ok acc') : ∀ td ∈ acc.types, td ∈ acc'.types := by
  induction shapes generalizing acc with
  | nil => cases h; exact fun _ h => h
  | cons ks rest ih =>
    obtain ⟨k, s⟩ := ks
    unfold importShapes at h
    by_cases c : s.type ≠ "service" ∨ k = service
    · rw [if_pos c] at h
      obtain ⟨a, h1, h⟩ := Out.bind_eq_ok.1 h
      exact fun td htd => ih h td (importShape_grows h1 td htd)
    · rw [if_neg c] at h
      exact ih h

/-- Every shape that is not left out has its type. -/
theorem importShapes_kept {lib : SLib} {suf : Suffixes} {ast : Ast} {io : List String} {service : String} {shapes : GoMap Shape} {acc acc' : Imported}
    (h : importShapes lib suf ast io service shapes acc = .ok acc') {name : String} {s : Shape} (hs : (name, s) ∈ shapes)
    (hio : name ∉ io) (ht : s.type ∈ shapeKinds) (hu : s.type = "string" → stripNamespace name ≠ "UUID") :
    ∃ td ∈ acc'.types, ShapeKept name s td := by
  induction shapes generalizing acc with
  | nil => cases hs
  | cons ks rest ih =>
    obtain ⟨k, s'⟩ := ks
    unfold importShapes at h
    rcases List.mem_cons.1 hs with e | e
    · cases e
      rw [if_pos (.inl (by intro e; rw [e] at ht; revert ht; decide))] at h
      obtain ⟨a, h1, h⟩ := Out.bind_eq_ok.1 h
      obtain ⟨td, h2, h3⟩ := importShape_kept h1 hio ht hu
      exact ⟨td, importShapes_grows h td h2, h3⟩
    · by_cases c : s'.type ≠ "service" ∨ k = service
      · rw [if_pos c] at h
        obtain ⟨a, h1, h⟩ := Out.bind_eq_ok.1 h
        exact ih h e
      · rw [if_neg c] at h
        exact ih h e

/-- What the scan of the shapes collects. -/
theorem scanShapes_io {service : String} {shapes : GoMap Shape} {found : String × String} {io : List String} {r : (String × String) × List String}
    (h : scanShapes service shapes found io = .ok r) :
    ∀ n ∈ r.2, n ∈ io ∨ ∃ k op, (k, op) ∈ shapes ∧ op.type = "operation" ∧ (op.input = some n ∨ op.output = some n) := by
  induction shapes generalizing found io with
  | nil => cases h; exact fun n h => .inl h
  | cons ks rest ih =>
    obtain ⟨k, s⟩ := ks
    intro n hn
    have next : ∀ {f : String × String}, scanShapes service rest f io = .ok r → n ∈ io ∨ ∃ k' op, (k', op) ∈ (k, s) :: rest ∧ op.type = "operation" ∧ (op.input = some n ∨ op.output = some n) := by
      intro f hf
      rcases ih hf n hn with h1 | ⟨k', op, h1, h2⟩
      · exact .inl h1
      · exact .inr ⟨k', op, .tail _ h1, h2⟩
    unfold scanShapes at h
    by_cases c1 : s.type = "service"
    · rw [if_pos c1] at h
      by_cases c2 : service ≠ ""
      · rw [if_pos c2] at h
        by_cases c3 : k ≠ service
        · rw [if_pos c3] at h; exact next h
        · rw [if_neg c3] at h; exact next h
      · rw [if_neg c2] at h
        by_cases c3 : found.1 ≠ ""
        · rw [if_pos c3] at h; cases h
        · rw [if_neg c3] at h; exact next h
    · rw [if_neg c1] at h
      by_cases c2 : s.type = "operation"
      · rw [if_pos c2] at h
        rcases ih h n hn with h1 | ⟨k', op, h1, h2⟩
        · rw [List.mem_append, List.mem_append, Option.mem_toList, Option.mem_toList] at h1
          rcases h1 with (h1 | h1) | h1
          · exact .inl h1
          · exact .inr ⟨k, s, .head _, c2, .inl h1⟩
          · exact .inr ⟨k, s, .head _, c2, .inr h1⟩
        · exact .inr ⟨k', op, .tail _ h1, h2⟩
      · rw [if_neg c2] at h; exact next h

/-- The service that the scan finds. -/
theorem scanShapes_found {service : String} {shapes : GoMap Shape} {found : String × String} {io : List String} {r : (String × String) × List String}
    (hd : shapes.Distinct) (h : scanShapes service shapes found io = .ok r) :
    (∀ k s, (k, s) ∈ shapes → s.type = "service" → k ≠ "" → service = "" ∨ service = k → r.1 = (k, s.version)) ∧
    ((∀ k s, (k, s) ∈ shapes → s.type = "service" → service ≠ "" ∧ service ≠ k) → r.1 = found) ∧
    (service = "" → found.1 ≠ "" → r.1 = found) := by
  induction shapes generalizing found io with
  | nil => cases h; exact ⟨fun k s hm => absurd hm List.not_mem_nil, fun _ => rfl, fun _ _ => rfl⟩
  | cons ks rest ih =>
    obtain ⟨k0, s0⟩ := ks
    have hd' : GoMap.Distinct rest := (List.nodup_cons.1 hd).2
    have hk0 : ∀ s, (k0, s) ∉ rest := fun s hm => (List.nodup_cons.1 hd).1 (List.mem_map.2 ⟨(k0, s), hm, rfl⟩)
    unfold scanShapes at h
    have skip : ∀ {io' : List String}, (s0.type = "service" → service ≠ "" ∧ service ≠ k0) → scanShapes service rest found io' = .ok r →
        (∀ k s, (k, s) ∈ (k0, s0) :: rest → s.type = "service" → k ≠ "" → service = "" ∨ service = k → r.1 = (k, s.version)) ∧
        ((∀ k s, (k, s) ∈ (k0, s0) :: rest → s.type = "service" → service ≠ "" ∧ service ≠ k) → r.1 = found) ∧
        (service = "" → found.1 ≠ "" → r.1 = found) := by
      intro io' h1 h2
      obtain ⟨a, b, c⟩ := ih hd' h2
      refine ⟨fun k s hm ht hk hs => ?_, fun hall => b fun k s hm => hall k s (.tail _ hm), c⟩
      rcases List.mem_cons.1 hm with e | e
      · cases e
        exfalso
        rcases hs with hs | hs
        · exact (h1 ht).1 hs
        · exact (h1 ht).2 hs
      · exact a k s e ht hk hs
    by_cases c1 : s0.type = "service"
    · rw [if_pos c1] at h
      by_cases c2 : service ≠ ""
      · rw [if_pos c2] at h
        by_cases c3 : k0 ≠ service
        · rw [if_pos c3] at h
          exact skip (fun _ => ⟨c2, fun e => c3 e.symm⟩) h
        · rw [if_neg c3] at h
          have c3 : k0 = service := Decidable.not_not.1 c3
          obtain ⟨a, b, c⟩ := ih hd' h
          have hr : r.1 = (k0, s0.version) := b fun k s hm _ => ⟨c2, fun e => hk0 s (by rw [c3, e]; exact hm)⟩
          refine ⟨fun k s hm ht hk hs => ?_, fun hall => absurd c3.symm (hall k0 s0 (.head _) c1).2, fun e => absurd e c2⟩
          rcases List.mem_cons.1 hm with e | e
          · cases e; exact hr
          · rcases hs with hs | hs
            · exact absurd hs c2
            · exact absurd e (by rw [← hs, ← c3]; exact hk0 s)
      · rw [if_neg c2] at h
        have c2 : service = "" := Decidable.not_not.1 c2
        by_cases c3 : found.1 ≠ ""
        · rw [if_pos c3] at h; cases h
        · rw [if_neg c3] at h
          obtain ⟨a, b, c⟩ := ih hd' h
          refine ⟨fun k s hm ht hk hs => ?_, fun hall => absurd c2 (hall k0 s0 (.head _) c1).1, fun _ e => absurd e c3⟩
          rcases List.mem_cons.1 hm with e | e
          · cases e; exact c c2 hk
          · exact a k s e ht hk hs
    · rw [if_neg c1] at h
      by_cases c2 : s0.type = "operation"
      · rw [if_pos c2] at h; exact skip (fun e => absurd e c1) h
      · rw [if_neg c2] at h; exact skip (fun e => absurd e c1) h

/-- The annotations for the metadata. -/
theorem importMetadata_get {md : GoMap Value} {annos : GoMap String} (hd : md.Distinct) :
    (∀ k (t : String), (k, .str t) ∈ md → k ≠ "name" → k ≠ "base" → mget (importMetadata md annos) ("x_" ++ k) = some t) ∧
    (∀ k, (∀ v, (k, v) ∉ md) → mget (importMetadata md annos) ("x_" ++ k) = mget annos ("x_" ++ k)) := by
  have inj : ∀ a b : String, "x_" ++ a = "x_" ++ b → a = b := by
    intro a b h
    have := congrArg String.toList h
    exact String.toList_inj.1 (by simpa [String.toList_append] using this)
  have nb : ∀ a : String, "x_" ++ a ≠ "base" := by
    intro a h
    have := congrArg String.toList h
    simp [String.toList_append] at this
  induction md generalizing annos with
  | nil => exact ⟨fun k t hm => absurd hm List.not_mem_nil, fun _ _ => rfl⟩
  | cons kv rest ih =>
    obtain ⟨k0, v0⟩ := kv
    have hd' : GoMap.Distinct rest := (List.nodup_cons.1 hd).2
    have hk0 : ∀ v, (k0, v) ∉ rest := fun s hm => (List.nodup_cons.1 hd).1 (List.mem_map.2 ⟨(k0, s), hm, rfl⟩)
    unfold importMetadata
    refine ⟨fun k t hm h1 h2 => ?_, fun k hk => ?_⟩
    · rcases List.mem_cons.1 hm with e | e
      · cases e
        rw [(ih hd').2 _ hk0, if_neg h1, if_neg h2, mget_mset_same]
        rfl
      · exact (ih hd').1 k t e h1 h2
    · have hne : k ≠ k0 := fun e => hk v0 (by rw [e]; exact .head _)
      rw [(ih hd').2 k fun v hv => hk v (.tail _ hv)]
      by_cases c1 : k0 = "name"
      · rw [if_pos c1]
      rw [if_neg c1]
      by_cases c2 : k0 = "base"
      · rw [if_pos c2, mget_mset_other]
        rw [c2]; exact nb k
      rw [if_neg c2, mget_mset_other]
      exact fun e => hne (inj _ _ e)

end Smithy
end Sadl
