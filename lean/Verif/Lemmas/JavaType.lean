import Verif.Spec.Java
import Verif.Lemmas.Golang
/-
The Java type of a type: the generator computes the relation of the specification.
-/
namespace Sadl
open Sadl.Spec

/-- What is assumed of a schema: it has been checked by `NewModel`, its types have names and built-in supertypes, and no type
is called like one of Java's boxes. -/
structure JavaWf (s : Schema) (m : Model) : Prop where
  model : newModel s = .ok m
  named : ∀ td ∈ s.types, td.name ≠ ""
  kinds : ∀ td ∈ s.types, td.ts.type ∈ BaseTypes ∨ td.ts.type = "List"
  noBoxes : NoBoxes s

section
variable {s : Schema} {m : Model} (hw : JavaWf s m) (conf : JavaConf)
include hw

theorem JavaWf.schema_eq : m.schema = s := ((newModel_ok_iff s m).1 hw.model).2.2.2 ▸ rfl

theorem JavaWf.find_user {td : TypeDef} (h : td ∈ s.types) : m.findType td.name = some td :=
  (newModel_findType_iff hw.model _ td).2 (.inl ⟨h, rfl⟩)

theorem JavaWf.user_base {td : TypeDef} (h : td ∈ s.types) : td.name ∉ BaseTypes := by
  obtain ⟨_, hb, _⟩ := (newModel_ok_iff s m).1 hw.model
  exact hb td h

theorem JavaWf.user_known {td : TypeDef} (h : td ∈ s.types) : Known s td.name := ⟨td.ts, .inl ⟨td, h, rfl, rfl⟩⟩

theorem JavaWf.box_unknown {n : String} (h : n ∈ JavaBoxes) : m.findType n = none := by
  rw [goFind_none_iff hw.model]
  rintro ⟨ts, ⟨td, h1, h2, h3⟩ | ⟨h1, h2⟩⟩
  · exact hw.noBoxes td h1 (h2 ▸ h)
  · exact absurd h1 ((by decide : ∀ n ∈ JavaBoxes, n ∉ BaseTypes) n h)

/-- The numbers and booleans. -/
theorem javaTypeN_primitive {n p b : String} (h : JavaPrimitive n p b) (k : Nat) (ts : Option TypeSpec) (r : Bool) :
    javaTypeN m conf (k + 1) ts n r = .ok
      { type := .name (if r then p else b)
        annos := if r then [] else if n = "Bool" then [] else (ts.map (javaNumberAnnos conf)).getD [] } := by
  have hb := hw.box_unknown (n := "Boolean") (by decide)
  cases h <;> cases r
  case bool.false =>
    rw [javaTypeN, javaTypeStep, if_neg (by decide)]
    change (if "Boolean" = "String" then _ else _) = _
    iterate 8 rw [if_neg (by decide)]
    change (match m.findType "Boolean" with | none => _ | some td => _) = _
    rw [hb]; rfl
  all_goals
    rw [javaTypeN, javaTypeStep]
    first
    | rw [if_pos (by decide)]; rfl
    | (rw [if_neg (by decide)]
       rfl)

omit hw in
/-- A name that `TypeName` does not treat specially is looked up. -/
theorem javaTypeStep_other (rec : Option TypeSpec → String → Bool → Out JType) (ts : Option TypeSpec) (name : String) (r : Bool)
    (hp : javaPrimitive name = none)
    (hn : name ∉ ["String", "Byte", "Short", "Integer", "Long", "Float", "Double", "Decimal", "Timestamp", "Array", "Map",
      "UUID", "Any"]) :
    javaTypeStep m conf rec ts name r =
      let annos : List JAnno := if r then [.notNull] else []
      let notes : List JNote := if r then [.pack "javax.validation.constraints.NotNull"] else []
      match m.findType name with
      | none => .ok { type := .name name, annos := annos, notes := notes }
      | some td =>
        if td.ts.type ∈ ["Int8", "Int16", "Int32", "Int64", "Float32", "Float64", "Boolean", "String"] then
          (rec (some td.ts) td.ts.type r).bind fun r => .ok (r.noted notes)
        else if td.ts.type = "Array" ∨ td.ts.type = "Map" then
          (rec (some td.ts) td.ts.type false).bind fun r => .ok (r.noted notes)
        else if td.ts.type = "Struct" ∧ name = "Struct" then
          .ok { type := .name name, annos := annos, anon := ts, notes := notes }
        else if td.ts.type = "UUID" then
          .ok { type := .name "UUID", annos := annos, notes := notes ++ [.pack "java.util.UUID"] }
        else if td.ts.type = "Decimal" then
          .ok { type := .name "BigDecimal", annos := annos ++ javaDecimalAnnos conf td.ts,
                notes := notes ++ [.pack "java.math.BigDecimal"] }
        else if td.ts.type = "Timestamp" then
          if conf.instants then
            .ok { type := .name "Instant", annos := annos ++ [.deserialize, .serialize], notes := notes ++ javaInstantNotes }
          else .ok { type := .name "Timestamp", annos := annos, notes := notes ++ [.timestamp] }
        else .ok { type := .name name, annos := annos, notes := notes } := by
  simp only [List.mem_cons, List.not_mem_nil, or_false, not_or] at hn
  obtain ⟨h1, h2, h3, h4, h5, h6, h7, h8, h9, h10, h11, h12, h13⟩ := hn
  rw [javaTypeStep, if_neg (by simp [hp])]
  simp only [hp, h1, h2, h3, h4, h5, h6, h7, h8, h9, h10, h11, h12, h13, List.mem_cons, List.not_mem_nil, or_false, if_false]
  rfl

/-- The built-in types that are neither numbers nor containers. -/
theorem javaTypeN_builtin {n c : String} (h : JavaBuiltin conf.instants n c) (k : Nat) (ts : Option TypeSpec) (r : Bool) :
    ∃ jt, javaTypeN m conf (k + 1) ts n r = .ok jt ∧ jt.type = .name c ∧
      jt.annos = (if r then [.notNull] else []) ++
        (if n = "String" then (ts.map javaStringAnnos).getD []
         else if n = "Decimal" then (ts.map (javaDecimalAnnos conf)).getD []
         else if n = "Timestamp" ∧ conf.instants = true then [.serialize] else []) ∧
      jt.anon = (if n = "Struct" then ts else none) := by
  cases h with
  | string => cases r <;> refine ⟨_, rfl, rfl, ?_, rfl⟩ <;> simp
  | decimal => cases r <;> refine ⟨_, rfl, rfl, ?_, rfl⟩ <;> simp
  | uuid => cases r <;> refine ⟨_, rfl, rfl, ?_, rfl⟩ <;> simp
  | any => cases r <;> refine ⟨_, rfl, rfl, ?_, rfl⟩ <;> simp
  | instant hi =>
    refine ⟨{ type := .name "Instant", annos := (if r then [.notNull] else []) ++ [.serialize],
              notes := (if r then [.pack "javax.validation.constraints.NotNull"] else []) ++ javaInstantNotes }, ?_, rfl, ?_, rfl⟩
    · rw [javaTypeN, javaTypeStep, if_neg (by simp [javaPrimitive])]
      change (if "Timestamp" = "String" then _ else _) = _
      iterate 3 rw [if_neg (by decide)]
      rw [if_pos (by decide), if_pos hi]
    · simp [hi]
  | timestamp hi =>
    refine ⟨{ type := .name "Timestamp", annos := (if r then [.notNull] else []),
              notes := (if r then [.pack "javax.validation.constraints.NotNull"] else []) ++ [.timestamp] }, ?_, rfl, ?_, rfl⟩
    · rw [javaTypeN, javaTypeStep, if_neg (by simp [javaPrimitive])]
      change (if "Timestamp" = "String" then _ else _) = _
      iterate 3 rw [if_neg (by decide)]
      rw [if_pos (by decide), if_neg (by simp [hi])]
    · simp [hi]
  | other hn =>
    have hb : n ∈ BaseTypes := (by decide : ∀ n ∈ ["Bytes", "Struct", "Enum", "Union", "UnitValue"], n ∈ BaseTypes) n hn
    have hf := findType_base hw.model hb
    refine ⟨{ type := .name n, annos := (if r then [.notNull] else []), anon := if n = "Struct" then ts else none,
              notes := (if r then [.pack "javax.validation.constraints.NotNull"] else []) }, ?_, rfl, ?_, rfl⟩
    · simp only [List.mem_cons, List.not_mem_nil, or_false] at hn
      rw [javaTypeN, javaTypeStep_other]
      · rw [hf]; rcases hn with rfl | rfl | rfl | rfl | rfl <;> rfl
      all_goals rcases hn with rfl | rfl | rfl | rfl | rfl <;> decide
    · simp only [List.mem_cons, List.not_mem_nil, or_false] at hn
      rcases hn with rfl | rfl | rfl | rfl | rfl <;> simp

theorem JavaWf.user_plain {td : TypeDef} (h : td ∈ s.types) :
    javaPrimitive td.name = none ∧
    td.name ∉ ["String", "Byte", "Short", "Integer", "Long", "Float", "Double", "Decimal", "Timestamp", "Array", "Map",
      "UUID", "Any"] ∧ td.name ≠ "Struct" := by
  have h1 := hw.user_base h
  have h2 := hw.noBoxes td h
  simp only [BaseTypes, JavaBoxes, List.mem_cons, List.not_mem_nil, or_false, not_or] at h1 h2
  simp only [javaPrimitive, h1, if_false, List.mem_cons, List.not_mem_nil, or_false, not_or, h2]
  simp [h1]

/-- A type of the schema. -/
theorem javaTypeN_user {td : TypeDef} (h : td ∈ s.types) (k : Nat) (ts : Option TypeSpec) (r : Bool) :
    javaTypeN m conf (k + 1) ts td.name r =
      (if td.ts.type ∈ ["Int8", "Int16", "Int32", "Int64", "Float32", "Float64", "Boolean", "String"] then
        (javaTypeN m conf k (some td.ts) td.ts.type r).bind fun t =>
          .ok (t.noted (if r then [.pack "javax.validation.constraints.NotNull"] else []))
      else if td.ts.type = "Array" ∨ td.ts.type = "Map" then
        (javaTypeN m conf k (some td.ts) td.ts.type false).bind fun t =>
          .ok (t.noted (if r then [.pack "javax.validation.constraints.NotNull"] else []))
      else if td.ts.type = "UUID" then
        .ok { type := .name "UUID", annos := if r then [.notNull] else [],
              notes := (if r then [.pack "javax.validation.constraints.NotNull"] else []) ++ [.pack "java.util.UUID"] }
      else if td.ts.type = "Decimal" then
        .ok { type := .name "BigDecimal", annos := (if r then [.notNull] else []) ++ javaDecimalAnnos conf td.ts,
              notes := (if r then [.pack "javax.validation.constraints.NotNull"] else []) ++ [.pack "java.math.BigDecimal"] }
      else if td.ts.type = "Timestamp" then
        if conf.instants then
          .ok { type := .name "Instant", annos := (if r then [.notNull] else []) ++ [.deserialize, .serialize],
                notes := (if r then [.pack "javax.validation.constraints.NotNull"] else []) ++ javaInstantNotes }
        else .ok { type := .name "Timestamp", annos := if r then [.notNull] else [],
                   notes := (if r then [.pack "javax.validation.constraints.NotNull"] else []) ++ [.timestamp] }
      else .ok { type := .name td.name, annos := if r then [.notNull] else [],
                 notes := if r then [.pack "javax.validation.constraints.NotNull"] else [] }) := by
  obtain ⟨h1, h2, h3⟩ := hw.user_plain h
  rw [javaTypeN, javaTypeStep_other conf _ _ _ _ h1 h2, hw.find_user h]
  simp only [h3, and_false, if_false]

theorem javaTypeN_unknown {n : String} (h : ¬ Known s n) (k : Nat) (ts : Option TypeSpec) (r : Bool) :
    ∃ jt, javaTypeN m conf (k + 1) ts n r = .ok jt ∧ jt.type = .name n ∧ jt.anon = none ∧
      jt.annos = (if r then [.notNull] else []) ++
        (if n ∈ JavaBoxes ∧ n ≠ "Boolean" then (ts.map (javaNumberAnnos conf)).getD [] else []) := by
  have hf := (goFind_none_iff hw.model n).2 h
  have hb : n ∉ BaseTypes := fun hb => h (known_base hb)
  have hp : javaPrimitive n = none := by
    simp only [BaseTypes, List.mem_cons, List.not_mem_nil, or_false, not_or] at hb
    simp only [javaPrimitive, hb, if_false]
  by_cases hx : n ∈ ["Byte", "Short", "Integer", "Long", "Float", "Double"]
  · have e : javaTypeN m conf (k + 1) ts n r = .ok
        { type := .name n, annos := (if r then [.notNull] else []) ++ (ts.map (javaNumberAnnos conf)).getD [],
          notes := if r then [.pack "javax.validation.constraints.NotNull"] else [] } := by
      rw [javaTypeN, javaTypeStep, if_neg (by simp [hp])]
      simp only [hp]
      rw [if_neg (fun h : n = "String" => hb (h ▸ by decide)), if_pos hx]
    refine ⟨_, e, rfl, rfl, ?_⟩
    rw [if_pos ((by decide : ∀ n ∈ ["Byte", "Short", "Integer", "Long", "Float", "Double"], n ∈ JavaBoxes ∧ n ≠ "Boolean") n hx)]
  · have e : javaTypeN m conf (k + 1) ts n r = .ok
        { type := .name n, annos := if r then [.notNull] else [],
          notes := if r then [.pack "javax.validation.constraints.NotNull"] else [] } := by
      rw [javaTypeN, javaTypeStep_other _ _ _ _ _ hp, hf]
      simp only [BaseTypes, List.mem_cons, List.not_mem_nil, or_false, not_or] at hb hx ⊢
      simp only [hb, hx, not_false_eq_true, and_self]
    refine ⟨_, e, rfl, rfl, ?_⟩
    have hn : ¬ (n ∈ JavaBoxes ∧ n ≠ "Boolean") := by
      simp only [JavaBoxes, List.mem_cons, List.not_mem_nil, or_false] at hx ⊢
      tauto
    rw [if_neg hn, List.append_nil]

omit hw in
/-- An array. -/
theorem javaTypeN_array (k : Nat) (ts : TypeSpec) (r : Bool) :
    javaTypeN m conf (k + 1) (some ts) "Array" r =
      match m.findType ts.items with
      | none => .panic nilDeref
      | some td => (javaTypeN m conf k (some td.ts) ts.items false).bind fun i =>
        .ok { type := .list i.type, annos := if r then [.notNull] else [],
              notes := (if r then [.pack "javax.validation.constraints.NotNull"] else []) ++ [.pack "java.util.List"] ++ i.notes } := by
  cases r <;> rfl

omit hw in
/-- A map. -/
theorem javaTypeN_map (k : Nat) (ts : TypeSpec) (r : Bool) :
    javaTypeN m conf (k + 1) (some ts) "Map" r =
      match m.findType ts.keys with
      | none => .panic nilDeref
      | some ktd => (javaTypeN m conf k (some ktd.ts) ts.keys false).bind fun kt =>
        match m.findType ts.items with
        | none => .panic nilDeref
        | some itd => (javaTypeN m conf k (some itd.ts) ts.items false).bind fun i =>
          .ok { type := .map kt.type i.type, annos := if r then [.notNull] else [],
                notes := (if r then [.pack "javax.validation.constraints.NotNull"] else []) ++ [.pack "java.util.Map"] ++
                  kt.notes ++ i.notes } := by
  cases r <;> rfl

/-- The outcome of a recursion that ends within its bound. -/
def Settled (x : Out JType) : Prop := x ≠ .panic stackOverflow

omit hw in
theorem javaTypeStep_mono {rec rec' : Option TypeSpec → String → Bool → Out JType}
    (hr : ∀ ts n r, Settled (rec ts n r) → rec' ts n r = rec ts n r) (ts : Option TypeSpec) (n : String) (r : Bool) {t : Out JType}
    (ht : Settled t)
    (h : javaTypeStep m conf rec ts n r = t) : javaTypeStep m conf rec' ts n r = t := by
  have hb : ∀ {ts n r} {f g : JType → Out JType}, (∀ a, f a = t → g a = t) →
      (rec ts n r).bind f = t → (rec' ts n r).bind g = t := by
    intro ts n r f g hfg hx
    cases he : rec ts n r with
    | ok a => rw [hr ts n r (by rw [he]; intro h; cases h), he]; rw [he] at hx; exact hfg a hx
    | err e => rw [hr ts n r (by rw [he]; intro h; cases h), he]; rw [he] at hx; exact hx
    | panic e =>
      rw [he] at hx
      rw [hr ts n r (by rw [he]; intro h; cases h; exact ht hx.symm), he]
      exact hx
  unfold javaTypeStep at h ⊢
  by_cases h1 : r = true ∧ (javaPrimitive n).isSome
  · rw [if_pos h1] at h ⊢; exact h
  rw [if_neg h1] at h ⊢
  revert h
  extract_lets annos notes name
  intro h
  by_cases h2 : name = "String"
  · rw [if_pos h2] at h ⊢; exact h
  rw [if_neg h2] at h ⊢
  by_cases h2 : name ∈ ["Byte", "Short", "Integer", "Long", "Float", "Double"]
  · rw [if_pos h2] at h ⊢; exact h
  rw [if_neg h2] at h ⊢
  by_cases h2 : name = "Decimal"
  · rw [if_pos h2] at h ⊢; exact h
  rw [if_neg h2] at h ⊢
  by_cases h2 : name = "Timestamp"
  · rw [if_pos h2] at h ⊢; exact h
  rw [if_neg h2] at h ⊢
  by_cases h2 : name = "Array"
  · rw [if_pos h2] at h ⊢
    cases ts with
    | none => exact h
    | some ts =>
      dsimp only at h ⊢
      cases hf : m.findType ts.items with
      | none => rw [hf] at h; exact h
      | some td => rw [hf] at h; exact hb (fun _ h => h) h
  rw [if_neg h2] at h ⊢
  by_cases h2 : name = "Map"
  · rw [if_pos h2] at h ⊢
    cases ts with
    | none => exact h
    | some ts =>
      dsimp only at h ⊢
      cases hf : m.findType ts.keys with
      | none => rw [hf] at h; exact h
      | some td =>
        rw [hf] at h
        refine hb (fun _ h => ?_) h
        cases hf : m.findType ts.items with
        | none => rw [hf] at h; exact h
        | some td => rw [hf] at h; exact hb (fun _ h => h) h
  rw [if_neg h2] at h ⊢
  by_cases h2 : name = "UUID"
  · rw [if_pos h2] at h ⊢; exact h
  rw [if_neg h2] at h ⊢
  by_cases h2 : name = "Any"
  · rw [if_pos h2] at h ⊢; exact h
  rw [if_neg h2] at h ⊢
  cases hf : m.findType name with
  | none => rw [hf] at h; exact h
  | some td =>
    rw [hf] at h
    dsimp only at h ⊢
    by_cases h2 : td.ts.type ∈ ["Int8", "Int16", "Int32", "Int64", "Float32", "Float64", "Boolean", "String"]
    · rw [if_pos h2] at h ⊢; exact hb (fun _ h => h) h
    rw [if_neg h2] at h ⊢
    by_cases h2 : td.ts.type = "Array" ∨ td.ts.type = "Map"
    · rw [if_pos h2] at h ⊢; exact hb (fun _ h => h) h
    rw [if_neg h2] at h ⊢
    exact h

omit hw in
theorem javaTypeN_settled {k k' : Nat} (hk : k ≤ k') {ts : Option TypeSpec} {n : String} {r : Bool}
    (h : Settled (javaTypeN m conf k ts n r)) : javaTypeN m conf k' ts n r = javaTypeN m conf k ts n r := by
  have step : ∀ k ts n r, Settled (javaTypeN m conf k ts n r) → javaTypeN m conf (k + 1) ts n r = javaTypeN m conf k ts n r := by
    intro k
    induction k with
    | zero => intro ts n r h; exact absurd rfl h
    | succ k ih => intro ts n r h; exact javaTypeStep_mono conf ih ts n r h rfl
  induction hk with
  | refl => rfl
  | step _ ih => exact (step _ _ _ _ (ih ▸ h)).trans ih

omit hw in
theorem javaTypeN_mono {k k' : Nat} (hk : k ≤ k') {ts : Option TypeSpec} {n : String} {r : Bool} {t : JType}
    (h : javaTypeN m conf k ts n r = .ok t) : javaTypeN m conf k' ts n r = .ok t := by
  rw [javaTypeN_settled conf hk (by rw [h]; intro h; cases h), h]

omit hw in
/-- The built-in types other than arrays and maps. -/
theorem java_base_cases (inst : Bool) {n : String} (h : n ∈ BaseTypes) (ha : n ≠ "Array") (hp : n ≠ "Map") :
    (∃ p b, JavaPrimitive n p b) ∨ ∃ c, JavaBuiltin inst n c := by
  simp only [BaseTypes, List.mem_cons, List.not_mem_nil, or_false] at h
  rcases h with rfl | rfl | rfl | rfl | rfl | rfl | rfl | rfl | rfl | rfl | rfl | rfl | rfl | rfl | rfl | rfl | rfl | rfl | rfl
  · exact .inl ⟨_, _, .bool⟩
  · exact .inl ⟨_, _, .int8⟩
  · exact .inl ⟨_, _, .int16⟩
  · exact .inl ⟨_, _, .int32⟩
  · exact .inl ⟨_, _, .int64⟩
  · exact .inl ⟨_, _, .float32⟩
  · exact .inl ⟨_, _, .float64⟩
  · exact .inr ⟨_, .decimal⟩
  · exact .inr ⟨_, .other (by decide)⟩
  · exact .inr ⟨_, .string⟩
  · cases inst
    · exact .inr ⟨_, .timestamp rfl⟩
    · exact .inr ⟨_, .instant rfl⟩
  · exact .inr ⟨_, .other (by decide)⟩
  · exact .inr ⟨_, .uuid⟩
  · exact absurd rfl ha
  · exact absurd rfl hp
  · exact .inr ⟨_, .other (by decide)⟩
  · exact .inr ⟨_, .other (by decide)⟩
  · exact .inr ⟨_, .other (by decide)⟩
  · exact .inr ⟨_, .any⟩

omit hw in
theorem java_known_cases {n : String} (h : Known s n) : (∃ td ∈ s.types, td.name = n) ∨ n ∈ BaseTypes := by
  obtain ⟨ts, ⟨td, h1, h2, _⟩ | ⟨h1, _⟩⟩ := h
  · exact .inl ⟨td, h1, h2⟩
  · exact .inr h1

/-- An array that has no items, as an item. -/
theorem javaTypeN_raw {n : String} (hn : n = "Array" ∨ n = "Map") (k : Nat) (r : Bool) (t : JType) (td : TypeDef)
    (hf : m.findType n = some td) : javaTypeN m conf k (some td.ts) n r ≠ .ok t := by
  cases k with
  | zero => intro h; cases h
  | succ k =>
    have hb : n ∈ BaseTypes := by rcases hn with rfl | rfl <;> decide
    rw [findType_base hw.model hb] at hf
    obtain rfl := Option.some.inj hf
    have he := findType_empty hw.model hw.named
    rcases hn with rfl | rfl
    · rw [javaTypeN_array]; simp [baseTypeDef, he]
    · rw [javaTypeN_map]; simp [baseTypeDef, he]

/-- What `TypeName` says of a named type is right. -/
theorem javaTypeN_sound (k : Nat) : ∀ {ts : Option TypeSpec} {n : String} {r : Bool} {t : JType}, n ≠ "Array" → n ≠ "Map" →
    javaTypeN m conf k ts n r = .ok t → JavaNamed s conf.instants n r t.type := by
  induction k using Nat.strong_induction_on with
  | _ k ih =>
  intro ts n r t ha hp h
  cases k with
  | zero => cases h
  | succ k =>
  by_cases hk : Known s n
  · rcases java_known_cases hk with ⟨td, htd, rfl⟩ | hb
    · rw [javaTypeN_user hw conf htd] at h
      have item : ∀ {k' n' t'}, k' < k + 1 → ∀ td', m.findType n' = some td' →
          javaTypeN m conf k' (some td'.ts) n' false = .ok t' → Known s n' ∧ JavaNamed s conf.instants n' false t'.type := by
        intro k' n' t' hlt td' hf hx
        refine ⟨?_, ih k' hlt ?_ ?_ hx⟩
        · apply Classical.not_not.1
          intro hc
          rw [(goFind_none_iff hw.model n').2 hc] at hf; cases hf
        · intro he; exact javaTypeN_raw hw conf (.inl he) _ _ _ _ hf hx
        · intro he; exact javaTypeN_raw hw conf (.inr he) _ _ _ _ hf hx
      by_cases h1 : td.ts.type ∈ ["Int8", "Int16", "Int32", "Int64", "Float32", "Float64", "Boolean", "String"]
      · rw [if_pos h1] at h
        obtain ⟨a, h2, h3⟩ := gbind_ok.1 h
        cases h3
        have hb : td.ts.type ≠ "Boolean" := by
          intro hc
          rcases hw.kinds td htd with h | h <;> rw [hc] at h <;> revert h <;> decide
        refine .transparent htd ?_ (show JavaNamed _ _ _ _ a.type from ih k (by omega) ?_ ?_ h2)
        · simp only [JavaTransparent, List.mem_cons, List.not_mem_nil, or_false] at h1 ⊢; tauto
        · rintro hc; rw [hc] at h1; revert h1; decide
        · rintro hc; rw [hc] at h1; revert h1; decide
      rw [if_neg h1] at h
      by_cases h2 : td.ts.type = "Array" ∨ td.ts.type = "Map"
      · rw [if_pos h2] at h
        obtain ⟨a, h3, h4⟩ := gbind_ok.1 h
        cases h4
        cases k with
        | zero => cases h3
        | succ k =>
        rcases h2 with h2 | h2
        · rw [h2, javaTypeN_array] at h3
          cases hf : m.findType td.ts.items with
          | none => rw [hf] at h3; cases h3
          | some itd =>
            rw [hf] at h3
            obtain ⟨b, h5, h6⟩ := gbind_ok.1 h3
            cases h6
            obtain ⟨h7, h8⟩ := item (by omega) itd hf h5
            exact .array htd h2 h7 h8
        · rw [h2, javaTypeN_map] at h3
          cases hf : m.findType td.ts.keys with
          | none => rw [hf] at h3; cases h3
          | some ktd =>
            rw [hf] at h3
            obtain ⟨b, h5, h6⟩ := gbind_ok.1 h3
            cases hf' : m.findType td.ts.items with
            | none => rw [hf'] at h6; cases h6
            | some itd =>
              rw [hf'] at h6
              obtain ⟨c, h9, h10⟩ := gbind_ok.1 h6
              cases h10
              obtain ⟨h7, h8⟩ := item (by omega) ktd hf h5
              obtain ⟨h11, h12⟩ := item (by omega) itd hf' h9
              exact .map htd h2 h7 h8 h11 h12
      rw [if_neg h2] at h
      by_cases h3 : td.ts.type = "UUID"
      · rw [if_pos h3] at h; cases h
        exact .transparent htd (by rw [h3]; decide) (by rw [h3]; exact .builtin .uuid)
      rw [if_neg h3] at h
      by_cases h4 : td.ts.type = "Decimal"
      · rw [if_pos h4] at h; cases h
        exact .transparent htd (by rw [h4]; decide) (by rw [h4]; exact .builtin .decimal)
      rw [if_neg h4] at h
      by_cases h5 : td.ts.type = "Timestamp"
      · rw [if_pos h5] at h
        refine .transparent htd (by rw [h5]; decide) ?_
        rw [h5]
        by_cases hi : conf.instants = true
        · rw [if_pos hi] at h; cases h
          exact .builtin (.instant hi)
        · rw [if_neg hi] at h; cases h
          exact .builtin (.timestamp (by simpa using hi))
      rw [if_neg h5] at h
      cases h
      refine .own htd ?_ (fun h => h2 (.inl h)) (fun h => h2 (.inr h))
      simp only [JavaTransparent, List.mem_cons, List.not_mem_nil, or_false] at h1 ⊢; tauto
    · rcases java_base_cases conf.instants hb ha hp with ⟨p, b, hx⟩ | ⟨c, hx⟩
      · rw [javaTypeN_primitive hw conf hx] at h
        cases h
        cases r
        · exact .boxed hx
        · exact .primitive hx
      · obtain ⟨jt, h1, h2, _⟩ := javaTypeN_builtin hw conf hx k ts r
        rw [h1] at h; cases h
        rw [h2]; exact .builtin hx
  · obtain ⟨jt, h1, h2, _⟩ := javaTypeN_unknown hw conf hk k ts r
    rw [h1] at h; cases h
    rw [h2]; exact .unknown hk

/-- With enough fuel, `TypeName` finds the type. -/
theorem javaTypeN_complete {n : String} {r : Bool} {t : JTy} (h : JavaNamed s conf.instants n r t) :
    ∃ k, ∀ ts, ∃ jt, javaTypeN m conf k ts n r = .ok jt ∧ jt.type = t := by
  have find : ∀ {n}, Known s n → ∃ td, m.findType n = some td := by
    intro n hk
    cases hf : m.findType n with
    | none => exact absurd hk ((goFind_none_iff hw.model n).1 hf)
    | some td => exact ⟨td, rfl⟩
  induction h with
  | primitive hx => exact ⟨1, fun ts => ⟨_, javaTypeN_primitive hw conf hx 0 ts true, rfl⟩⟩
  | boxed hx => exact ⟨1, fun ts => ⟨_, javaTypeN_primitive hw conf hx 0 ts false, rfl⟩⟩
  | builtin hx =>
    refine ⟨1, fun ts => ?_⟩
    obtain ⟨jt, h1, h2, _⟩ := javaTypeN_builtin hw conf hx 0 ts _
    exact ⟨jt, h1, h2⟩
  | unknown hx =>
    refine ⟨1, fun ts => ?_⟩
    obtain ⟨jt, h1, h2, _⟩ := javaTypeN_unknown hw conf hx 0 ts _
    exact ⟨jt, h1, h2⟩
  | own htd h1 h2 h3 =>
    refine ⟨1, fun ts => ?_⟩
    rename_i td r
    refine ⟨{ type := .name td.name, annos := if r then [.notNull] else [],
              notes := if r then [.pack "javax.validation.constraints.NotNull"] else [] }, ?_, rfl⟩
    rw [javaTypeN_user hw conf htd]
    have hb : td.ts.type ≠ "Boolean" := by
      intro hc
      rcases hw.kinds td htd with h | h <;> rw [hc] at h <;> revert h <;> decide
    simp only [JavaTransparent, List.mem_cons, List.not_mem_nil, or_false, not_or] at h1
    simp only [List.mem_cons, List.not_mem_nil, or_false, h1, h2, h3, hb, if_false]
  | transparent htd h1 h2 ih =>
    rename_i td r t
    obtain ⟨k, ih⟩ := ih
    refine ⟨k + 1, fun ts => ?_⟩
    rw [javaTypeN_user hw conf htd]
    obtain ⟨jt, h3, h4⟩ := ih (some td.ts)
    by_cases h5 : td.ts.type ∈ ["Int8", "Int16", "Int32", "Int64", "Float32", "Float64", "Boolean", "String"]
    · rw [if_pos h5, h3]; exact ⟨_, rfl, h4⟩
    rw [if_neg h5]
    have h6 : td.ts.type = "UUID" ∨ td.ts.type = "Decimal" ∨ td.ts.type = "Timestamp" := by
      simp only [JavaTransparent, List.mem_cons, List.not_mem_nil, or_false] at h1 h5; tauto
    have hs := javaTypeN_sound hw conf k (by rcases h6 with h | h | h <;> rw [h] <;> decide)
      (by rcases h6 with h | h | h <;> rw [h] <;> decide) h3
    cases k with
    | zero => cases h3
    | succ k =>
    rcases h6 with h6 | h6 | h6
    · rw [h6] at h3 ⊢
      obtain ⟨jt', h7, h8, _⟩ := javaTypeN_builtin hw conf (.uuid) k (some td.ts) r
      rw [h7] at h3; cases h3
      exact ⟨_, rfl, h8.symm.trans h4⟩
    · rw [h6] at h3 ⊢
      obtain ⟨jt', h7, h8, _⟩ := javaTypeN_builtin hw conf (.decimal) k (some td.ts) r
      rw [h7] at h3; cases h3
      exact ⟨_, rfl, h8.symm.trans h4⟩
    · rw [h6] at h3 ⊢
      rw [if_neg (by decide), if_neg (by decide), if_neg (by decide), if_pos rfl]
      by_cases hi : conf.instants = true
      · obtain ⟨jt', h7, h8, _⟩ := javaTypeN_builtin hw conf (.instant hi) k (some td.ts) r
        rw [h7] at h3; cases h3
        rw [if_pos hi]
        exact ⟨_, rfl, h8.symm.trans h4⟩
      · obtain ⟨jt', h7, h8, _⟩ := javaTypeN_builtin hw conf (.timestamp (by simpa using hi)) k (some td.ts) r
        rw [h7] at h3; cases h3
        rw [if_neg hi]
        exact ⟨_, rfl, h8.symm.trans h4⟩
  | array htd h1 h2 h3 ih =>
    rename_i td r t
    obtain ⟨k, ih⟩ := ih
    refine ⟨k + 2, fun ts => ?_⟩
    obtain ⟨itd, hf⟩ := find h2
    obtain ⟨jt, h4, h5⟩ := ih (some itd.ts)
    rw [javaTypeN_user hw conf htd, if_neg (by rw [h1]; decide), if_pos (.inl h1), h1, javaTypeN_array, hf]
    dsimp only
    rw [h4]
    exact ⟨_, rfl, by rw [← h5]; rfl⟩
  | map htd h1 h2 h3 h2' h3' ih ih' =>
    rename_i td r kt t
    obtain ⟨k, ih⟩ := ih
    obtain ⟨k', ih'⟩ := ih'
    refine ⟨max k k' + 2, fun ts => ?_⟩
    obtain ⟨ktd, hf⟩ := find h2
    obtain ⟨itd, hf'⟩ := find h2'
    obtain ⟨jt, h4, h5⟩ := ih (some ktd.ts)
    obtain ⟨jt', h4', h5'⟩ := ih' (some itd.ts)
    rw [javaTypeN_user hw conf htd, if_neg (by rw [h1]; decide), if_pos (.inr h1), h1, javaTypeN_map, hf]
    dsimp only
    rw [javaTypeN_mono conf (Nat.le_max_left k k') h4]
    simp only [Out.bind, hf']
    rw [javaTypeN_mono conf (Nat.le_max_right k k') h4']
    exact ⟨_, rfl, by rw [← h5, ← h5']; rfl⟩

/-- The types that a container needs. -/
def JavaNeeds (ts : TypeSpec) (n : String) : Prop :=
  (ts.type = "Array" ∧ n = ts.items) ∨ (ts.type = "Map" ∧ (n = ts.keys ∨ n = ts.items))

omit hw in
/-- A container depends on what it needs. -/
theorem javaTypeN_container {ts : TypeSpec} (ht : ts.type = "Array" ∨ ts.type = "Map") (k k' : Nat) (r : Bool)
    (h : ∀ n td, JavaNeeds ts n → m.findType n = some td →
      javaTypeN m conf k' (some td.ts) n false = javaTypeN m conf k (some td.ts) n false) :
    javaTypeN m conf (k' + 1) (some ts) ts.type r = javaTypeN m conf (k + 1) (some ts) ts.type r := by
  rcases ht with ht | ht
  · rw [ht, javaTypeN_array, javaTypeN_array]
    cases hf : m.findType ts.items with
    | none => rfl
    | some td => dsimp only; rw [h _ _ (.inl ⟨ht, rfl⟩) hf]
  · rw [ht, javaTypeN_map, javaTypeN_map]
    cases hf : m.findType ts.keys with
    | none => rfl
    | some td =>
      dsimp only; rw [h _ _ (.inr ⟨ht, .inl rfl⟩) hf]
      cases hf' : m.findType ts.items with
      | none => rfl
      | some td => dsimp only; rw [h _ _ (.inr ⟨ht, .inr rfl⟩) hf']

/-- Other names than those of the schema do not take much. -/
theorem javaTypeN_not_user {n : String} (hn : ∀ td ∈ s.types, td.name ≠ n) {k k' : Nat} (hk : 1 ≤ k) (hk' : k ≤ k')
    (ts : Option TypeSpec) (hts : (n = "Array" ∨ n = "Map") → ts = some (baseTypeDef n).ts) (r : Bool) :
    javaTypeN m conf k' ts n r = javaTypeN m conf k ts n r := by
  obtain ⟨k, rfl⟩ : ∃ j, k = j + 1 := ⟨k - 1, by omega⟩
  apply javaTypeN_settled conf hk'
  intro h
  by_cases hkn : Known s n
  · rcases java_known_cases hkn with ⟨td, htd, he⟩ | hb
    · exact absurd he (hn td htd)
    · by_cases ha : n = "Array" ∨ n = "Map"
      · have he := findType_empty hw.model hw.named
        rw [hts ha] at h
        rcases ha with rfl | rfl
        · rw [javaTypeN_array] at h; simp [baseTypeDef, he, nilDeref, stackOverflow] at h
        · rw [javaTypeN_map] at h; simp [baseTypeDef, he, nilDeref, stackOverflow] at h
      · rcases java_base_cases conf.instants hb (fun h => ha (.inl h)) (fun h => ha (.inr h)) with ⟨p, b, hx⟩ | ⟨c, hx⟩
        · rw [javaTypeN_primitive hw conf hx k ts r] at h; cases h
        · obtain ⟨jt, h1, _⟩ := javaTypeN_builtin hw conf hx k ts r
          rw [h1] at h; cases h
  · obtain ⟨jt, h1, _⟩ := javaTypeN_unknown hw conf hkn k ts r
    rw [h1] at h; cases h

/-- A type of the schema depends on what it needs. -/
theorem javaTypeN_user_congr {td : TypeDef} (h : td ∈ s.types) {k k' : Nat} (hk : k ≤ k') (ts ts' : Option TypeSpec) (r : Bool)
    (hn : ∀ n td', JavaNeeds td.ts n → m.findType n = some td' →
      javaTypeN m conf k' (some td'.ts) n false = javaTypeN m conf k (some td'.ts) n false) :
    javaTypeN m conf (k' + 2) ts td.name r = javaTypeN m conf (k + 2) ts' td.name r := by
  rw [javaTypeN_user hw conf h, javaTypeN_user hw conf h]
  by_cases hc : td.ts.type = "Array" ∨ td.ts.type = "Map"
  · have h0 : td.ts.type ∉ ["Int8", "Int16", "Int32", "Int64", "Float32", "Float64", "Boolean", "String"] := by
      rcases hc with h | h <;> rw [h] <;> decide
    simp only [if_neg h0, if_pos hc]
    rw [javaTypeN_container conf hc k k' false hn]
  · simp only [if_neg hc]
    by_cases h1 : td.ts.type ∈ ["Int8", "Int16", "Int32", "Int64", "Float32", "Float64", "Boolean", "String"]
    · simp only [if_pos h1]
      have hb : td.ts.type ∈ BaseTypes := by
        rcases hw.kinds td h with hb | hb
        · exact hb
        · rw [hb] at h1; exact absurd h1 (by decide)
      rw [javaTypeN_not_user hw conf (fun td' h' he => hw.user_base h' (he ▸ hb)) (Nat.le_add_left 1 k) (by omega)
        (some td.ts) (fun h => absurd h hc) r]
    · simp only [if_neg h1]

omit hw in
/-- A bounded sequence that stays the same once it has stayed the same is constant from its bound on. -/
theorem stationary (f : Nat → Nat) (N : Nat) (mono : ∀ k, f k ≤ f (k + 1)) (bound : ∀ k, f k ≤ N)
    (stop : ∀ k, f k = f (k + 1) → f (k + 1) = f (k + 2)) (j : Nat) : f (N + j) = f N := by
  have hstay : ∀ k, f k = f (k + 1) → ∀ j, f (k + j) = f k ∧ f (k + j) = f (k + j + 1) := by
    intro k hk j
    induction j with
    | zero => exact ⟨rfl, hk⟩
    | succ j ih => exact ⟨ih.2.symm.trans ih.1, stop _ ih.2⟩
  by_cases h : ∃ k ≤ N, f k = f (k + 1)
  · obtain ⟨k, hk, he⟩ := h
    have h1 := (hstay k he (N - k)).1
    have h2 := (hstay k he (N - k + j)).1
    rw [show k + (N - k) = N by omega] at h1
    rw [show k + (N - k + j) = N + j by omega] at h2
    rw [h1, h2]
  · exfalso
    have hlt : ∀ k ≤ N, f k < f (k + 1) := fun k hk => Nat.lt_of_le_of_ne (mono k) fun he => h ⟨k, hk, he⟩
    have hge : ∀ k ≤ N + 1, k ≤ f k := by
      intro k
      induction k with
      | zero => intro _; exact Nat.zero_le _
      | succ k ih => intro hk; have := ih (by omega); have := hlt k (by omega); omega
    have := hge (N + 1) (Nat.le_refl _)
    have := bound (N + 1)
    omega

omit hw in
theorem countP_eq_imp {α : Type} {p q : α → Bool} {l : List α} (hpq : ∀ x ∈ l, p x = true → q x = true)
    (h : l.countP p = l.countP q) : ∀ x ∈ l, q x = true → p x = true := by
  induction l with
  | nil => simp
  | cons a l ih =>
    have hle : l.countP p ≤ l.countP q := List.countP_mono_left fun x hx => hpq x (List.mem_cons_of_mem _ hx)
    have ha := hpq a List.mem_cons_self
    rw [List.countP_cons, List.countP_cons] at h
    have hl : l.countP p = l.countP q ∧ (q a = true → p a = true) := by
      cases hp : p a <;> cases hq : q a <;> simp [hp, hq] at h ha ⊢ <;> omega
    intro x hx hqx
    rcases List.mem_cons.1 hx with rfl | hx
    · exact hl.2 hqx
    · exact ih (fun y hy => hpq y (List.mem_cons_of_mem _ hy)) hl.1 x hx hqx

/-- A recursion deeper than this goes on for ever. -/
theorem javaTypeN_bound {k : Nat} (hk : 2 * s.types.length + 2 ≤ k) {td : TypeDef} (htd : td ∈ s.types) (ts : Option TypeSpec) :
    javaTypeN m conf k ts td.name false = javaTypeN m conf (2 * s.types.length + 2) ts td.name false := by
  classical
  let p : Nat → TypeDef → Bool := fun j td => decide (Settled (javaTypeN m conf (2 * j + 2) none td.name false))
  have indep : ∀ k (td : TypeDef), td ∈ s.types → ∀ ts, javaTypeN m conf (k + 2) ts td.name false =
      javaTypeN m conf (k + 2) none td.name false :=
    fun k td h ts => javaTypeN_user_congr hw conf h (Nat.le_refl k) ts none false fun _ _ _ _ => rfl
  have pmono : ∀ j i, ∀ x ∈ s.types, p j x = true → p (j + i) x = true := by
    intro j i x _ hx
    simp only [p, decide_eq_true_eq] at hx ⊢
    rw [javaTypeN_settled conf (by omega) hx]; exact hx
  have same : ∀ j i, (∀ x ∈ s.types, p (j + i) x = true → p j x = true) → ∀ x ∈ s.types, ∀ ts,
      javaTypeN m conf (2 * (j + i) + 2) ts x.name false = javaTypeN m conf (2 * j + 2) ts x.name false := by
    intro j i hj x hx ts
    rw [indep _ x hx ts, indep (2 * j) x hx ts]
    simp only [p, decide_eq_true_eq] at hj
    by_cases hs : Settled (javaTypeN m conf (2 * j + 2) none x.name false)
    · exact javaTypeN_settled conf (by omega) hs
    · have hs' := fun h => hs (hj x hx h)
      exact (Classical.not_not.1 hs').trans (Classical.not_not.1 hs).symm
  have next : ∀ j, (∀ x ∈ s.types, p (j + 1) x = true → p j x = true) →
      ∀ x ∈ s.types, p (j + 2) x = true → p (j + 1) x = true := by
    intro j hj x hx hpx
    have h1 : javaTypeN m conf (2 * (j + 2) + 2) none x.name false = javaTypeN m conf (2 * (j + 1) + 2) none x.name false := by
      refine javaTypeN_user_congr hw conf hx (k := 2 * j + 2) (k' := 2 * (j + 1) + 2) (by omega) none none false ?_
      intro n td' _ hf
      by_cases hu : ∃ td ∈ s.types, td.name = n
      · obtain ⟨td, htd, rfl⟩ := hu
        exact same j 1 hj td htd _
      · refine javaTypeN_not_user hw conf (fun td h he => hu ⟨td, h, he⟩) (by omega) (by omega) _ ?_ _
        intro hc
        have hb : n ∈ BaseTypes := by rcases hc with rfl | rfl <;> decide
        rw [findType_base hw.model hb] at hf
        cases hf; rfl
    simp only [p, decide_eq_true_eq] at hpx ⊢
    rw [← h1]; exact hpx
  have hst := stationary (fun j => s.types.countP (p j)) s.types.length
    (fun j => List.countP_mono_left (pmono j 1)) (fun j => List.countP_le_length)
    (fun j hj => by
      have h1 := next j (countP_eq_imp (pmono j 1) hj)
      exact Nat.le_antisymm (List.countP_mono_left (pmono (j + 1) 1)) (List.countP_mono_left h1))
  have hfix : ∀ i, javaTypeN m conf (2 * (s.types.length + i) + 2) ts td.name false =
      javaTypeN m conf (2 * s.types.length + 2) ts td.name false :=
    fun i => same _ i (countP_eq_imp (pmono _ i) (hst i).symm) td htd ts
  by_cases hs : Settled (javaTypeN m conf (2 * s.types.length + 2) ts td.name false)
  · exact javaTypeN_settled conf hk hs
  · have hk2 : ¬ Settled (javaTypeN m conf k ts td.name false) := by
      intro h
      have := hfix k
      rw [javaTypeN_settled conf (by omega) h] at this
      exact hs (this ▸ h)
    exact (Classical.not_not.1 hk2).trans (Classical.not_not.1 hs).symm

/-- The bound on the depth of the recursion does not matter. -/
theorem javaTypeN_fuel {k : Nat} (hk : 2 * s.types.length + 4 ≤ k) (ts : Option TypeSpec) (n : String) (r : Bool)
    (hts : n = "Array" ∨ n = "Map" → ∃ t, ts = some t ∧ t.type = n) :
    javaTypeN m conf k ts n r = javaType m conf ts n r := by
  obtain ⟨j, rfl⟩ : ∃ j, k = j + 2 := ⟨k - 2, by omega⟩
  rw [javaType, hw.schema_eq]
  have item : ∀ {j j'}, 2 * s.types.length + 2 ≤ j → j ≤ j' → ∀ n td, m.findType n = some td →
      javaTypeN m conf j' (some td.ts) n false = javaTypeN m conf j (some td.ts) n false := by
    intro j j' hj hj' n td' hf
    by_cases hu : ∃ td ∈ s.types, td.name = n
    · obtain ⟨td, htd, rfl⟩ := hu
      rw [javaTypeN_bound hw conf hj htd, javaTypeN_bound hw conf (by omega) htd]
    · refine javaTypeN_not_user hw conf (fun td h he => hu ⟨td, h, he⟩) (by omega) hj' _ ?_ _
      intro hc
      have hb : n ∈ BaseTypes := by rcases hc with rfl | rfl <;> decide
      rw [findType_base hw.model hb] at hf
      cases hf; rfl
  by_cases hu : ∃ td ∈ s.types, td.name = n
  · obtain ⟨td, htd, rfl⟩ := hu
    exact javaTypeN_user_congr hw conf htd (k := 2 * s.types.length + 2) (k' := j) (by omega) ts ts r
      fun n td' _ hf => item (Nat.le_refl _) (by omega) n td' hf
  · by_cases hc : n = "Array" ∨ n = "Map"
    · obtain ⟨t, rfl, ht⟩ := hts hc
      subst ht
      exact javaTypeN_container conf hc (2 * s.types.length + 3) (j + 1) r fun n td' _ hf => item (by omega) (by omega) n td' hf
    · exact javaTypeN_not_user hw conf (fun td h he => hu ⟨td, h, he⟩) (by omega) (by omega) _ (fun h => absurd h hc) _

/-- The type of a named type, as the specification has it. -/
theorem javaType_named {n : String} (ha : n ≠ "Array") (hp : n ≠ "Map") (ts : Option TypeSpec) (r : Bool) (t : JTy) :
    (∃ jt, javaType m conf ts n r = .ok jt ∧ jt.type = t) ↔ JavaNamed s conf.instants n r t := by
  constructor
  · rintro ⟨jt, h, rfl⟩
    exact javaTypeN_sound hw conf _ ha hp h
  · intro h
    obtain ⟨k, hk⟩ := javaTypeN_complete hw conf h
    obtain ⟨jt, h1, h2⟩ := hk ts
    refine ⟨jt, ?_, h2⟩
    rw [← javaTypeN_fuel hw conf (Nat.le_max_right k _) ts n r (by rintro (h | h) <;> contradiction)]
    exact javaTypeN_mono conf (Nat.le_max_left k _) h1

/-- The type of a use of a type, as the specification has it. -/
theorem javaType_use (ts : TypeSpec) (r : Bool) (t : JTy) :
    (∃ jt, javaType m conf (some ts) ts.type r = .ok jt ∧ jt.type = t) ↔ JavaUse s conf.instants ts r t := by
  by_cases hc : ts.type = "Array" ∨ ts.type = "Map"
  swap
  · rw [javaType_named hw conf (fun h => hc (.inl h)) (fun h => hc (.inr h))]
    constructor
    · exact .named (fun h => hc (.inl h)) (fun h => hc (.inr h))
    · rintro (⟨_, _, h⟩ | ⟨h, _⟩ | ⟨h, _⟩)
      · exact h
      · exact absurd (.inl h) hc
      · exact absurd (.inr h) hc
  have item : ∀ n t, (∃ td jt, m.findType n = some td ∧
      javaTypeN m conf (2 * m.schema.types.length + 3) (some td.ts) n false = .ok jt ∧ jt.type = t) ↔
      Known s n ∧ JavaNamed s conf.instants n false t := by
    intro n t
    constructor
    · rintro ⟨td, jt, hf, h, rfl⟩
      refine ⟨?_, javaTypeN_sound hw conf _ ?_ ?_ h⟩
      · apply Classical.not_not.1
        intro hc
        rw [(goFind_none_iff hw.model n).2 hc] at hf; cases hf
      · intro he; exact javaTypeN_raw hw conf (.inl he) _ _ _ _ hf h
      · intro he; exact javaTypeN_raw hw conf (.inr he) _ _ _ _ hf h
    · rintro ⟨hk, h⟩
      cases hf : m.findType n with
      | none => exact absurd hk ((goFind_none_iff hw.model n).1 hf)
      | some td =>
        obtain ⟨k, hk⟩ := javaTypeN_complete hw conf h
        obtain ⟨jt, h1, h2⟩ := hk (some td.ts)
        refine ⟨td, jt, rfl, ?_, h2⟩
        rw [hw.schema_eq]
        have h3 := javaTypeN_mono conf (Nat.le_max_left k (2 * s.types.length + 3)) h1
        by_cases hu : ∃ td ∈ s.types, td.name = n
        · obtain ⟨td', htd, rfl⟩ := hu
          rw [javaTypeN_bound hw conf (by omega) htd] at h3
          rw [javaTypeN_bound hw conf (by omega) htd]; exact h3
        · have hb : (n = "Array" ∨ n = "Map") → some td.ts = some (baseTypeDef n).ts := by
            intro hc
            have hb : n ∈ BaseTypes := by rcases hc with rfl | rfl <;> decide
            rw [findType_base hw.model hb] at hf
            cases hf; rfl
          rw [javaTypeN_not_user hw conf (fun td h he => hu ⟨td, h, he⟩) (k := 2 * s.types.length + 3) (by omega) (by omega) _ hb] at h3
          exact h3
  rcases hc with hc | hc
  · rw [hc, javaType, javaTypeN_array]
    constructor
    · rintro ⟨jt, h, rfl⟩
      cases hf : m.findType ts.items with
      | none => rw [hf] at h; cases h
      | some td =>
        rw [hf] at h
        obtain ⟨a, h1, h2⟩ := gbind_ok.1 h
        cases h2
        obtain ⟨h3, h4⟩ := (item ts.items a.type).1 ⟨td, a, hf, h1, rfl⟩
        exact .array hc h3 h4
    · intro h
      cases h with
      | named h => exact absurd hc h
      | map h => rw [hc] at h; exact absurd h (by decide)
      | array _ h1 h2 =>
        obtain ⟨td, jt, hf, h3, h4⟩ := (item _ _).2 ⟨h1, h2⟩
        rw [hf]; dsimp only; rw [h3]
        exact ⟨_, rfl, by rw [← h4]⟩
  · rw [hc, javaType, javaTypeN_map]
    constructor
    · rintro ⟨jt, h, rfl⟩
      cases hf : m.findType ts.keys with
      | none => rw [hf] at h; cases h
      | some td =>
        rw [hf] at h
        obtain ⟨a, h1, h2⟩ := gbind_ok.1 h
        cases hf' : m.findType ts.items with
        | none => rw [hf'] at h2; cases h2
        | some td' =>
          rw [hf'] at h2
          obtain ⟨b, h5, h6⟩ := gbind_ok.1 h2
          cases h6
          obtain ⟨h3, h4⟩ := (item ts.keys a.type).1 ⟨td, a, hf, h1, rfl⟩
          obtain ⟨h7, h8⟩ := (item ts.items b.type).1 ⟨td', b, hf', h5, rfl⟩
          exact .map hc h3 h4 h7 h8
    · intro h
      cases h with
      | named _ h => exact absurd hc h
      | array h => rw [hc] at h; exact absurd h (by decide)
      | map _ h1 h2 h1' h2' =>
        obtain ⟨td, jt, hf, h3, h4⟩ := (item _ _).2 ⟨h1, h2⟩
        obtain ⟨td', jt', hf', h3', h4'⟩ := (item _ _).2 ⟨h1', h2'⟩
        rw [hf]; dsimp only; rw [h3, hf']
        simp only [Out.bind]
        rw [h3']
        exact ⟨_, rfl, by rw [← h4, ← h4']⟩

omit hw in
theorem NoErr.ite {α : Type} {c : Prop} [Decidable c] {x y : Out α} (hx : NoErr x) (hy : NoErr y) : NoErr (if c then x else y) := by
  split
  · exact hx
  · exact hy

omit hw in
theorem javaTypeN_noErr (k : Nat) : ∀ (ts : Option TypeSpec) (n : String) (r : Bool), NoErr (javaTypeN m conf k ts n r) := by
  induction k with
  | zero => intro ts n r; exact .panic _
  | succ k ih =>
    intro ts n r
    unfold javaTypeN javaTypeStep
    refine NoErr.ite (.ok _) ?_
    extract_lets annos notes name
    refine NoErr.ite (.ok _) (NoErr.ite (.ok _) (NoErr.ite (.ok _) (NoErr.ite (NoErr.ite (.ok _) (.ok _)) (NoErr.ite ?_ (NoErr.ite ?_
      (NoErr.ite (.ok _) (NoErr.ite (.ok _) ?_)))))))
    · cases ts with
      | none => exact .ok _
      | some ts =>
        dsimp only
        cases m.findType ts.items with
        | none => exact .panic _
        | some td => exact (ih _ _ _).bind fun _ => .ok _
    · cases ts with
      | none => exact .ok _
      | some ts =>
        dsimp only
        cases m.findType ts.keys with
        | none => exact .panic _
        | some td =>
          refine (ih _ _ _).bind fun _ => ?_
          cases m.findType ts.items with
          | none => exact .panic _
          | some td => exact (ih _ _ _).bind fun _ => .ok _
    · cases m.findType name with
      | none => exact .ok _
      | some td =>
        exact NoErr.ite ((ih _ _ _).bind fun _ => .ok _) (NoErr.ite ((ih _ _ _).bind fun _ => .ok _)
          (NoErr.ite (.ok _) (NoErr.ite (.ok _) (NoErr.ite (.ok _) (NoErr.ite (NoErr.ite (.ok _) (.ok _)) (.ok _))))))

/-- A type with a Java type, whether required or not. -/
theorem javaNamed_required {inst : Bool} {n : String} {r : Bool} {t : JTy} (h : JavaNamed s inst n r t) (r' : Bool) :
    ∃ t', JavaNamed s inst n r' t' := by
  induction h with
  | primitive hx => cases r'; exacts [⟨_, .boxed hx⟩, ⟨_, .primitive hx⟩]
  | boxed hx => cases r'; exacts [⟨_, .boxed hx⟩, ⟨_, .primitive hx⟩]
  | builtin hx => exact ⟨_, .builtin hx⟩
  | transparent h1 h2 _ ih => obtain ⟨t, ht⟩ := ih; exact ⟨t, .transparent h1 h2 ht⟩
  | array h1 h2 h3 h4 => exact ⟨_, .array h1 h2 h3 h4⟩
  | map h1 h2 h3 h4 h5 h6 => exact ⟨_, .map h1 h2 h3 h4 h5 h6⟩
  | own h1 h2 h3 h4 => exact ⟨_, .own h1 h2 h3 h4⟩
  | unknown h => exact ⟨_, .unknown h⟩

theorem javaNamed_not_user (inst : Bool) {n : String} (ha : n ≠ "Array") (hp : n ≠ "Map") (hn : ∀ td ∈ s.types, td.name ≠ n)
    (r : Bool) : ∃ t, JavaNamed s inst n r t := by
  by_cases hk : Known s n
  · rcases java_known_cases hk with ⟨td, htd, h⟩ | hb
    · exact absurd h (hn td htd)
    · rcases java_base_cases inst hb ha hp with ⟨p, b, hx⟩ | ⟨c, hx⟩
      · cases r; exacts [⟨_, .boxed hx⟩, ⟨_, .primitive hx⟩]
      · exact ⟨_, .builtin hx⟩
  · exact ⟨_, .unknown hk⟩

theorem javaNamed_ne {inst : Bool} {n : String} {r : Bool} {t : JTy} (h : JavaNamed s inst n r t) : n ≠ "Array" ∧ n ≠ "Map" := by
  have user : ∀ {td}, td ∈ s.types → td.name ≠ "Array" ∧ td.name ≠ "Map" := fun {td} htd =>
    ⟨fun h => hw.user_base htd (h ▸ by decide), fun h => hw.user_base htd (h ▸ by decide)⟩
  cases h with
  | primitive hx => cases hx <;> decide
  | boxed hx => cases hx <;> decide
  | builtin hx =>
    cases hx with
    | other h => exact (by decide : ∀ n ∈ ["Bytes", "Struct", "Enum", "Union", "UnitValue"], n ≠ "Array" ∧ n ≠ "Map") n h
    | _ => decide
  | transparent h1 => exact user h1
  | array h1 => exact user h1
  | map h1 => exact user h1
  | own h1 => exact user h1
  | unknown h => exact ⟨fun he => h (he ▸ known_base (by decide)), fun he => h (he ▸ known_base (by decide))⟩

/-- All types have a Java type exactly when no container contains itself. -/
theorem javaNamed_all_iff (inst : Bool) :
    (∀ td ∈ s.types, ∃ t, JavaNamed s inst td.name false t) ↔
      ∃ rank : String → Nat, ∀ td ∈ s.types, ∀ n, JavaNeeds td.ts n →
        Known s n ∧ n ≠ "Array" ∧ n ≠ "Map" ∧ (n ∈ s.types.map TypeDef.name → rank n < rank td.name) := by
  classical
  constructor
  · intro h
    let conf : JavaConf := { instants := inst }
    have hex : ∀ td ∈ s.types, ∃ k, ∃ t, javaTypeN m conf k none td.name false = .ok t := by
      intro td htd
      obtain ⟨t, ht⟩ := h td htd
      obtain ⟨k, hk⟩ := javaTypeN_complete hw conf ht
      obtain ⟨jt, h1, _⟩ := hk none
      exact ⟨k, jt, h1⟩
    let rank : String → Nat := fun n =>
      if hn : ∃ k, ∃ t, javaTypeN m conf k none n false = .ok t then Nat.find hn else 0
    refine ⟨rank, fun td htd n hn => ?_⟩
    have hr : rank td.name = Nat.find (hex td htd) := dif_pos (hex td htd)
    obtain ⟨t, ht⟩ := Nat.find_spec (hex td htd)
    rw [← hr] at ht
    have hc : td.ts.type = "Array" ∨ td.ts.type = "Map" := by
      rcases hn with ⟨h, _⟩ | ⟨h, _⟩
      · exact .inl h
      · exact .inr h
    have key : ∃ k td' t', k < rank td.name ∧ m.findType n = some td' ∧ javaTypeN m conf k (some td'.ts) n false = .ok t' := by
      generalize rank td.name = K at ht ⊢
      cases K with
      | zero => cases ht
      | succ K =>
      rw [javaTypeN_user hw conf htd, if_neg (by rcases hc with h | h <;> rw [h] <;> decide), if_pos hc] at ht
      obtain ⟨a, h1, _⟩ := gbind_ok.1 ht
      cases K with
      | zero => cases h1
      | succ K =>
      refine ⟨K, ?_⟩
      rcases hn with ⟨he, rfl⟩ | ⟨he, hn⟩
      · rw [he, javaTypeN_array] at h1
        cases hf : m.findType td.ts.items with
        | none => rw [hf] at h1; cases h1
        | some td' =>
          rw [hf] at h1
          obtain ⟨b, h2, _⟩ := gbind_ok.1 h1
          exact ⟨td', b, by omega, rfl, h2⟩
      · rw [he, javaTypeN_map] at h1
        cases hf : m.findType td.ts.keys with
        | none => rw [hf] at h1; cases h1
        | some td' =>
          rw [hf] at h1
          obtain ⟨b, h2, h3⟩ := gbind_ok.1 h1
          cases hf' : m.findType td.ts.items with
          | none => rw [hf'] at h3; cases h3
          | some td'' =>
            rw [hf'] at h3
            obtain ⟨c, h4, _⟩ := gbind_ok.1 h3
            rcases hn with rfl | rfl
            · exact ⟨td', b, by omega, hf, h2⟩
            · exact ⟨td'', c, by omega, hf', h4⟩
    obtain ⟨k, td', t', hlt, hf, hk⟩ := key
    refine ⟨?_, fun he => javaTypeN_raw hw conf (.inl he) _ _ _ _ hf hk, fun he => javaTypeN_raw hw conf (.inr he) _ _ _ _ hf hk, ?_⟩
    · apply Classical.not_not.1
      intro hc
      rw [(goFind_none_iff hw.model n).2 hc] at hf; cases hf
    · intro hmem
      obtain ⟨td2, htd2, rfl⟩ := List.mem_map.1 hmem
      have hr2 : rank td2.name = Nat.find (hex td2 htd2) := dif_pos (hex td2 htd2)
      rw [hr2]
      refine Nat.lt_of_le_of_lt (Nat.find_min' _ ⟨t', ?_⟩) hlt
      cases k with
      | zero => cases hk
      | succ k => rw [javaTypeN_user hw conf htd2] at hk ⊢; exact hk
  · rintro ⟨rank, hr⟩ td htd
    have : ∀ N, ∀ td ∈ s.types, rank td.name < N → ∃ t, JavaNamed s inst td.name false t := by
      intro N
      induction N with
      | zero => intro td _ h; omega
      | succ N ih =>
        intro td htd hlt
        have need : ∀ n, JavaNeeds td.ts n → Known s n ∧ ∃ t, JavaNamed s inst n false t := by
          intro n hn
          obtain ⟨h1, h2, h3, h4⟩ := hr td htd n hn
          refine ⟨h1, ?_⟩
          by_cases hu : n ∈ s.types.map TypeDef.name
          · have := h4 hu
            obtain ⟨td', htd', rfl⟩ := List.mem_map.1 hu
            exact ih td' htd' (by omega)
          · exact javaNamed_not_user hw inst h2 h3 (fun td h he => hu (List.mem_map.2 ⟨td, h, he⟩)) false
        by_cases h1 : td.ts.type = "Array"
        · obtain ⟨h2, t, h3⟩ := need _ (.inl ⟨h1, rfl⟩)
          exact ⟨_, .array htd h1 h2 h3⟩
        by_cases h1' : td.ts.type = "Map"
        · obtain ⟨h2, t, h3⟩ := need _ (.inr ⟨h1', .inl rfl⟩)
          obtain ⟨h4, t', h5⟩ := need _ (.inr ⟨h1', .inr rfl⟩)
          exact ⟨_, .map htd h1' h2 h3 h4 h5⟩
        by_cases h2 : td.ts.type ∈ JavaTransparent
        · have hb : td.ts.type ∈ BaseTypes := (by decide : ∀ n ∈ JavaTransparent, n ∈ BaseTypes) _ h2
          obtain ⟨t, ht⟩ := javaNamed_not_user hw inst h1 h1' (fun td' h' he => hw.user_base h' (he ▸ hb)) false
          exact ⟨t, .transparent htd h2 ht⟩
        · exact ⟨_, .own htd h2 h1 h1'⟩
    exact this _ td htd (Nat.lt_succ_self _)

end
end Sadl
