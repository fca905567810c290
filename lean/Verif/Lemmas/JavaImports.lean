import Verif.Spec.JavaImports
import Verif.Lemmas.JavaExport
/-
The imports of generated Java classes.
-/
namespace Sadl
open Sadl.Spec

/-- The notes contain what a type and annotations need. -/
structure Covers (s : Schema) (t : JTy) (annos : List JAnno) (ns : List JNote) : Prop where
  type : ∀ p, TypeNeeds s t p → .pack p ∈ ns
  anno : ∀ a ∈ annos, .pack (AnnoClass a) ∈ ns ∨ AnnoClass a ∈ JavaNeverImported
  util : (∃ a ∈ annos, a = .serialize ∨ a = .deserialize) → .util ∈ ns
  stamp : TypeHas "Timestamp" t → .timestamp ∈ ns

/-- All imports of the notes are known. -/
def NotesKnown (ns : List JNote) : Prop := ∀ p, .pack p ∈ ns → p ∈ JavaImportable

theorem Covers.mono {s t annos ns ns'} (h : Covers s t annos ns) (hs : ∀ x ∈ ns, x ∈ ns') : Covers s t annos ns' :=
  ⟨fun p hp => hs _ (h.type p hp), fun a ha => (h.anno a ha).imp (hs _) id, fun hu => hs _ (h.util hu), fun ht => hs _ (h.stamp ht)⟩

theorem NotesKnown.append {a b} (ha : NotesKnown a) (hb : NotesKnown b) : NotesKnown (a ++ b) := fun p hp =>
  (List.mem_append.1 hp).elim (ha p) (hb p)

theorem notesKnown_of {ns : List JNote} (h : ns.all (fun n => match n with | .pack p => decide (p ∈ JavaImportable) | _ => true) = true) :
    NotesKnown ns := fun p hp => by simpa using List.all_eq_true.1 h _ hp

theorem notesKnown_flatMap {α : Type} {l : List α} {f : α → List JNote} (h : ∀ x ∈ l, NotesKnown (f x)) : NotesKnown (l.flatMap f) := by
  intro p hp
  obtain ⟨x, hx, hp⟩ := List.mem_flatMap.1 hp
  exact h x hx p hp

section
variable {s : Schema} {m : Model} (hm : newModel s = .ok m) (conf : JavaConf)

/-- What is to be shown of a Java type. -/
def TypeFine (s : Schema) (r : JType) : Prop := Covers s r.type r.annos r.notes ∧ NotesKnown r.notes

/-- The name is not one of Java's classes, unless it is defined. -/
def NameFine (m : Model) (n : String) : Prop := n ∈ ["BigDecimal", "Instant"] → ∃ td, m.findType n = some td

/-- A built-in or own type. -/
theorem fine_leaf {n : String} {annos : List JAnno} {notes : List JNote} {anon : Option TypeSpec}
    (h : ∀ p, (n, p) ∈ JavaElsewhere → ¬ HasOwnClass s n → .pack p ∈ notes) (ht : n = "Timestamp" → .timestamp ∈ notes)
    (ha : ∀ a ∈ annos, .pack (AnnoClass a) ∈ notes ∨ AnnoClass a ∈ JavaNeverImported)
    (hu : (∃ a ∈ annos, a = .serialize ∨ a = .deserialize) → .util ∈ notes) (hk : NotesKnown notes) :
    TypeFine s { type := .name n, annos := annos, anon := anon, notes := notes } := by
  refine ⟨⟨fun p hp => ?_, ha, hu, fun h => ?_⟩, hk⟩
  · cases hp with
    | named h1 h2 => exact h p h1 h2
  · cases h with
    | here => exact ht rfl

/-- `@NotNull` and its import. -/
theorem required_fine (r : Bool) : (∀ a ∈ (if r then [.notNull] else [] : List JAnno), .pack (AnnoClass a) ∈
      (if r then [.pack "javax.validation.constraints.NotNull"] else [] : List JNote)) ∧
    (∀ a ∈ (if r then [.notNull] else [] : List JAnno), a = .notNull) ∧
    NotesKnown (if r then [.pack "javax.validation.constraints.NotNull"] else [] : List JNote) := by
  cases r
  · exact ⟨by simp, by simp, notesKnown_of (by decide)⟩
  · exact ⟨by simp [AnnoClass], by simp, notesKnown_of (by decide)⟩

theorem not_elsewhere {n p : String} (h : n ∉ JavaElsewhere.map Prod.fst) (hp : (n, p) ∈ JavaElsewhere) : False :=
  h (List.mem_map.2 ⟨_, hp, rfl⟩)

theorem javaPrimitive_mem {n p : String} (h : javaPrimitive n = some p) :
    p ∈ ["boolean", "byte", "short", "int", "long", "float", "double"] := by
  unfold javaPrimitive at h
  split_ifs at h <;> cases h <;> decide

theorem fine_anno {notes extra : List JNote} {annos more : List JAnno} (h1 : ∀ a ∈ annos, .pack (AnnoClass a) ∈ notes)
    (h2 : ∀ a ∈ more, .pack (AnnoClass a) ∈ extra ∨ AnnoClass a ∈ JavaNeverImported) :
    ∀ a ∈ annos ++ more, .pack (AnnoClass a) ∈ notes ++ extra ∨ AnnoClass a ∈ JavaNeverImported := by
  intro a ha
  rcases List.mem_append.1 ha with ha | ha
  · exact .inl (List.mem_append_left _ (h1 a ha))
  · exact (h2 a ha).imp (List.mem_append_right _) id

theorem fine_util {notes : List JNote} {annos more : List JAnno} (h1 : ∀ a ∈ annos, a = .notNull)
    (h2 : ∀ a ∈ more, a ≠ .serialize ∧ a ≠ .deserialize) : (∃ a ∈ annos ++ more, a = .serialize ∨ a = .deserialize) → .util ∈ notes := by
  rintro ⟨a, ha, hs⟩
  rcases List.mem_append.1 ha with ha | ha
  · rw [h1 a ha] at hs; simp at hs
  · exact absurd hs (not_or.2 (h2 a ha))

theorem javaStringAnnos_fine (ts : Option TypeSpec) :
    (∀ a ∈ (ts.map javaStringAnnos).getD [], .pack (AnnoClass a) ∈ (ts.map javaStringNotes).getD [] ∨ AnnoClass a ∈ JavaNeverImported) ∧
    (∀ a ∈ (ts.map javaStringAnnos).getD [], a ≠ .serialize ∧ a ≠ .deserialize) ∧ NotesKnown ((ts.map javaStringNotes).getD []) := by
  cases ts with
  | none => exact ⟨by simp, by simp, notesKnown_of (by decide)⟩
  | some ts =>
    simp only [Option.map_some, Option.getD_some, javaStringAnnos, javaStringNotes]
    by_cases h1 : ts.pattern ≠ "" <;> by_cases h2 : ts.minSize.isSome = true ∨ ts.maxSize.isSome = true <;>
      simp only [h1, h2, if_true, if_false, ne_eq, not_true_eq_false, not_false_eq_true] <;>
      exact ⟨by simp [AnnoClass], by simp, notesKnown_of (by decide)⟩

theorem javaNumberAnnos_fine (ts : Option TypeSpec) :
    (∀ a ∈ (ts.map (javaNumberAnnos conf)).getD [], .pack (AnnoClass a) ∈ ([] : List JNote) ∨ AnnoClass a ∈ JavaNeverImported) ∧
    (∀ a ∈ (ts.map (javaNumberAnnos conf)).getD [], a ≠ .serialize ∧ a ≠ .deserialize) := by
  cases ts with
  | none => exact ⟨by simp, by simp⟩
  | some ts =>
    simp only [Option.map_some, Option.getD_some, javaNumberAnnos]
    constructor <;> intro a ha <;> simp only [List.mem_append, List.mem_map, Option.mem_toList] at ha <;>
      rcases ha with ⟨d, _, rfl⟩ | ⟨d, _, rfl⟩ <;> simp [AnnoClass, JavaNeverImported]

theorem javaDecimalAnnos_fine (ts : Option TypeSpec) (extra : List JNote) :
    (∀ a ∈ (ts.map (javaDecimalAnnos conf)).getD [], .pack (AnnoClass a) ∈ extra ∨ AnnoClass a ∈ JavaNeverImported) ∧
    (∀ a ∈ (ts.map (javaDecimalAnnos conf)).getD [], a ≠ .serialize ∧ a ≠ .deserialize) := by
  cases ts with
  | none => exact ⟨by simp, by simp⟩
  | some ts =>
    simp only [Option.map_some, Option.getD_some, javaDecimalAnnos]
    constructor <;> intro a ha <;> simp only [List.mem_append, List.mem_map, Option.mem_toList] at ha <;>
      rcases ha with ⟨d, _, rfl⟩ | ⟨d, _, rfl⟩ <;> simp [AnnoClass, JavaNeverImported]

include hm in
theorem javaTypeStep_fine {rec : Option TypeSpec → String → Bool → Out JType}
    (hrec : ∀ ts n r t, NameFine m n → rec ts n r = .ok t → TypeFine s t) {ts : Option TypeSpec} {name0 : String} {req : Bool} {t : JType}
    (hn : NameFine m name0) (h : javaTypeStep m conf rec ts name0 req = .ok t) : TypeFine s t := by
  obtain ⟨ra, rb, rk⟩ := required_fine req
  have ru : ∀ {ns : List JNote}, (∃ a ∈ (if req then [.notNull] else [] : List JAnno), a = .serialize ∨ a = .deserialize) → .util ∈ ns := by
    rintro ns ⟨a, ha, hs⟩
    rw [rb a ha] at hs; simp at hs
  unfold javaTypeStep at h
  by_cases hp : req = true ∧ (javaPrimitive name0).isSome = true
  · rw [if_pos hp] at h
    cases h
    obtain ⟨p, hp⟩ := Option.isSome_iff_exists.1 hp.2
    rw [hp, Option.getD_some]
    have hb := (by decide : ∀ p ∈ ["boolean", "byte", "short", "int", "long", "float", "double"], p ∉ JavaElsewhere.map Prod.fst ∧ p ≠ "Timestamp") p
      (javaPrimitive_mem hp)
    exact fine_leaf (fun q hq => (not_elsewhere hb.1 hq).elim) (fun h => absurd h hb.2) (by simp) (by simp) (by intro p hp; cases hp)
  rw [if_neg hp] at h
  extract_lets annos notes name notesL notesM at h
  have hname : NameFine m name := by
    cases hp : javaPrimitive name0 with
    | none =>
      have : name = name0 := by simp only [name, hp]
      rw [this]; exact hn
    | some p =>
      have h1 : name = if p = "int" then "Integer" else capitalize p := by simp only [name, hp]
      have h2 := (by decide +kernel : ∀ p ∈ ["boolean", "byte", "short", "int", "long", "float", "double"],
        (if p = "int" then "Integer" else capitalize p) ∉ ["BigDecimal", "Instant"]) p (javaPrimitive_mem hp)
      rw [← h1] at h2
      exact fun h => absurd h h2
  clear_value name
  by_cases h1 : name = "String"
  · rw [if_pos h1] at h
    cases h
    obtain ⟨a1, a2, a3⟩ := javaStringAnnos_fine ts
    exact fine_leaf (fun q hq => (not_elsewhere (by decide) hq).elim) (fun h => absurd h (by decide)) (fine_anno ra a1) (fine_util rb a2) (rk.append a3)
  rw [if_neg h1] at h
  by_cases h2 : name ∈ ["Byte", "Short", "Integer", "Long", "Float", "Double"]
  · rw [if_pos h2] at h
    cases h
    obtain ⟨a1, a2⟩ := javaNumberAnnos_fine conf ts
    have hb := (by decide : ∀ p ∈ ["Byte", "Short", "Integer", "Long", "Float", "Double"], p ∉ JavaElsewhere.map Prod.fst ∧ p ≠ "Timestamp") _ h2
    have := fine_anno ra a1
    rw [List.append_nil] at this
    exact fine_leaf (fun q hq => (not_elsewhere hb.1 hq).elim) (fun h => absurd h hb.2) this (fine_util rb a2) rk
  rw [if_neg h2] at h
  by_cases h3 : name = "Decimal"
  · rw [if_pos h3] at h
    cases h
    obtain ⟨a1, a2⟩ := javaDecimalAnnos_fine conf ts [.pack "java.math.BigDecimal"]
    refine fine_leaf (fun q hq _ => ?_) (fun h => absurd h (by decide)) (fine_anno ra a1) (fine_util rb a2) (rk.append (notesKnown_of (by decide)))
    have := (by decide : ∀ x ∈ JavaElsewhere, x.1 = "BigDecimal" → x.2 = "java.math.BigDecimal") _ hq rfl
    simp only at this
    simp [this]
  rw [if_neg h3] at h
  by_cases h4 : name = "Timestamp"
  · rw [if_pos h4] at h
    by_cases hi : conf.instants = true
    · rw [if_pos hi] at h
      cases h
      refine fine_leaf (fun q hq _ => ?_) (fun h => absurd h (by decide)) (fine_anno ra (by decide)) (fun _ => List.mem_append_right _ (by decide))
        (rk.append (notesKnown_of (by decide)))
      have := (by decide : ∀ x ∈ JavaElsewhere, x.1 = "Instant" → x.2 = "java.time.Instant") _ hq rfl
      simp only at this
      simp [this, javaInstantNotes]
    · rw [if_neg hi] at h
      cases h
      exact fine_leaf (fun q hq => (not_elsewhere (by decide) hq).elim) (fun h => by simp) (fun a ha => .inl (List.mem_append_left _ (ra a ha))) ru
        (rk.append (notesKnown_of (by decide)))
  rw [if_neg h4] at h
  by_cases h5 : name = "Array"
  · rw [if_pos h5] at h
    have hk' : NotesKnown notesL := rk.append (notesKnown_of (by decide))
    cases ts with
    | none =>
      cases h
      exact fine_leaf (fun q hq => (not_elsewhere (by decide) hq).elim) (fun h => absurd h (by decide)) (fun a ha => .inl (List.mem_append_left _ (ra a ha))) ru hk'
    | some ts =>
      dsimp only at h
      cases hf : m.findType ts.items with
      | none => rw [hf] at h; cases h
      | some td =>
        rw [hf] at h
        obtain ⟨i, h6, h7⟩ := gbind_ok.1 h
        cases h7
        obtain ⟨c, k⟩ := hrec _ _ _ _ (fun _ => ⟨td, hf⟩) h6
        refine ⟨⟨fun p hp => ?_, fun a ha => .inl (List.mem_append_left _ (List.mem_append_left _ (ra a ha))), ru, fun ht => ?_⟩, hk'.append k⟩
        · cases hp with
          | list => simp [notesL]
          | item hp => exact List.mem_append_right _ (c.type _ hp)
        · cases ht with
          | item ht => exact List.mem_append_right _ (c.stamp ht)
  rw [if_neg h5] at h
  by_cases h6 : name = "Map"
  · rw [if_pos h6] at h
    have hk' : NotesKnown notesM := rk.append (notesKnown_of (by decide))
    cases ts with
    | none =>
      cases h
      exact fine_leaf (fun q hq => (not_elsewhere (by decide) hq).elim) (fun h => absurd h (by decide)) (fun a ha => .inl (List.mem_append_left _ (ra a ha))) ru hk'
    | some ts =>
      dsimp only at h
      cases hf : m.findType ts.keys with
      | none => rw [hf] at h; cases h
      | some ktd =>
        rw [hf] at h
        obtain ⟨k, h7, h⟩ := gbind_ok.1 h
        cases hf' : m.findType ts.items with
        | none => rw [hf'] at h; cases h
        | some itd =>
          rw [hf'] at h
          obtain ⟨i, h8, h⟩ := gbind_ok.1 h
          cases h
          obtain ⟨c1, k1⟩ := hrec _ _ _ _ (fun _ => ⟨ktd, hf⟩) h7
          obtain ⟨c2, k2⟩ := hrec _ _ _ _ (fun _ => ⟨itd, hf'⟩) h8
          refine ⟨⟨fun p hp => ?_, fun a ha => .inl (List.mem_append_left _ (List.mem_append_left _ (List.mem_append_left _ (ra a ha)))), ru, fun ht => ?_⟩,
            (hk'.append k1).append k2⟩
          · cases hp with
            | map => simp [notesM]
            | key hp => exact List.mem_append_left _ (List.mem_append_right _ (c1.type _ hp))
            | value hp => exact List.mem_append_right _ (c2.type _ hp)
          · cases ht with
            | key ht => exact List.mem_append_left _ (List.mem_append_right _ (c1.stamp ht))
            | value ht => exact List.mem_append_right _ (c2.stamp ht)
  rw [if_neg h6] at h
  have huuid : ∀ {anon : Option TypeSpec}, TypeFine s { type := .name "UUID", annos := annos, anon := anon, notes := notes ++ [.pack "java.util.UUID"] } := by
    intro anon
    refine fine_leaf (fun q hq _ => ?_) (fun h => absurd h (by decide)) (fun a ha => .inl (List.mem_append_left _ (ra a ha))) ru (rk.append (notesKnown_of (by decide)))
    have := (by decide : ∀ x ∈ JavaElsewhere, x.1 = "UUID" → x.2 = "java.util.UUID") _ hq rfl
    simp only at this
    simp [this]
  by_cases h7 : name = "UUID"
  · rw [if_pos h7] at h
    cases h
    exact huuid
  rw [if_neg h7] at h
  by_cases h8 : name = "Any"
  · rw [if_pos h8] at h
    cases h
    exact fine_leaf (fun q hq => (not_elsewhere (by decide) hq).elim) (fun h => absurd h (by decide)) (fun a ha => .inl (ra a ha)) ru rk
  rw [if_neg h8] at h
  have hels : ∀ p, (name, p) ∈ JavaElsewhere → name ∈ ["BigDecimal", "Instant"] := by
    intro p hp
    have := (by decide : ∀ x ∈ JavaElsewhere, x.1 ≠ "UUID" → x.1 ∈ ["BigDecimal", "Instant"]) _ hp
    exact this h7
  cases hf : m.findType name with
  | none =>
    rw [hf] at h
    cases h
    refine fine_leaf (fun q hq _ => ?_) (fun h => absurd h h4) (fun a ha => .inl (ra a ha)) ru rk
    obtain ⟨td, htd⟩ := hname (hels q hq)
    rw [hf] at htd; cases htd
  | some td =>
    rw [hf] at h
    dsimp only at h
    have hnoted : ∀ {x : JType}, TypeFine s x → TypeFine s (x.noted notes) := fun hx =>
      ⟨hx.1.mono fun y hy => List.mem_append_right _ hy, rk.append hx.2⟩
    by_cases h9 : td.ts.type ∈ ["Int8", "Int16", "Int32", "Int64", "Float32", "Float64", "Boolean", "String"]
    · rw [if_pos h9] at h
      obtain ⟨x, h10, h⟩ := gbind_ok.1 h
      cases h
      refine hnoted (hrec _ _ _ _ (fun h => ?_) h10)
      exact absurd h ((by decide : ∀ n ∈ ["Int8", "Int16", "Int32", "Int64", "Float32", "Float64", "Boolean", "String"], n ∉ ["BigDecimal", "Instant"]) _ h9)
    rw [if_neg h9] at h
    by_cases h10 : td.ts.type = "Array" ∨ td.ts.type = "Map"
    · rw [if_pos h10] at h
      obtain ⟨x, h11, h⟩ := gbind_ok.1 h
      cases h
      refine hnoted (hrec _ _ _ _ (fun h => ?_) h11)
      rcases h10 with h10 | h10 <;> rw [h10] at h <;> exact absurd h (by decide)
    rw [if_neg h10] at h
    have hown : td.ts.type ≠ "UUID" → td.ts.type ≠ "Decimal" → td.ts.type ≠ "Timestamp" → ∀ {anon : Option TypeSpec},
        TypeFine s { type := .name name, annos := annos, anon := anon, notes := notes } := by
      intro g1 g2 g3 anon
      refine fine_leaf (fun q hq ho => absurd ?_ ho) (fun h => absurd h h4) (fun a ha => .inl (ra a ha)) ru rk
      have hb : name ∉ BaseTypes := (by decide : ∀ n ∈ ["BigDecimal", "Instant"], n ∉ BaseTypes) _ (hels q hq)
      rcases (newModel_findType_iff hm name td).1 hf with ⟨i1, i2⟩ | ⟨i1, _⟩
      · refine ⟨td, i1, i2, ?_, fun h => h10 (.inl h), fun h => h10 (.inr h)⟩
        simp only [JavaTransparent, List.mem_cons, List.not_mem_nil, or_false] at h9 ⊢
        tauto
      · exact absurd i1 hb
    by_cases h11 : td.ts.type = "Struct" ∧ name = "Struct"
    · rw [if_pos h11] at h
      cases h
      exact hown (by rw [h11.1]; decide) (by rw [h11.1]; decide) (by rw [h11.1]; decide)
    rw [if_neg h11] at h
    by_cases h12 : td.ts.type = "UUID"
    · rw [if_pos h12] at h
      cases h
      exact huuid
    rw [if_neg h12] at h
    by_cases h13 : td.ts.type = "Decimal"
    · rw [if_pos h13] at h
      cases h
      obtain ⟨a1, a2⟩ := javaDecimalAnnos_fine conf (some td.ts) [.pack "java.math.BigDecimal"]
      simp only [Option.map_some, Option.getD_some] at a1 a2
      refine fine_leaf (fun q hq _ => ?_) (fun h => absurd h (by decide)) (fine_anno ra a1) (fine_util rb a2) (rk.append (notesKnown_of (by decide)))
      have := (by decide : ∀ x ∈ JavaElsewhere, x.1 = "BigDecimal" → x.2 = "java.math.BigDecimal") _ hq rfl
      simp only at this
      simp [this]
    rw [if_neg h13] at h
    by_cases h14 : td.ts.type = "Timestamp"
    · rw [if_pos h14] at h
      by_cases hi : conf.instants = true
      · rw [if_pos hi] at h
        cases h
        refine fine_leaf (fun q hq _ => ?_) (fun h => absurd h (by decide)) (fine_anno ra (by decide)) (fun _ => List.mem_append_right _ (by decide))
          (rk.append (notesKnown_of (by decide)))
        have := (by decide : ∀ x ∈ JavaElsewhere, x.1 = "Instant" → x.2 = "java.time.Instant") _ hq rfl
        simp only at this
        simp [this, javaInstantNotes]
      · rw [if_neg hi] at h
        cases h
        exact fine_leaf (fun q hq => (not_elsewhere (by decide) hq).elim) (fun h => by simp) (fun a ha => .inl (List.mem_append_left _ (ra a ha))) ru
          (rk.append (notesKnown_of (by decide)))
    rw [if_neg h14] at h
    cases h
    exact hown h12 h13 h14

include hm in
theorem javaType_fine {ts : Option TypeSpec} {n : String} {req : Bool} {t : JType} (hn : NameFine m n)
    (h : javaType m conf ts n req = .ok t) : TypeFine s t := by
  have : ∀ k ts n r t, NameFine m n → javaTypeN m conf k ts n r = .ok t → TypeFine s t := by
    intro k
    induction k with
    | zero => intro ts n r t _ h; cases h
    | succ k ih => intro ts n r t hn h; exact javaTypeStep_fine hm conf ih hn h
  exact this _ _ _ _ _ hn h

/-- The notes contain what a member needs. -/
structure MemberFine (s : Schema) (conf : JavaConf) (f : JField) (ns : List JNote) : Prop where
  covers : Covers s f.used f.annos ns
  known : NotesKnown ns
  stamp : f.stamp = true → conf.instants = true → .util ∈ ns

include hm in
theorem nameFine_of {ts : TypeSpec} {n : String} (h : NoStray s ts) (hn : MentionsType n ts) : NameFine m n := fun hb => by
  obtain ⟨ts', hd⟩ := h n hb hn
  cases hf : m.findType n with
  | some td => exact ⟨td, rfl⟩
  | none => exact absurd ⟨ts', hd⟩ ((goFind_none_iff hm n).1 hf)

/-- A timestamp is noted. -/
theorem javaType_stamp {ts : Option TypeSpec} {req : Bool} {t : JType} (hi : conf.instants = true)
    (h : javaType m conf ts "Timestamp" req = .ok t) : .util ∈ t.notes := by
  unfold javaType at h
  rw [javaTypeN, javaTypeStep, if_neg (by simp [javaPrimitive])] at h
  extract_lets annos notes name notesL notesM at h
  have hn : name = "Timestamp" := rfl
  rw [hn] at h
  iterate 3 rw [if_neg (by decide)] at h
  rw [if_pos rfl, if_pos hi] at h
  cases h
  exact List.mem_append_right _ (by decide)

include hm in
theorem javaMember_fine {cls : String} {f : StructFieldDef} {x : JMember} (hs : NoStray s f.ts) (h : javaMember m conf cls f = .ok x) :
    MemberFine s conf x.field x.notes ∧ x.field.required = f.required := by
  unfold javaMember at h
  by_cases hp : f.name = "package"
  · rw [if_pos hp] at h; cases h
  rw [if_neg hp] at h
  obtain ⟨t, h1, h⟩ := gbind_ok.1 h
  obtain ⟨c, k⟩ := javaType_fine hm conf (nameFine_of hm hs (.here rfl)) h1
  have hst : f.ts.type = "Timestamp" → conf.instants = true → .util ∈ t.notes := fun hf hi => javaType_stamp conf hi (hf ▸ h1)
  dsimp only at h
  split_ifs at h with ha
  · obtain ⟨tn, h2, h⟩ := gbind_ok.1 h
    split_ifs at h
    cases h
    exact ⟨⟨c, k, fun h => hst (by simpa using h)⟩, rfl⟩
  · cases h
    exact ⟨⟨c, k, fun h => hst (by simpa using h)⟩, rfl⟩

include hm in
theorem javaMembers_fine {cls : String} {fields : List StructFieldDef} {xs : List JMember} (hs : ∀ f ∈ fields, NoStray s f.ts)
    (h : javaMembers m conf cls fields = .ok xs) :
    List.Forall₂ (fun f x => MemberFine s conf x.field x.notes ∧ x.field.required = f.required) fields xs := by
  induction fields generalizing xs with
  | nil => cases h; exact .nil
  | cons f fields ih =>
    obtain ⟨x, h1, h2⟩ := gbind_ok.1 h
    obtain ⟨ys, h3, h4⟩ := gbind_ok.1 h2
    cases h4
    exact .cons (javaMember_fine hm conf (hs f (by simp)) h1) (ih (fun g hg => hs g (List.mem_cons_of_mem _ hg)) h3)

theorem mem_javaNested {ms : List JMember} {inner : List (Out (JavaClass × List JNote))} {o : Out (JavaClass × List JNote)}
    (h : o ∈ javaNested conf ms inner) : o ∈ inner := by
  unfold javaNested at h
  extract_lets idx at h
  obtain ⟨k, _, hk⟩ := List.mem_filterMap.1 h
  have : idx = indexOf [] (((ms.zip inner).filter (·.1.anon)).map fun x => (capitalize x.1.field.name, x.2)) := by
    simp only [idx, indexOf, List.foldl_map]
  rw [this, mget_indexOf] at hk
  rcases hk with ⟨l1, l2, hl, _⟩ | ⟨hk, _⟩
  · have : (k, o) ∈ ((ms.zip inner).filter (·.1.anon)).map fun x => (capitalize x.1.field.name, x.2) := by rw [hl]; simp
    obtain ⟨x, hx, he⟩ := List.mem_map.1 this
    cases he
    exact (List.of_mem_zip (List.mem_filter.1 hx).1).2
  · cases hk

/-- What is to be shown of a class. -/
structure ClassFine (s : Schema) (conf : JavaConf) (top : Bool) (c : JavaClass) (ns : List JNote) : Prop where
  needs : ∀ p, ClassNeeds s conf top c p → .pack p ∈ ns ∨ p ∈ JavaNeverImported
  util : ClassUtil conf c → .util ∈ ns
  stamps : ClassStamps c → .timestamp ∈ ns
  known : NotesKnown ns

theorem MemberFine.needs {f : JField} {ns : List JNote} (h : MemberFine s conf f ns) {p : String} (hp : MemberNeeds s f p) :
    .pack p ∈ ns ∨ p ∈ JavaNeverImported := by
  cases hp with
  | type hp => exact .inl (h.covers.type _ hp)
  | anno ha => exact h.covers.anno _ ha

theorem javaClassNotes_known (fields : List StructFieldDef) (a b c : Bool) : NotesKnown (javaClassNotes conf fields a b c) := by
  unfold javaClassNotes
  refine ((NotesKnown.append ?_ ?_).append ?_).append ?_
  · split <;> exact notesKnown_of (by decide)
  · split <;> exact notesKnown_of (by decide)
  · split <;> exact notesKnown_of (by decide)
  · split
    · refine (NotesKnown.append (notesKnown_of (by decide)) ?_).append (notesKnown_of (by decide))
      split <;> exact notesKnown_of (by decide)
    · exact notesKnown_of (by decide)

theorem noStray_field {ts : TypeSpec} (h : NoStray s ts) {f : StructFieldDef} (hf : f ∈ ts.fields) : NoStray s f.ts :=
  fun n hn hmn => h n hn (.field hf hmn)

include hm in
theorem javaClassOf_fine (n : Nat) : ∀ (exceptions : List String) (top : Bool) (cls : String) (fields : List StructFieldDef)
    (c : JavaClass × List JNote), sizeOf fields ≤ n → (∀ f ∈ fields, NoStray s f.ts) →
    javaClassOf m conf exceptions top cls fields (javaInners m conf fields) = .ok c → ClassFine s conf top c.1 c.2 := by
  induction n with
  | zero => intro _ _ _ fields _ h; cases fields <;> simp at h
  | succ n ih =>
    intro exceptions top cls fields c hn hs h
    unfold javaClassOf at h
    extract_lets thr lom at h
    obtain ⟨ms, h1, h2⟩ := gbind_ok.1 h
    have hmem := javaMembers_fine hm conf hs h1
    dsimp only at h2
    -- what does not depend on the classes inside
    have key : ∀ (nested : List JavaClass) (more : List JNote), NotesKnown more →
        (∀ d ∈ nested, (∀ p, ClassNeeds s conf false d p → .pack p ∈ more ∨ p ∈ JavaNeverImported) ∧ (ClassUtil conf d → .util ∈ more) ∧
          (ClassStamps d → .timestamp ∈ more)) → (lom = false → conf.pretty = true → .util ∈ more) →
        ClassFine s conf top (.mk cls (ms.map (·.field)) thr lom nested) (javaClassNotes conf fields thr lom top ++ ms.flatMap (·.notes) ++ more) := by
      intro nested more hk hnest hpretty
      have hin : ∀ f ∈ ms.map (·.field), ∃ ns, MemberFine s conf f ns ∧ (∀ x ∈ ns, x ∈ javaClassNotes conf fields thr lom top ++ ms.flatMap (·.notes) ++ more) ∧
          (f.required = false → fields.any (fun f => !f.required) = true) := by
        intro f hf
        obtain ⟨x, hx, rfl⟩ := List.mem_map.1 hf
        obtain ⟨g, hg, h3, h4⟩ := forall₂_mem_right hmem hx
        refine ⟨x.notes, h3, fun y hy => List.mem_append_left _ (List.mem_append_right _ (List.mem_flatMap.2 ⟨x, hx, hy⟩)), fun hr => ?_⟩
        exact List.any_eq_true.2 ⟨g, hg, by rw [← h4, hr]; rfl⟩
      have hlen : ms.map (·.field) ≠ [] → fields ≠ [] := by
        intro h he
        subst he
        cases hmem
        exact h rfl
      have hnotes : ∀ x ∈ javaClassNotes conf fields thr lom top, x ∈ javaClassNotes conf fields thr lom top ++ ms.flatMap (·.notes) ++ more := fun x hx =>
        List.mem_append_left _ (List.mem_append_left _ hx)
      refine ⟨fun p hp => ?_, fun hu => ?_, fun ht => ?_, ?_⟩
      · cases hp with
        | member hf hp =>
          obtain ⟨ns, a1, a2, _⟩ := hin _ hf
          exact (a1.needs conf hp).imp (a2 _) id
        | optional hf hr =>
          obtain ⟨ns, _, _, a3⟩ := hin _ hf
          refine .inl (hnotes _ ?_)
          unfold javaClassNotes
          rw [if_pos (a3 hr)]
          simp
        | deserialize hi => exact .inl (hnotes _ (by unfold javaClassNotes; rw [if_pos hi]; simp))
        | builder hi _ => exact .inl (hnotes _ (by unfold javaClassNotes; rw [if_pos hi]; simp))
        | ignored ht =>
          have ht : thr = true := ht
          exact .inl (hnotes _ (by unfold javaClassNotes; rw [if_pos ht]; simp))
        | lombok hl hp =>
          have hl : lom = true := hl
          refine .inl (hnotes _ ?_)
          unfold javaClassNotes
          rw [if_pos (c := true = true ∧ lom = true) (And.intro rfl hl)]
          simp only [List.mem_cons, List.not_mem_nil, or_false] at hp
          rcases hp with rfl | rfl | rfl <;> simp
        | allArgs hl hf =>
          have hl : lom = true := hl
          refine .inl (hnotes _ ?_)
          unfold javaClassNotes
          rw [if_pos (c := true = true ∧ lom = true) (And.intro rfl hl), if_pos (hlen hf)]
          simp
        | nested hd hp => exact ((hnest _ hd).1 p hp).imp (List.mem_append_right _) id
      · cases hu with
        | anno hf ha hs =>
          obtain ⟨ns, a1, a2, _⟩ := hin _ hf
          exact a2 _ (a1.covers.util ⟨_, ha, hs⟩)
        | stamp _ _ hi hf hs =>
          obtain ⟨ns, a1, a2, _⟩ := hin _ hf
          exact a2 _ (a1.stamp hs hi)
        | pretty hp hl => exact List.mem_append_right _ (hpretty hl hp)
        | nested hd hu => exact List.mem_append_right _ ((hnest _ hd).2.1 hu)
      · cases ht with
        | member hf ht =>
          obtain ⟨ns, a1, a2, _⟩ := hin _ hf
          exact a2 _ (a1.covers.stamp ht)
        | nested hd ht => exact List.mem_append_right _ ((hnest _ hd).2.2 ht)
      · refine (NotesKnown.append (javaClassNotes_known conf fields thr lom top) ?_).append hk
        refine notesKnown_flatMap fun x hx => ?_
        obtain ⟨g, hg, h3, _⟩ := forall₂_mem_right hmem hx
        exact h3.known
    by_cases hl : lom = true
    · rw [if_pos hl] at h2
      cases h2
      have := key [] [] (notesKnown_of rfl) (by simp) (fun h => by rw [hl] at h; cases h)
      rwa [List.append_nil] at this
    · rw [if_neg hl] at h2
      by_cases hi : conf.immutable ∧ fields.any (·.name = "") = true
      · rw [if_pos hi] at h2; cases h2
      rw [if_neg hi] at h2
      obtain ⟨ns, h4, h5⟩ := gbind_ok.1 h2
      cases h5
      rw [javaInners_eq, javaAll_ok] at h4
      have hfine : ∀ d ∈ ns, ClassFine s conf false d.1 d.2 := by
        intro d hd
        obtain ⟨o, ho, rfl⟩ := forall₂_mem_right h4 hd
        obtain ⟨f, hf, he⟩ := List.mem_map.1 (mem_javaNested conf ho)
        rw [javaInner_eq] at he
        exact ih [] false _ _ d (by have := member_size hf; omega) (fun g hg => noStray_field (hs f hf) hg) he
      rw [List.append_assoc]
      refine key (ns.map Prod.fst) _ (NotesKnown.append (by split <;> exact notesKnown_of (by decide)) (notesKnown_flatMap fun d hd => (hfine d hd).known)) ?_ ?_
      · intro d hd
        obtain ⟨d, hd', rfl⟩ := List.mem_map.1 hd
        have hf := hfine d hd'
        have hin : ∀ x ∈ d.2, x ∈ (if conf.pretty = true then [JNote.util] else []) ++ ns.flatMap Prod.snd := fun x hx =>
          List.mem_append_right _ (List.mem_flatMap.2 ⟨d, hd', hx⟩)
        exact ⟨fun p hp => (hf.needs p hp).imp (hin _) id, fun h => hin _ (hf.util h), fun h => hin _ (hf.stamps h)⟩
      · intro _ hp
        rw [if_pos hp]; simp

/-- What is to be shown of a file. -/
structure BodyFine (s : Schema) (conf : JavaConf) (b : JavaBody) (ns : List JNote) : Prop where
  needs : ∀ p, BodyNeeds s conf b p → .pack p ∈ ns ∨ p ∈ JavaNeverImported ∨ (p = "com.fasterxml.jackson.annotation.JsonCreator" ∧ ∃ n u, b = .unit n u)
  util : BodyUtil conf b → .util ∈ ns
  stamps : BodyStamps b → .timestamp ∈ ns
  known : NotesKnown ns

include hm in
theorem javaVariants_fine {cls : String} {vs : List UnionVariantDef} {xs : List JMember} (hs : ∀ v ∈ vs, NoStray s v.ts)
    (h : javaVariants m conf cls vs = .ok xs) : ∀ x ∈ xs, MemberFine s conf x.field x.notes := by
  induction vs generalizing xs with
  | nil => cases h; simp
  | cons v vs ih =>
    obtain ⟨x, h1, h2⟩ := gbind_ok.1 h
    obtain ⟨ys, h3, h4⟩ := gbind_ok.1 h2
    cases h4
    refine List.forall_mem_cons.2 ⟨?_, ih (fun g hg => hs g (List.mem_cons_of_mem _ hg)) h3⟩
    unfold javaVariant at h1
    obtain ⟨t, h5, h1⟩ := gbind_ok.1 h1
    obtain ⟨c, k⟩ := javaType_fine hm conf (nameFine_of hm (hs v (by simp)) (.here rfl)) h5
    have hst : v.ts.type = "Timestamp" → conf.instants = true → .util ∈ t.notes := fun hf hi => javaType_stamp conf hi (hf ▸ h5)
    dsimp only at h1
    split_ifs at h1 with ha
    · obtain ⟨tn, h6, h1⟩ := gbind_ok.1 h1
      split_ifs at h1
      cases h1
      exact ⟨c, k, fun h => hst (by simpa using h)⟩
    · cases h1
      exact ⟨c, k, fun h => hst (by simpa using h)⟩

include hm in
theorem javaBody_fine {exceptions : List String} {cls : String} {ts : TypeSpec} {b : JavaBody} {ns : List JNote} (hs : NoStray s ts)
    (h : javaBody m conf exceptions cls ts = some (.ok (b, ns))) : BodyFine s conf b ns := by
  unfold javaBody at h
  split_ifs at h with h1 h2 h3 h4
  · obtain ⟨c, h2, h3⟩ := gbind_ok.1 (Option.some.inj h)
    cases h3
    have hf := javaClassOf_fine hm conf _ exceptions true cls _ c (Nat.le_refl _) (fun f hf => noStray_field hs hf) h2
    refine ⟨fun p hp => ?_, fun hu => ?_, fun ht => ?_, hf.known⟩
    · cases hp with
      | struct hp => exact (hf.needs p hp).imp id .inl
    · cases hu with
      | struct hu => exact hf.util hu
    · cases ht with
      | struct ht => exact hf.stamps ht
  · obtain ⟨v, h3, h4⟩ := gbind_ok.1 (Option.some.inj h)
    obtain ⟨u, h5, h6⟩ := gbind_ok.1 h4
    obtain ⟨c1, k1⟩ := javaType_fine hm conf (nameFine_of hm hs (.value rfl)) h3
    obtain ⟨c2, k2⟩ := javaType_fine hm conf (nameFine_of hm hs (.unit rfl)) h5
    cases hf : m.findType u.type.text with
    | none => rw [hf] at h6; cases h6
    | some ut =>
      rw [hf] at h6
      cases h6
      refine ⟨fun p hp => ?_, fun hu => ?_, fun ht => ?_, (NotesKnown.append (notesKnown_of (by decide)) k1).append k2⟩
      · cases hp with
        | unit hp =>
          simp only [List.mem_cons, List.not_mem_nil, or_false] at hp
          rcases hp with rfl | rfl | rfl
          · exact .inl (by simp)
          · exact .inl (by simp)
          · exact .inr (.inr ⟨rfl, _, _, rfl⟩)
        | unitValue hp => exact .inl (List.mem_append_left _ (List.mem_append_right _ (c1.type _ hp)))
        | unitUnit hp => exact .inl (List.mem_append_right _ (c2.type _ hp))
      · cases hu
      · cases ht with
        | unitValue ht => exact List.mem_append_left _ (List.mem_append_right _ (c1.stamp ht))
        | unitUnit ht => exact List.mem_append_right _ (c2.stamp ht)
  · cases h
    refine ⟨fun p hp => ?_, fun hu => (by cases hu), fun ht => (by cases ht), notesKnown_of (by decide)⟩
    cases hp with
    | enum hp =>
      simp only [List.mem_cons, List.not_mem_nil, or_false] at hp
      rcases hp with rfl | rfl <;> exact .inl (by simp)
  · obtain ⟨ms, h5, h6⟩ := gbind_ok.1 (Option.some.inj h)
    have hmem := javaVariants_fine hm conf (fun v hv n hn hmn => hs n hn (.variant hv hmn)) h5
    by_cases ha : ts.variants.any (·.name = "") = true
    · rw [if_pos ha] at h6; cases h6
    rw [if_neg ha] at h6
    obtain ⟨ds, h7, h8⟩ := gbind_ok.1 h6
    cases h8
    rw [javaAll_ok] at h7
    have hfine : ∀ d ∈ ds, ClassFine s conf false d.1 d.2 := by
      intro d hd
      obtain ⟨o, ho, rfl⟩ := forall₂_mem_right h7 hd
      obtain ⟨v, hv, he⟩ := List.mem_map.1 (mem_javaNested conf ho)
      rw [javaInner_eq] at he
      exact javaClassOf_fine hm conf _ [] false _ _ d (Nat.le_refl _) (fun g hg n hn hmn => hs n hn (.variant hv (.field hg hmn))) he
    have hnested : ∀ d ∈ ds.map Prod.fst, ∃ ns, ClassFine s conf false d ns ∧ ∀ x ∈ ns, x ∈ ds.flatMap Prod.snd := by
      intro d hd
      obtain ⟨d, hd', rfl⟩ := List.mem_map.1 hd
      exact ⟨d.2, hfine d hd', fun x hx => List.mem_flatMap.2 ⟨d, hd', hx⟩⟩
    have hvar : ∀ v ∈ ms.map (·.field), ∃ ns, MemberFine s conf v ns ∧ ∀ x ∈ ns, x ∈ ms.flatMap (·.notes) := by
      intro v hv
      obtain ⟨x, hx, rfl⟩ := List.mem_map.1 hv
      exact ⟨x.notes, hmem x hx, fun y hy => List.mem_flatMap.2 ⟨x, hx, hy⟩⟩
    have i1 : ∀ x ∈ javaUnionNotes conf, x ∈ javaUnionNotes conf ++ ms.flatMap (·.notes) ++ (if conf.pretty then [.util] else []) ++ ds.flatMap Prod.snd :=
      fun x hx => by simp [hx]
    have i2 : ∀ x ∈ ms.flatMap (·.notes), x ∈ javaUnionNotes conf ++ ms.flatMap (·.notes) ++ (if conf.pretty then [.util] else []) ++ ds.flatMap Prod.snd :=
      fun x hx => List.mem_append_left _ (List.mem_append_left _ (List.mem_append_right _ hx))
    have i3 : ∀ x ∈ ds.flatMap Prod.snd, x ∈ javaUnionNotes conf ++ ms.flatMap (·.notes) ++ (if conf.pretty then [.util] else []) ++ ds.flatMap Prod.snd :=
      fun x hx => List.mem_append_right _ hx
    refine ⟨fun p hp => ?_, fun hu => ?_, fun ht => ?_, ?_⟩
    · cases hp with
      | union hp =>
        simp only [List.mem_cons, List.not_mem_nil, or_false] at hp
        rcases hp with rfl | rfl <;> exact .inl (i1 _ (by simp [javaUnionNotes]))
      | variants _ hp =>
        simp only [List.mem_cons, List.not_mem_nil, or_false] at hp
        rcases hp with rfl | rfl <;> exact .inl (i1 _ (by simp [javaUnionNotes]))
      | variant hv hp =>
        obtain ⟨_, a1, a2⟩ := hvar _ hv
        exact (a1.needs conf hp).imp (fun h => i2 _ (a2 _ h)) .inl
      | lombok hl hp =>
        simp only [List.mem_cons, List.not_mem_nil, or_false] at hp
        rcases hp with rfl | rfl | rfl | rfl <;> exact .inl (i1 _ (by simp [javaUnionNotes, hl]))
      | nested hd hp =>
        obtain ⟨_, a1, a2⟩ := hnested _ hd
        exact (a1.needs p hp).imp (fun h => i3 _ (a2 _ h)) .inl
    · cases hu with
      | variant hv ha hs =>
        obtain ⟨_, a1, a2⟩ := hvar _ hv
        exact i2 _ (a2 _ (a1.covers.util ⟨_, ha, hs⟩))
      | pretty hp =>
        rw [if_pos hp]
        exact List.mem_append_left _ (List.mem_append_right _ (List.mem_singleton.2 rfl))
      | nested hd hu =>
        obtain ⟨_, a1, a2⟩ := hnested _ hd
        exact i3 _ (a2 _ (a1.util hu))
    · cases ht with
      | variant hv ht =>
        obtain ⟨_, a1, a2⟩ := hvar _ hv
        exact i2 _ (a2 _ (a1.covers.stamp ht))
      | nested hd ht =>
        obtain ⟨_, a1, a2⟩ := hnested _ hd
        exact i3 _ (a2 _ (a1.stamps ht))
    · refine ((NotesKnown.append ?_ (notesKnown_flatMap fun x hx => (hmem x hx).known)).append ?_).append (notesKnown_flatMap fun d hd => (hfine d hd).known)
      · unfold javaUnionNotes
        refine NotesKnown.append (notesKnown_of (by decide)) ?_
        split <;> exact notesKnown_of (by decide)
      · split <;> exact notesKnown_of (by decide)

/-! ### The files -/

/-- The files are written one after the other; the notes are kept and grow from `notes` to `final`. -/
inductive Chain (s : Schema) (conf : JavaConf) : List JNote → List JavaFile → List JNote → Prop
  | nil {notes} : Chain s conf notes [] notes
  | note {notes ns fs final} : NotesKnown ns → Chain s conf (notes ++ ns) fs final → Chain s conf notes fs final
  | pojo {notes ns fs final n c b} : BodyFine s conf b ns → Chain s conf (notes ++ ns) fs final →
      Chain s conf notes ({ name := n, pkg := conf.modelPackage, content := .pojo (javaImports (notes ++ ns)) c b } :: fs) final
  | other {notes f fs final} : (∀ i c b, f.content ≠ .pojo i c b) → Chain s conf notes fs final → Chain s conf notes (f :: fs) final

theorem Chain.append {a b c : List JNote} {fs gs : List JavaFile} (h : Chain s conf a fs b) (h' : Chain s conf b gs c) : Chain s conf a (fs ++ gs) c := by
  induction h with
  | nil => exact h'
  | note k _ ih => exact .note k (ih h')
  | pojo k _ ih => exact .pojo k (ih h')
  | other k _ ih => exact .other k (ih h')

theorem Chain.mono {a b : List JNote} {fs : List JavaFile} (h : Chain s conf a fs b) : ∀ x ∈ a, x ∈ b := by
  induction h with
  | nil => exact fun x h => h
  | note k _ ih => exact fun x h => ih x (List.mem_append_left _ h)
  | pojo k _ ih => exact fun x h => ih x (List.mem_append_left _ h)
  | other k _ ih => exact ih

/-- What is known of a file with a class. -/
theorem Chain.pojos {a z : List JNote} {fs : List JavaFile} (h : Chain s conf a fs z) (ha : NotesKnown a) {f : JavaFile} (hf : f ∈ fs)
    {i : List String} {c : String} {b : JavaBody} (hc : f.content = .pojo i c b) :
    f.pkg = conf.modelPackage ∧ ∃ notes ns, i = javaImports notes ∧ NotesKnown notes ∧ BodyFine s conf b ns ∧ (∀ x ∈ ns, x ∈ notes) ∧
      ∀ x ∈ notes, x ∈ z := by
  induction h with
  | nil => cases hf
  | note k _ ih => exact ih (ha.append k) hf
  | pojo k h ih =>
    rcases List.mem_cons.1 hf with rfl | hf
    · cases hc
      exact ⟨rfl, _, _, rfl, ha.append k.known, k, fun x hx => List.mem_append_right _ hx, h.mono conf⟩
    · exact ih (ha.append k.known) hf
  | other k _ ih =>
    rcases List.mem_cons.1 hf with rfl | hf
    · exact absurd hc (k _ _ _)
    · exact ih ha hf

/-- The imports of all later files contain those of the notes. -/
theorem Chain.above {a z : List JNote} {fs : List JavaFile} (h : Chain s conf a fs z) {f : JavaFile} (hf : f ∈ fs)
    {i : List String} {c : String} {b : JavaBody} (hc : f.content = .pojo i c b) : ∃ notes, i = javaImports notes ∧ ∀ x ∈ a, x ∈ notes := by
  induction h with
  | nil => cases hf
  | note k _ ih =>
    obtain ⟨n, h1, h2⟩ := ih hf
    exact ⟨n, h1, fun x hx => h2 x (List.mem_append_left _ hx)⟩
  | pojo k h ih =>
    rcases List.mem_cons.1 hf with rfl | hf
    · cases hc
      exact ⟨_, rfl, fun x hx => List.mem_append_left _ hx⟩
    · obtain ⟨n, h1, h2⟩ := ih hf
      exact ⟨n, h1, fun x hx => h2 x (List.mem_append_left _ hx)⟩
  | other k _ ih =>
    rcases List.mem_cons.1 hf with rfl | hf
    · exact absurd hc (k _ _ _)
    · exact ih hf

theorem mem_insertString {x p : String} {l : List String} : x ∈ insertString p l ↔ x = p ∨ x ∈ l := by
  induction l with
  | nil => simp [insertString]
  | cons t ts ih =>
    unfold insertString
    split
    · simp
    · rw [List.mem_cons, ih, List.mem_cons]
      tauto

theorem insertString_sorted {p : String} {l : List String} (h : l.Pairwise (· < ·)) (hp : p ∉ l) : (insertString p l).Pairwise (· < ·) := by
  induction l with
  | nil => simp [insertString]
  | cons t ts ih =>
    obtain ⟨h1, h2⟩ := List.pairwise_cons.1 h
    unfold insertString
    split
    · next hlt =>
      refine List.pairwise_cons.2 ⟨fun x hx => ?_, h⟩
      rcases List.mem_cons.1 hx with rfl | hx
      · exact hlt
      · exact String.lt_trans hlt (h1 x hx)
    · next hlt =>
      have hne : p ≠ t := fun he => hp (by simp [he])
      have htp : t < p := by
        by_contra h
        exact hne (String.le_antisymm (String.not_lt.1 h) (String.not_lt.1 hlt))
      refine List.pairwise_cons.2 ⟨fun x hx => ?_, ih h2 (fun hc => hp (List.mem_cons_of_mem _ hc))⟩
      rcases mem_insertString.1 hx with rfl | hx
      · exact htp
      · exact h1 x hx

theorem javaImports_aux (notes : List JNote) (acc : List String) (h : acc.Pairwise (· < ·)) :
    (∀ p, p ∈ notes.foldl (fun acc n => match n with | .pack p => if p ∈ acc then acc else insertString p acc | _ => acc) acc ↔ p ∈ acc ∨ .pack p ∈ notes) ∧
    (notes.foldl (fun acc n => match n with | .pack p => if p ∈ acc then acc else insertString p acc | _ => acc) acc).Pairwise (· < ·) := by
  induction notes generalizing acc with
  | nil => exact ⟨fun p => by simp, h⟩
  | cons n notes ih =>
    rw [List.foldl_cons]
    cases n with
    | pack q =>
      dsimp only
      by_cases hq : q ∈ acc
      · rw [if_pos hq]
        obtain ⟨h1, h2⟩ := ih acc h
        refine ⟨fun p => ?_, h2⟩
        rw [h1 p, List.mem_cons, JNote.pack.injEq]
        constructor
        · rintro (h | h)
          · exact .inl h
          · exact .inr (.inr h)
        · rintro (h | rfl | h)
          · exact .inl h
          · exact .inl hq
          · exact .inr h
      · rw [if_neg hq]
        obtain ⟨h1, h2⟩ := ih _ (insertString_sorted h hq)
        refine ⟨fun p => ?_, h2⟩
        rw [h1 p, List.mem_cons, JNote.pack.injEq, mem_insertString]
        tauto
    | _ =>
      obtain ⟨h1, h2⟩ := ih acc h
      refine ⟨fun p => ?_, h2⟩
      rw [List.mem_cons]
      simpa using h1 p

theorem mem_javaImports {notes : List JNote} {p : String} : p ∈ javaImports notes ↔ .pack p ∈ notes := by
  refine ((javaImports_aux notes [] .nil).1 p).trans ⟨fun h => h.elim (fun h => by cases h) id, .inr⟩

theorem javaImports_sorted (notes : List JNote) : (javaImports notes).Pairwise (· < ·) := (javaImports_aux notes [] .nil).2

theorem chain_note {a ns : List JNote} (k : NotesKnown ns) : Chain s conf a [] (a ++ ns) := .note k .nil

include hm in
theorem javaPojo_chain {exceptions : List String} {ts : TypeSpec} (hs : NoStray s ts) (cls comment : String) (notes : List JNote) :
    Chain s conf notes (stepFiles (javaPojo m conf exceptions ts cls comment notes).1) (javaPojo m conf exceptions ts cls comment notes).2 := by
  unfold javaPojo
  cases h : javaBody m conf exceptions cls ts with
  | none => exact .nil
  | some o =>
    cases o with
    | ok b =>
      obtain ⟨b, ns⟩ := b
      exact .pojo (javaBody_fine hm conf hs h) .nil
    | err e => exact .nil
    | panic e => exact .nil

include hm in
theorem javaTypePojos_chain {exceptions : List String} {tds : List TypeDef} (hs : ∀ td ∈ tds, NoStray s td.ts) (notes : List JNote) :
    Chain s conf notes (stepFiles (javaTypePojos m conf exceptions tds notes).1) (javaTypePojos m conf exceptions tds notes).2 := by
  induction tds generalizing notes with
  | nil => exact .nil
  | cons td tds ih =>
    simp only [javaTypePojos]
    rw [List.cons_append, stepFiles_check, stepFiles_append]
    exact (javaPojo_chain hm conf (hs td (by simp)) ..).append conf (ih (fun x hx => hs x (List.mem_cons_of_mem _ hx)) _)

theorem noStray_structOf {fs : List StructFieldDef} (h : ∀ f ∈ fs, NoStray s f.ts) : NoStray s (structOf fs) := by
  intro n hn hmn
  cases hmn with
  | here h => rw [← h] at hn; exact absurd hn (by simp [structOf])
  | value h => rw [← h] at hn; exact absurd hn (by simp [structOf])
  | unit h => rw [← h] at hn; exact absurd hn (by simp [structOf])
  | field hf hmn => exact h _ hf n hn hmn
  | variant hv _ => exact absurd hv (by simp [structOf])

include hm in
theorem javaEntity_known {h : HttpDef} {e : String × JTy × List JNote} (hs : ∀ x, h.expected = some x → ∀ p ∈ x.outputs, NoStray s p.field.ts)
    (he : javaEntity m conf h = .ok e) : NotesKnown e.2.2 := by
  unfold javaEntity at he
  cases hx : h.expected with
  | none => rw [hx] at he; cases he
  | some x =>
    rw [hx] at he
    dsimp only at he
    cases hp : x.outputs.find? fun p => p.header = "" with
    | none => rw [hp] at he; cases he; exact notesKnown_of rfl
    | some p =>
      rw [hp] at he
      obtain ⟨t, h1, h2⟩ := gbind_ok.1 he
      cases h2
      exact (javaType_fine hm conf (nameFine_of hm (hs x hx p (List.mem_of_find?_eq_some hp)) (.here rfl)) h1).2

include hm in
theorem javaActionPojos_chain {hs : List HttpDef} (hin : ∀ h ∈ hs, ∀ p ∈ h.inputs, NoStray s p.field.ts)
    (hout : ∀ h ∈ hs, ∀ x, h.expected = some x → ∀ p ∈ x.outputs, NoStray s p.field.ts) (notes : List JNote) :
    Chain s conf notes (stepFiles (javaActionPojos m conf hs notes).1) (javaActionPojos m conf hs notes).2 := by
  induction hs generalizing notes with
  | nil => exact .nil
  | cons h hs ih =>
    simp only [javaActionPojos]
    rw [List.append_assoc, stepFiles_append, stepFiles_append, stepFiles_check]
    have i1 := hin h (by simp)
    have o1 := hout h (by simp)
    have ih := ih (fun x hx => hin x (List.mem_cons_of_mem _ hx)) (fun x hx => hout x (List.mem_cons_of_mem _ hx))
    have req : Chain s conf notes (stepFiles (match (javaActionName h).bind javaRequestType with
        | .ok n => javaPojo m conf [] (structOf (h.inputs.map HttpParamSpec.field)) n "" notes
        | .err e => ([.file (.err e)], notes)
        | .panic e => ([.file (.panic e)], notes)).1) (match (javaActionName h).bind javaRequestType with
        | .ok n => javaPojo m conf [] (structOf (h.inputs.map HttpParamSpec.field)) n "" notes
        | .err e => ([.file (.err e)], notes)
        | .panic e => ([.file (.panic e)], notes)).2 := by
      split
      · refine javaPojo_chain hm conf (noStray_structOf fun f hf => ?_) ..
        obtain ⟨p, hp, rfl⟩ := List.mem_map.1 hf
        exact i1 p hp
      · exact .nil
      · exact .nil
    refine req.append conf ?_
    generalize (match (javaActionName h).bind javaRequestType with
        | .ok n => javaPojo m conf [] (structOf (h.inputs.map HttpParamSpec.field)) n "" notes
        | .err e => ([.file (.err e)], notes)
        | .panic e => ([.file (.panic e)], notes)).2 = notes2
    refine Chain.append conf (b := (match (javaActionName h).bind javaResponseType, h.expected with
      | .ok n, some e => javaPojo m conf [] (structOf (e.outputs.map HttpParamSpec.field)) n "" notes2
      | .ok _, none => ([.file (.panic nilDeref)], notes2)
      | .err e, _ => ([.file (.err e)], notes2)
      | .panic e, _ => ([.file (.panic e)], notes2)).2) ?_ ?_
    · cases (javaActionName h).bind javaResponseType with
      | ok n =>
        cases he : h.expected with
        | some e =>
          refine javaPojo_chain hm conf (noStray_structOf fun f hf => ?_) ..
          obtain ⟨p, hp, rfl⟩ := List.mem_map.1 hf
          exact o1 e he p hp
        | none => exact .nil
      | err e => exact .nil
      | panic e => exact .nil
    · generalize (match (javaActionName h).bind javaResponseType, h.expected with
        | .ok n, some e => javaPojo m conf [] (structOf (e.outputs.map HttpParamSpec.field)) n "" notes2
        | .ok _, none => ([.file (.panic nilDeref)], notes2)
        | .err e, _ => ([.file (.err e)], notes2)
        | .panic e, _ => ([.file (.panic e)], notes2)).2 = notes3
      cases he : javaEntity m conf h with
      | ok e =>
        obtain ⟨x, t, ns⟩ := e
        dsimp only
        refine .note (javaEntity_known hm conf o1 he) (.note ?_ (ih _))
        split <;> exact notesKnown_of (by decide)
      | err e => exact ih _
      | panic e => exact ih _

include hm in
theorem javaInterface_chain (hs : NoStrays s) (notes : List JNote) :
    Chain s conf notes (stepFiles (javaInterface m conf notes).1) (javaInterface m conf notes).2 := by
  unfold javaInterface
  by_cases hn : conf.name = ""
  · rw [if_pos hn]; exact .nil
  rw [if_neg hn]
  dsimp only
  have hms : m.schema = s := ((newModel_ok_iff s m).1 hm).2.2.2 ▸ rfl
  have hc := javaActionPojos_chain hm conf (hs := m.schema.http) (by rw [hms]; exact hs.inputs) (by rw [hms]; exact hs.outputs) notes
  cases hr : recovered (javaMethods m.schema.http) with
  | ok ms => exact .other (fun _ _ _ h => by cases h) hc
  | err e => exact hc
  | panic e => exact hc

include hm in
theorem javaExceptions_known {xs : List HttpExceptionSpec} (hs : ∀ x ∈ xs, x.type ∈ ["BigDecimal", "Instant"] → Known s x.type)
    {r : List String × List JNote} (h : javaExceptions m conf xs = .ok r) : NotesKnown r.2 := by
  induction xs generalizing r with
  | nil => cases h; exact notesKnown_of rfl
  | cons x xs ih =>
    obtain ⟨t, h1, h2⟩ := gbind_ok.1 h
    obtain ⟨y, h3, h4⟩ := gbind_ok.1 h2
    cases h4
    refine NotesKnown.append (javaType_fine hm conf (fun hb => ?_) h1).2 (ih (fun z hz => hs z (List.mem_cons_of_mem _ hz)) h3)
    obtain ⟨ts', hd⟩ := hs x (by simp) hb
    cases hf : m.findType x.type with
    | some td => exact ⟨td, rfl⟩
    | none => exact absurd ⟨ts', hd⟩ ((goFind_none_iff hm x.type).1 hf)

/-- The files of the model. -/
theorem javaModel_chain (hm : newModel s = .ok m) (hs : NoStrays s) : (stepFiles (javaModel m conf).1.flatten = [] ∧ (javaModel m conf).2 = []) ∨
    ∃ notes fs, NotesKnown notes ∧ Chain s conf notes fs (javaModel m conf).2 ∧
      stepFiles (javaModel m conf).1.flatten = fs ++ stepFiles (javaSupport conf (javaModel m conf).2) := by
  have hms : m.schema = s := ((newModel_ok_iff s m).1 hm).2.2.2 ▸ rfl
  unfold javaModel
  cases hx : (if conf.serviceException then .ok ([], []) else javaExceptions m conf (m.schema.http.flatMap (·.exceptions))) with
  | err e => exact .inl ⟨rfl, rfl⟩
  | panic e => exact .inl ⟨rfl, rfl⟩
  | ok x =>
    obtain ⟨exceptions, ns⟩ := x
    refine .inr ⟨ns, stepFiles (javaTypePojos m conf exceptions m.schema.types ns).1 ++
      stepFiles (javaInterface m conf (javaTypePojos m conf exceptions m.schema.types ns).2).1, ?_, ?_, ?_⟩
    · by_cases hc : conf.serviceException
      · rw [if_pos hc] at hx; cases hx; exact notesKnown_of rfl
      · rw [if_neg hc] at hx
        refine javaExceptions_known hm conf (fun x hx => ?_) hx
        rw [hms] at hx
        obtain ⟨a, ha, hx⟩ := List.mem_flatMap.1 hx
        exact hs.exceptions a ha x hx
    · exact (javaTypePojos_chain hm conf (by rw [hms]; exact hs.types) ns).append conf (javaInterface_chain hm conf hs _)
    · simp only [List.flatten_cons, List.flatten_nil, List.append_nil, stepFiles_append, List.append_assoc]

/-- The second file, if it has a class, imports all that the first one imports. -/
def Keeps (f g : JavaFile) : Prop := ∀ i k x i' k' x', f.content = .pojo i k x → g.content = .pojo i' k' x' → ∀ p ∈ i, p ∈ i'

theorem Chain.keeps {a z : List JNote} {fs : List JavaFile} (h : Chain s conf a fs z) : fs.Pairwise Keeps := by
  induction h with
  | nil => exact .nil
  | note k _ ih => exact ih
  | pojo k h ih =>
    refine List.pairwise_cons.2 ⟨fun g hg i k x i' k' x' h1 h2 p hp => ?_, ih⟩
    cases h1
    obtain ⟨n, rfl, h4⟩ := h.above conf hg h2
    exact mem_javaImports.2 (h4 _ (mem_javaImports.1 hp))
  | other k _ ih => exact List.pairwise_cons.2 ⟨fun g hg i k' x i' k'' x' h1 => absurd h1 (k _ _ _), ih⟩

end
end Sadl
