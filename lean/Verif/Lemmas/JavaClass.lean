import Verif.Lemmas.JavaType
import Verif.Lemmas.OpenApiExamples
import Verif.Lemmas.JsonValue
/-
The members of generated classes.
-/
namespace Sadl
open Sadl.Spec

theorem javaNumberAnnos_eq (conf : JavaConf) (ts : TypeSpec) : javaNumberAnnos conf ts = JavaBounds conf.decText ts := by
  unfold javaNumberAnnos JavaBounds
  cases ts.min <;> cases ts.max <;> rfl

theorem javaDecimalAnnos_eq (conf : JavaConf) (ts : TypeSpec) : javaDecimalAnnos conf ts = JavaDecimalBounds conf.decText ts := by
  unfold javaDecimalAnnos JavaDecimalBounds
  cases ts.min <;> cases ts.max <;> rfl

theorem javaStringAnnos_eq (ts : TypeSpec) : javaStringAnnos ts = JavaStringChecks ts := by
  unfold javaStringAnnos JavaStringChecks
  congr 1
  · by_cases h : ts.pattern = "" <;> simp [h]
  · cases ts.minSize <;> cases ts.maxSize <;> simp

section
variable {s : Schema} {m : Model} (hw : JavaWf s m) (conf : JavaConf)
include hw

/-- The annotations of a number, a string, or another built-in type that is not a container. -/
theorem javaTypeN_annos_base {k : Nat} {ts : TypeSpec} {r : Bool} {t : JType} (hb : ts.type ∈ BaseTypes) (ha : ts.type ≠ "Array")
    (hp : ts.type ≠ "Map") (h : javaTypeN m conf (k + 1) (some ts) ts.type r = .ok t) :
    JavaAnnos s conf.instants conf.decText ts r t.annos ∧ (t.anon = if ts.type = "Struct" then some ts else none) := by
  rcases java_base_cases conf.instants hb ha hp with ⟨p, b, hx⟩ | ⟨c, hx⟩
  · rw [javaTypeN_primitive hw conf hx] at h
    cases h
    have hns : ts.type ≠ "Struct" := by generalize ts.type = n at hx; cases hx <;> decide
    refine ⟨?_, (if_neg hns).symm⟩
    cases r
    · by_cases hbool : ts.type = "Bool"
      · simp only [Bool.false_eq_true, if_false, hbool, if_true]; exact .bool hbool
      · simp only [Bool.false_eq_true, if_false, hbool, Option.map_some, Option.getD_some]
        rw [javaNumberAnnos_eq]; exact .number hx hbool
    · exact .primitive hx
  · obtain ⟨jt, h1, _, h2, h3⟩ := javaTypeN_builtin hw conf hx k (some ts) r
    rw [h1] at h; cases h
    refine ⟨?_, h3⟩
    rw [h2]
    change JavaAnnos _ _ _ _ _ (JavaRequired r ++ _)
    generalize hn : ts.type = n' at hx ⊢
    cases hx with
    | string => rw [if_pos rfl]; simp only [Option.map_some, Option.getD_some]; rw [javaStringAnnos_eq]; exact .string hn
    | decimal =>
      rw [if_neg (by decide), if_pos rfl]; simp only [Option.map_some, Option.getD_some]
      rw [javaDecimalAnnos_eq]; exact .decimal hn
    | uuid => simp only [if_neg (by decide : ¬ "UUID" = "String"), if_neg (by decide : ¬ "UUID" = "Decimal"), if_neg (by simp : ¬ ("UUID" = "Timestamp" ∧ conf.instants = true)), List.append_nil]; exact .plain (by rw [hn]; decide)
    | any => simp only [if_neg (by decide : ¬ "Any" = "String"), if_neg (by decide : ¬ "Any" = "Decimal"), if_neg (by simp : ¬ ("Any" = "Timestamp" ∧ conf.instants = true)), List.append_nil]; exact .plain (by rw [hn]; decide)
    | instant hi => rw [if_neg (by decide), if_neg (by decide), if_pos ⟨rfl, hi⟩]; exact .instant hn hi
    | timestamp hi =>
      rw [if_neg (by decide), if_neg (by decide), if_neg (by simp [hi]), List.append_nil]; exact .timestamp hn hi
    | other ho =>
      have h4 := (by decide : ∀ n ∈ ["Bytes", "Struct", "Enum", "Union", "UnitValue"], n ≠ "String" ∧ n ≠ "Decimal" ∧ n ≠ "Timestamp" ∧
        n ∈ ["UUID", "Any", "Bytes", "Struct", "Enum", "Union", "UnitValue", "Array", "Map"]) _ ho
      rw [if_neg h4.1, if_neg h4.2.1, if_neg (fun h => h4.2.2.1 h.1), List.append_nil]
      exact .plain (by rw [hn]; exact h4.2.2.2)

/-- The annotations of a member. -/
theorem javaType_annos {ts : TypeSpec} {r : Bool} {t : JType} (h : javaType m conf (some ts) ts.type r = .ok t) :
    JavaAnnos s conf.instants conf.decText ts r t.annos ∧ (t.anon = if ts.type = "Struct" then some ts else none) := by
  unfold javaType at h
  by_cases hk : Known s ts.type
  swap
  · obtain ⟨jt, h1, _, h2, h3⟩ := javaTypeN_unknown hw conf hk _ (some ts) r
    rw [h1] at h; cases h
    have hns : ¬ ts.type = "Struct" := fun he => hk (he ▸ known_base (by decide))
    refine ⟨?_, by rw [if_neg hns]; exact h2⟩
    rw [h3]
    by_cases hx : ts.type ∈ JavaBoxes ∧ ts.type ≠ "Boolean"
    · rw [if_pos hx]; simp only [Option.map_some, Option.getD_some]
      rw [javaNumberAnnos_eq]; exact .unknownBox hk hx.1 hx.2
    · rw [if_neg hx, List.append_nil]
      by_cases hbx : ts.type ∈ JavaBoxes
      · exact .unknownBool hk (Classical.not_not.1 fun h => hx ⟨hbx, h⟩)
      · exact .unknown hk hbx
  rcases java_known_cases hk with ⟨td, htd, hn⟩ | hb
  · have hns : ¬ ts.type = "Struct" := by rw [← hn]; exact (hw.user_plain htd).2.2
    rw [if_neg hns]
    rw [← hn, javaTypeN_user hw conf htd] at h
    by_cases h1 : td.ts.type ∈ ["Int8", "Int16", "Int32", "Int64", "Float32", "Float64", "Boolean", "String"]
    · rw [if_pos h1] at h
      obtain ⟨a, h2, h3⟩ := gbind_ok.1 h
      cases h3
      have hb : td.ts.type ≠ "Boolean" := by
        intro hc
        rcases hw.kinds td htd with h | h <;> rw [hc] at h <;> revert h <;> decide
      have h1' : td.ts.type ∈ ["Int8", "Int16", "Int32", "Int64", "Float32", "Float64", "String"] := by
        simp only [List.mem_cons, List.not_mem_nil, or_false] at h1 ⊢; tauto
      have h4 := (by decide : ∀ n ∈ ["Int8", "Int16", "Int32", "Int64", "Float32", "Float64", "String"], n ∈ BaseTypes ∧ n ≠ "Array" ∧
        n ≠ "Map" ∧ n ∈ JavaTransparent ∧ n ≠ "Timestamp" ∧ n ≠ "Struct") _ h1'
      obtain ⟨h5, h6⟩ := javaTypeN_annos_base hw conf h4.1 h4.2.1 h4.2.2.1 h2
      refine ⟨.transparent htd hn h4.2.2.2.1 h4.2.2.2.2.1 h5, ?_⟩
      rw [if_neg h4.2.2.2.2.2] at h6
      exact h6
    rw [if_neg h1] at h
    by_cases h2 : td.ts.type = "Array" ∨ td.ts.type = "Map"
    · rw [if_pos h2] at h
      obtain ⟨a, h3, h4⟩ := gbind_ok.1 h
      cases h4
      have : a.annos = [] ∧ a.anon = none := by
        rcases h2 with h2 | h2
        · rw [h2, javaTypeN_array] at h3
          cases hf : m.findType td.ts.items with
          | none => rw [hf] at h3; cases h3
          | some itd =>
            rw [hf] at h3
            obtain ⟨b, h5, h6⟩ := gbind_ok.1 h3
            cases h6
            exact ⟨rfl, rfl⟩
        · rw [h2, javaTypeN_map] at h3
          cases hf : m.findType td.ts.keys with
          | none => rw [hf] at h3; cases h3
          | some ktd =>
            rw [hf] at h3
            obtain ⟨b, h5, h6⟩ := gbind_ok.1 h3
            cases hf' : m.findType td.ts.items with
            | none => rw [hf'] at h6; cases h6
            | some itd =>
              rw [hf'] at h6
              obtain ⟨c, h9, h10⟩ := gbind_ok.1 h6
              cases h10
              exact ⟨rfl, rfl⟩
      refine ⟨?_, this.2⟩
      change JavaAnnos _ _ _ _ _ a.annos
      rw [this.1]; exact .container htd hn h2
    rw [if_neg h2] at h
    by_cases h3 : td.ts.type = "UUID"
    · rw [if_pos h3] at h; cases h
      exact ⟨.transparent htd hn (by rw [h3]; decide) (by rw [h3]; decide) (.plain (by rw [h3]; decide)), rfl⟩
    rw [if_neg h3] at h
    by_cases h4 : td.ts.type = "Decimal"
    · rw [if_pos h4] at h; cases h
      refine ⟨.transparent htd hn (by rw [h4]; decide) (by rw [h4]; decide) ?_, rfl⟩
      rw [javaDecimalAnnos_eq]; exact .decimal h4
    rw [if_neg h4] at h
    by_cases h5 : td.ts.type = "Timestamp"
    · rw [if_pos h5] at h
      by_cases hi : conf.instants = true
      · rw [if_pos hi] at h; cases h
        exact ⟨.namedInstant htd hn h5 hi, rfl⟩
      · rw [if_neg hi] at h; cases h
        exact ⟨.namedTimestamp htd hn h5 (by simpa using hi), rfl⟩
    rw [if_neg h5] at h
    cases h
    refine ⟨.own htd hn ?_ (fun h => h2 (.inl h)) (fun h => h2 (.inr h)), rfl⟩
    simp only [JavaTransparent, List.mem_cons, List.not_mem_nil, or_false] at h1 ⊢; tauto
  · by_cases ha : ts.type = "Array"
    · rw [ha, javaTypeN_array] at h
      cases hf : m.findType ts.items with
      | none => rw [hf] at h; cases h
      | some itd =>
        rw [hf] at h
        obtain ⟨b, h5, h6⟩ := gbind_ok.1 h
        cases h6
        exact ⟨.plain (by rw [ha]; decide), by rw [ha]; rfl⟩
    by_cases hp : ts.type = "Map"
    · rw [hp, javaTypeN_map] at h
      cases hf : m.findType ts.keys with
      | none => rw [hf] at h; cases h
      | some ktd =>
        rw [hf] at h
        obtain ⟨b, h5, h6⟩ := gbind_ok.1 h
        cases hf' : m.findType ts.items with
        | none => rw [hf'] at h6; cases h6
        | some itd =>
          rw [hf'] at h6
          obtain ⟨c, h9, h10⟩ := gbind_ok.1 h6
          cases h10
          exact ⟨.plain (by rw [hp]; decide), by rw [hp]; rfl⟩
    exact javaTypeN_annos_base hw conf hb ha hp h

/-- A member can be written exactly when its field is ready. -/
theorem javaMember_ok (cls : String) (f : StructFieldDef) {x : JMember} (h : javaMember m conf cls f = .ok x) :
    JavaFieldReady s conf.instants cls f ∧ JavaMemberOf s conf.instants conf.decText f x.field ∧
      x.anon = decide (f.ts.type = "Struct") := by
  unfold javaMember at h
  by_cases hp : f.name = "package"
  · rw [if_pos hp] at h; cases h
  rw [if_neg hp] at h
  obtain ⟨t, h1, h2⟩ := gbind_ok.1 h
  obtain ⟨h3, h4⟩ := javaType_annos hw conf h1
  have h5 := (javaType_use hw conf f.ts f.required t.type).1 ⟨t, h1, rfl⟩
  dsimp only at h2
  by_cases hs : f.ts.type = "Struct"
  · rw [h4, if_pos hs, if_pos (by rfl)] at h2
    obtain ⟨tn, h6, h7⟩ := gbind_ok.1 h2
    unfold javaCapitalize at h6
    by_cases he : f.name = ""
    · rw [if_pos he] at h6; cases h6
    rw [if_neg he] at h6
    cases h6
    by_cases hc : capitalize f.name = cls
    · rw [if_pos hc] at h7; cases h7
    rw [if_neg hc] at h7
    cases h7
    exact ⟨⟨hp, ⟨_, h5⟩, fun _ => ⟨he, hc⟩⟩, ⟨rfl, rfl, rfl, h3, h5, (if_pos hs).symm, rfl⟩, (decide_eq_true hs).symm⟩
  · rw [h4, if_neg hs, if_neg (by simp)] at h2
    cases h2
    exact ⟨⟨hp, ⟨_, h5⟩, fun h => absurd h hs⟩, ⟨rfl, rfl, rfl, h3, h5, (if_neg hs).symm, rfl⟩, (decide_eq_false hs).symm⟩

theorem javaMember_ready (cls : String) (f : StructFieldDef) (h : JavaFieldReady s conf.instants cls f) :
    ∃ x, javaMember m conf cls f = .ok x := by
  obtain ⟨hp, ⟨t, ht⟩, hs⟩ := h
  obtain ⟨jt, h1, h2⟩ := (javaType_use hw conf f.ts f.required t).2 ht
  obtain ⟨_, h4⟩ := javaType_annos hw conf h1
  unfold javaMember
  rw [if_neg hp, h1]
  simp only [Out.bind]
  by_cases hst : f.ts.type = "Struct"
  · rw [h4, if_pos hst, if_pos (by rfl), javaCapitalize, if_neg (hs hst).1]
    simp only
    rw [if_neg (hs hst).2]
    exact ⟨_, rfl⟩
  · rw [h4, if_neg hst, if_neg (by simp)]
    exact ⟨_, rfl⟩

theorem javaMembers_ok (cls : String) (fields : List StructFieldDef) {xs : List JMember} (h : javaMembers m conf cls fields = .ok xs) :
    (∀ f ∈ fields, JavaFieldReady s conf.instants cls f) ∧
    List.Forall₂ (fun f x => JavaMemberOf s conf.instants conf.decText f x.field ∧ x.anon = decide (f.ts.type = "Struct")) fields xs := by
  induction fields generalizing xs with
  | nil => cases h; exact ⟨by simp, .nil⟩
  | cons f fields ih =>
    obtain ⟨x, h1, h2⟩ := gbind_ok.1 h
    obtain ⟨ys, h3, h4⟩ := gbind_ok.1 h2
    cases h4
    obtain ⟨a, b, c⟩ := javaMember_ok hw conf cls f h1
    obtain ⟨d, e⟩ := ih h3
    exact ⟨List.forall_mem_cons.2 ⟨a, d⟩, .cons ⟨b, c⟩ e⟩

theorem javaMembers_ready (cls : String) (fields : List StructFieldDef) (h : ∀ f ∈ fields, JavaFieldReady s conf.instants cls f) :
    ∃ xs, javaMembers m conf cls fields = .ok xs := by
  induction fields with
  | nil => exact ⟨_, rfl⟩
  | cons f fields ih =>
    obtain ⟨h1, h2⟩ := List.forall_mem_cons.1 h
    obtain ⟨x, h3⟩ := javaMember_ready hw conf cls f h1
    obtain ⟨xs, h4⟩ := ih h2
    unfold javaMembers
    rw [h3]
    simp only [Out.bind]
    rw [h4]
    exact ⟨_, rfl⟩

omit hw in
theorem javaInner_eq (cls : String) (ts : TypeSpec) :
    javaInner m conf cls ts = javaClassOf m conf [] false cls ts.fields (javaInners m conf ts.fields) := by
  cases ts; rfl

omit hw in
theorem javaInners_eq (fields : List StructFieldDef) :
    javaInners m conf fields = fields.map fun f => javaInner m conf (capitalize f.name) f.ts := by
  induction fields with
  | nil => rfl
  | cons f fields ih => cases f; simp [javaInners, ih]

end

/-! ### The classes inside a class -/

/-- The index that a list of keys and values makes: the last value counts. -/
def indexOf {α : Type} (acc : GoMap α) (l : List (String × α)) : GoMap α := l.foldl (fun idx x => mset idx x.1 x.2) acc

theorem mget_indexOf {α : Type} (l : List (String × α)) (acc : GoMap α) (k : String) (v : α) :
    mget (indexOf acc l) k = some v ↔
      (∃ l1 l2, l = l1 ++ (k, v) :: l2 ∧ ∀ x ∈ l2, x.1 ≠ k) ∨ (mget acc k = some v ∧ ∀ x ∈ l, x.1 ≠ k) := by
  induction l generalizing acc with
  | nil => simp [indexOf]
  | cons x l ih =>
    change mget (indexOf (mset acc x.1 x.2) l) k = some v ↔ _
    rw [ih]
    constructor
    · rintro (⟨l1, l2, rfl, h⟩ | ⟨h1, h2⟩)
      · exact .inl ⟨x :: l1, l2, rfl, h⟩
      · rw [mget_mset] at h1
        by_cases he : k = x.1
        · rw [if_pos he] at h1
          refine .inl ⟨[], l, ?_, h2⟩
          cases h1; subst he; rfl
        · rw [if_neg he] at h1
          exact .inr ⟨h1, List.forall_mem_cons.2 ⟨fun h => he h.symm, h2⟩⟩
    · rintro (⟨l1, l2, h1, h2⟩ | ⟨h1, h2⟩)
      · cases l1 with
        | nil =>
          injection h1 with h3 h4
          subst h3 h4
          exact .inr ⟨mget_mset_same _ _ _, h2⟩
        | cons y l1 =>
          injection h1 with h3 h4
          exact .inl ⟨l1, l2, h4, h2⟩
      · obtain ⟨h3, h4⟩ := List.forall_mem_cons.1 h2
        exact .inr ⟨by rw [mget_mset_other _ _ _ _ (fun h => h3 h.symm)]; exact h1, h4⟩

theorem mset_distinct {α : Type} {m : GoMap α} (hd : m.Distinct) (k : String) (v : α) : (mset m k v).Distinct := by
  induction m with
  | nil => simp [mset, GoMap.Distinct]
  | cons x m ih =>
    obtain ⟨k', v'⟩ := x
    unfold GoMap.Distinct at hd ih ⊢
    simp only [List.map_cons, List.nodup_cons] at hd
    unfold mset
    by_cases h : k' = k
    · rw [if_pos h]; simpa using hd
    · rw [if_neg h]
      simp only [List.map_cons, List.nodup_cons]
      refine ⟨fun hm => ?_, ih hd.2⟩
      have : mget (mset m k v) k' ≠ none := by rw [Ne, mget_none_iff]; simpa using hm
      rw [mget_mset_other _ _ _ _ h, Ne, mget_none_iff] at this
      exact this hd.1

theorem indexOf_distinct {α : Type} (l : List (String × α)) {acc : GoMap α} (hd : acc.Distinct) : (indexOf acc l).Distinct := by
  induction l generalizing acc with
  | nil => exact hd
  | cons x l ih => exact ih (mset_distinct hd _ _)

theorem javaAll_ok {α : Type} {l : List (Out α)} {xs : List α} : javaAll l = .ok xs ↔ List.Forall₂ (fun o x => o = .ok x) l xs := by
  induction l generalizing xs with
  | nil => exact ⟨fun h => by cases h; exact .nil, fun h => by cases h; rfl⟩
  | cons o l ih =>
    constructor
    · intro h
      unfold javaAll at h
      cases o <;> cases hl : javaAll l <;> rw [hl] at h <;> cases h
      exact .cons rfl (ih.1 hl)
    · intro h
      cases h with
      | cons h1 h2 =>
        unfold javaAll
        rw [h1, ih.2 h2]
/-- The fields that are structs with fields of their own, by the names of their classes. -/
def innerIndex (fields : List StructFieldDef) : GoMap StructFieldDef :=
  indexOf [] ((fields.filter fun f => f.ts.type = "Struct").map fun f => (capitalize f.name, f))

/-- The fields for which there are classes inside the class, in the order in which they are written. -/
def innerFields (conf : JavaConf) (fields : List StructFieldDef) : List StructFieldDef :=
  (conf.order ((innerIndex fields).map Prod.fst)).filterMap (mget (innerIndex fields))

theorem mset_map {α β : Type} (g : α → β) (m : GoMap α) (k : String) (v : α) :
    mset (m.map fun x => (x.1, g x.2)) k (g v) = (mset m k v).map fun x => (x.1, g x.2) := by
  induction m with
  | nil => rfl
  | cons x m ih =>
    obtain ⟨k', v'⟩ := x
    simp only [List.map_cons, mset]
    split <;> simp [ih]

theorem indexOf_map {α β : Type} (g : α → β) (l : List (String × α)) (acc : GoMap α) :
    indexOf (acc.map fun x => (x.1, g x.2)) (l.map fun x => (x.1, g x.2)) = (indexOf acc l).map fun x => (x.1, g x.2) := by
  induction l generalizing acc with
  | nil => rfl
  | cons x l ih =>
    simp only [List.map_cons]
    change indexOf (mset _ x.1 (g x.2)) _ = _
    rw [mset_map, ih]; rfl

theorem mget_innerIndex (fields : List StructFieldDef) (k : String) (f : StructFieldDef) :
    mget (innerIndex fields) k = some f ↔ k = capitalize f.name ∧ JavaInnerField fields f := by
  unfold innerIndex
  rw [mget_indexOf]
  simp only [mget, List.find?_nil, Option.map_none, reduceCtorEq, false_and, or_false]
  constructor
  · rintro ⟨l1, l2, h1, h2⟩
    obtain ⟨a, b, h3, rfl, h4⟩ := List.map_eq_append_iff.1 h1
    cases b with
    | nil => cases h4
    | cons g b =>
      simp only [List.map_cons] at h4
      obtain ⟨h5, h6⟩ := List.cons.inj h4
      cases h5
      subst h6
      obtain ⟨c, d, h7, h8, h9⟩ := List.filter_eq_append_iff.1 h3
      obtain ⟨e1, e2, h10, h11, h12, h13⟩ := List.filter_eq_cons_iff.1 h9
      refine ⟨rfl, c ++ e1, e2, ?_, by simpa using h12, ?_⟩
      · rw [h7, h10, List.append_assoc]
      · intro g' hg' ht
        refine h2 (capitalize g'.name, g') (List.mem_map.2 ⟨g', ?_, rfl⟩)
        rw [← h13]
        exact List.mem_filter.2 ⟨hg', by simpa using ht⟩
  · rintro ⟨rfl, before, after, rfl, ht, h⟩
    refine ⟨(before.filter fun f => f.ts.type = "Struct").map fun f => (capitalize f.name, f),
      (after.filter fun f => f.ts.type = "Struct").map fun f => (capitalize f.name, f), ?_, ?_⟩
    · simp [List.filter_append, List.filter_cons, ht]
    · intro x hx
      obtain ⟨g, hg, rfl⟩ := List.mem_map.1 hx
      obtain ⟨h1, h2⟩ := List.mem_filter.1 hg
      exact h g h1 (by simpa using h2)

theorem innerFields_spec (conf : JavaConf) (ho : ∀ l, (conf.order l).Perm l) (fields : List StructFieldDef) :
    (∀ f, f ∈ innerFields conf fields ↔ JavaInnerField fields f) ∧ ((innerFields conf fields).map fun f => capitalize f.name).Nodup := by
  have hd : (innerIndex fields).Distinct := indexOf_distinct _ (by simp [GoMap.Distinct])
  have hk : ∀ ks : List String, (∀ k ∈ ks, k ∈ (innerIndex fields).map Prod.fst) →
      (ks.filterMap (mget (innerIndex fields))).map (fun f => capitalize f.name) = ks := by
    intro ks
    induction ks with
    | nil => intro _; rfl
    | cons k ks ih =>
      intro h
      obtain ⟨h1, h2⟩ := List.forall_mem_cons.1 h
      cases hg : mget (innerIndex fields) k with
      | none => exact absurd h1 ((mget_none_iff _ _).1 hg)
      | some f =>
        rw [List.filterMap_cons_some hg, List.map_cons, ih h2, ← ((mget_innerIndex fields k f).1 hg).1]
  constructor
  · intro f
    unfold innerFields
    rw [List.mem_filterMap]
    constructor
    · rintro ⟨k, _, h⟩
      exact ((mget_innerIndex fields k f).1 h).2
    · intro h
      have h1 := (mget_innerIndex fields (capitalize f.name) f).2 ⟨rfl, h⟩
      exact ⟨_, (ho _).mem_iff.2 (List.mem_map.2 ⟨_, mget_mem h1, rfl⟩), h1⟩
  · unfold innerFields
    rw [hk _ fun k h => (ho _).mem_iff.1 h]
    exact (ho _).nodup_iff.2 hd

theorem javaNested_eq (conf : JavaConf) (fields : List StructFieldDef) (ms : List JMember)
    (g : StructFieldDef → Out (JavaClass × List JNote))
    (h : List.Forall₂ (fun f x => x.field.name = f.name ∧ x.anon = decide (f.ts.type = "Struct")) fields ms) :
    javaNested conf ms (fields.map g) = (innerFields conf fields).map g := by
  have h1 : ∀ acc : GoMap (Out (JavaClass × List JNote)), ((ms.zip (fields.map g)).filter (·.1.anon)).foldl
      (fun idx x => mset idx (capitalize x.1.field.name) x.2) acc =
      indexOf acc ((fields.filter fun f => f.ts.type = "Struct").map fun f => (capitalize f.name, g f)) := by
    induction h with
    | nil => intro acc; rfl
    | cons hx _ ih =>
      rename_i f x fs xs _
      intro acc
      rw [List.map_cons, List.zip_cons_cons, List.filter_cons, List.filter_cons]
      dsimp only
      rw [hx.2]
      by_cases ht : f.ts.type = "Struct"
      · rw [if_pos (by simp [ht]), if_pos (by simp [ht]), List.foldl_cons, List.map_cons, ih, hx.1]
        rfl
      · rw [if_neg (by simp [ht]), if_neg (by simp [ht]), ih]
  have h2 : indexOf ([] : GoMap (Out (JavaClass × List JNote))) ((fields.filter fun f => f.ts.type = "Struct").map fun f => (capitalize f.name, g f)) =
      (innerIndex fields).map fun x => (x.1, g x.2) := by
    unfold innerIndex
    have := indexOf_map g ((fields.filter fun f => f.ts.type = "Struct").map fun f => (capitalize f.name, f)) []
    rw [← this]
    simp [List.map_map, Function.comp_def]
  unfold javaNested
  simp only
  rw [h1, h2]
  unfold innerFields
  have h3 : ((innerIndex fields).map fun x => (x.1, g x.2)).map Prod.fst = (innerIndex fields).map Prod.fst := by
    simp [List.map_map, Function.comp_def]
  rw [h3, List.map_filterMap]
  congr 1
  funext k
  exact mget_map g _ k

section
variable {s : Schema} {m : Model} (hw : JavaWf s m) (conf : JavaConf) (ho : ∀ l, (conf.order l).Perm l)

omit hw ho in
theorem member_size {f : StructFieldDef} {fields : List StructFieldDef} (h : f ∈ fields) : sizeOf f.ts.fields < sizeOf fields := by
  have h1 := List.sizeOf_lt_of_mem h
  have h2 : sizeOf f.ts.fields < sizeOf f := by
    obtain ⟨_, _, _, _, _, ts⟩ := f
    cases ts
    simp [StructFieldDef.ts, TypeSpec.fields]
    omega
  omega

omit hw ho in
theorem innerField_mem {fields : List StructFieldDef} {f : StructFieldDef} (h : JavaInnerField fields f) : f ∈ fields := by
  obtain ⟨a, b, rfl, _⟩ := h
  simp

include hw ho

/-- A class that can be written is the one of the specification, and its struct is ready. -/
theorem javaClassOf_ok (n : Nat) : ∀ (exceptions : List String) (top : Bool) (cls : String) (fields : List StructFieldDef)
    (c : JavaClass × List JNote), sizeOf fields ≤ n →
    javaClassOf m conf exceptions top cls fields (javaInners m conf fields) = .ok c →
    JavaClassFor s conf.instants conf.lombok conf.decText (decide (cls ∈ exceptions)) cls fields c.1 ∧
    JavaStructReady s conf.instants conf.lombok conf.immutable (decide (cls ∈ exceptions)) cls fields := by
  induction n with
  | zero => intro _ _ _ fields _ h; cases fields <;> simp at h
  | succ n ih =>
    intro exceptions top cls fields c hn h
    unfold javaClassOf at h
    extract_lets thr lom at h
    obtain ⟨ms, h1, h2⟩ := gbind_ok.1 h
    obtain ⟨hr, hm⟩ := javaMembers_ok hw conf cls fields h1
    have hf : List.Forall₂ (JavaMemberOf s conf.instants conf.decText) fields (ms.map (·.field)) := by
      rw [List.forall₂_map_right_iff]
      exact hm.imp fun _ _ h => h.1
    dsimp only at h2
    by_cases hl : lom = true
    · rw [if_pos hl] at h2
      cases h2
      obtain ⟨h3, h4⟩ := Bool.and_eq_true_iff.1 hl
      have h5 : decide (cls ∈ exceptions) = false := by simpa [thr] using h3
      refine ⟨?_, .lombok h4 h5 hr⟩
      have : thr = decide (cls ∈ exceptions) := rfl
      rw [hl, this]
      exact .lombok h4 h5 hf
    · rw [if_neg hl] at h2
      have h3 : conf.lombok = false ∨ decide (cls ∈ exceptions) = true := by
        cases hc : conf.lombok with
        | false => exact .inl rfl
        | true =>
          right
          cases ht : decide (cls ∈ exceptions) with
          | true => rfl
          | false => exact absurd (by simp [lom, thr, hc] at *; exact ht) hl
      by_cases hi : conf.immutable ∧ fields.any (·.name = "") = true
      · rw [if_pos hi] at h2; cases h2
      rw [if_neg hi] at h2
      obtain ⟨ns, h4, h5⟩ := gbind_ok.1 h2
      cases h5
      rw [javaInners_eq, javaNested_eq conf fields ms _ (hm.imp fun _ _ h => ⟨h.1.name, h.2⟩), javaAll_ok] at h4
      obtain ⟨hs1, hs2⟩ := innerFields_spec conf ho fields
      have key : ∀ f, JavaInnerField fields f → ∀ c, javaInner m conf (capitalize f.name) f.ts = .ok c →
          JavaClassFor s conf.instants conf.lombok conf.decText false (capitalize f.name) f.ts.fields c.1 ∧
          JavaStructReady s conf.instants conf.lombok conf.immutable false (capitalize f.name) f.ts.fields := by
        intro f hf c hc
        rw [javaInner_eq] at hc
        have := ih [] false _ _ c (by have := member_size (innerField_mem hf); omega) hc
        simpa using this
      rw [List.forall₂_map_left_iff] at h4
      have hcl : JavaClassesFor s conf.instants conf.lombok conf.decText (innerFields conf fields) (ns.map Prod.fst) := by
        have hall : ∀ f ∈ innerFields conf fields, JavaInnerField fields f := fun f h => (hs1 f).1 h
        clear h h2
        revert hall
        generalize innerFields conf fields = inn at h4
        intro hall
        induction h4 with
        | nil => exact .nil
        | cons hx _ ih' =>
          obtain ⟨ha, hb⟩ := List.forall_mem_cons.1 hall
          exact .cons (key _ ha _ hx).1 (ih' hb)
      refine ⟨?_, .plain h3 hr ?_ ?_⟩
      · have h6 : thr = decide (cls ∈ exceptions) := rfl
        have h7 : lom = false := by simpa using hl
        rw [h7, h6]
        exact .plain h3 hf hs1 hs2 hcl
      · intro him f hf he
        exact hi ⟨him, List.any_eq_true.2 ⟨f, hf, by simpa using he⟩⟩
      · intro f hf
        obtain ⟨c, _, hc⟩ := forall₂_mem_left h4 ((hs1 f).2 hf)
        exact (key f hf c hc).2

/-- The class of a struct that is ready can be written. -/
theorem javaClassOf_ready (n : Nat) : ∀ (exceptions : List String) (top : Bool) (cls : String) (fields : List StructFieldDef),
    sizeOf fields ≤ n →
    JavaStructReady s conf.instants conf.lombok conf.immutable (decide (cls ∈ exceptions)) cls fields →
    ∃ c, javaClassOf m conf exceptions top cls fields (javaInners m conf fields) = .ok c := by
  induction n with
  | zero => intro _ _ _ fields h; cases fields <;> simp at h
  | succ n ih =>
    intro exceptions top cls fields hn h
    have hr : ∀ f ∈ fields, JavaFieldReady s conf.instants cls f := by cases h <;> assumption
    obtain ⟨ms, h1⟩ := javaMembers_ready hw conf cls fields hr
    obtain ⟨_, hm⟩ := javaMembers_ok hw conf cls fields h1
    unfold javaClassOf
    extract_lets thr lom
    rw [h1]
    simp only [Out.bind]
    by_cases hl : lom = true
    · rw [if_pos hl]; exact ⟨_, rfl⟩
    rw [if_neg hl]
    cases h with
    | lombok ha hb _ => exact absurd (by simp only [lom, thr, ha, hb]; rfl) hl
    | plain ha _ hb hc =>
      rw [if_neg (by
        rintro ⟨hi, hany⟩
        obtain ⟨f, hf, he⟩ := List.any_eq_true.1 hany
        exact hb hi f hf (by simpa using he))]
      rw [javaInners_eq, javaNested_eq conf fields ms _ (hm.imp fun _ _ h => ⟨h.1.name, h.2⟩)]
      obtain ⟨hs1, _⟩ := innerFields_spec conf ho fields
      have hall : ∀ f ∈ innerFields conf fields, ∃ c, javaInner m conf (capitalize f.name) f.ts = .ok c := by
        intro f hf
        have h2 := (hs1 f).1 hf
        rw [javaInner_eq]
        exact ih [] false _ _ (by have := member_size (innerField_mem h2); omega) (by simpa using hc f h2)
      have hex : ∃ ns, javaAll ((innerFields conf fields).map fun f => javaInner m conf (capitalize f.name) f.ts) = .ok ns := by
        revert hall
        generalize innerFields conf fields = inn
        intro hall
        simp only [javaAll_ok, List.forall₂_map_left_iff]
        induction inn with
        | nil => exact ⟨[], .nil⟩
        | cons f inn ih' =>
          obtain ⟨ha, hb⟩ := List.forall_mem_cons.1 hall
          obtain ⟨c, hc⟩ := ha
          obtain ⟨cs, hcs⟩ := ih' hb
          exact ⟨c :: cs, .cons hc hcs⟩
      obtain ⟨ns, hns⟩ := hex
      rw [hns]
      exact ⟨_, rfl⟩

end

end Sadl
