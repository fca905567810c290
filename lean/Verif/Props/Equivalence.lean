import Verif.Lemmas.Equiv
import Verif.Props.Validation
/-
C13, C14: equivalence of types.
-/
namespace Sadl.Props
open Sadl Sadl.Spec

/-- The call `EquivalentTypes(a, b)` returns `r`. -/
def EquivReturns (m : Model) (aliased : TypeSpec → TypeSpec → Bool) (a b : TypeSpec) (r : Bool) : Prop :=
  ∃ fuel, equivTypes m aliased fuel a b = some (.ok r)

/-- The call `EquivalentTypesByName(a, b)` returns `r`. -/
def EquivByNameReturns (m : Model) (aliased : TypeSpec → TypeSpec → Bool) (a b : String) (r : Bool) : Prop :=
  ∃ fuel, equivTypesByName m aliased fuel a b = some (.ok r)

/-! ### C13 -/

/-- C13, reflexivity: comparing a specification with itself (same object, hence the same
pointers) returns true, in every model. -/
theorem C13_reflexive (m : Model) (aliased : TypeSpec → TypeSpec → Bool) (ts : TypeSpec)
    (hself : aliased ts ts = true) : EquivReturns m aliased ts ts true := by
  refine ⟨1, ?_⟩
  have hn : ∀ recur x, equivNames m recur x x = some (.ok true) := by intro r x; simp [equivNames]
  unfold equivTypes equivStep
  rw [if_neg (not_not.2 rfl), hself, ptrEq_self, ptrEq_self, ptrEq_self, hn, hn, hn, hn]
  split <;> simp [List.all_eq_true, Res.andAlso]
  · intro x h1
    exact ⟨x, h1, rfl⟩
  · intro x h1
    exact ⟨x, h1, rfl⟩

/-- C13, reflexivity by name. -/
theorem C13_reflexive_by_name (m : Model) (aliased : TypeSpec → TypeSpec → Bool) (n : String) :
    EquivByNameReturns m aliased n n true := ⟨0, by simp [equivTypesByName, equivNames]⟩

/-- No value, symbol or variant type is listed twice. -/
def NoRepeats (ts : TypeSpec) : Prop :=
  (ts.values.getD []).Nodup ∧ (ts.elements.map (·.symbol)).Nodup ∧ (ts.variants.map (·.ts.type)).Nodup

/-- C13, symmetry: holds for specifications without repeated values, symbols or variants.
The missing part (repeated elements) is false, see `C13_refuted_symmetric`. -/
theorem C13_symmetric_partial (m : Model) (aliased : TypeSpec → TypeSpec → Bool)
    (hal : ∀ a b, aliased a b = aliased b a) (hdefs : ∀ n td, m.findType n = some td → NoRepeats td.ts)
    (a b : TypeSpec) (ha : NoRepeats a) (hb : NoRepeats b) (r : Bool) :
    EquivReturns m aliased a b r ↔ EquivReturns m aliased b a r := by
  have key : ∀ (fuel : Nat) (a b : TypeSpec), NoRepeats a → NoRepeats b →
      equivTypes m aliased fuel a b = equivTypes m aliased fuel b a := by
    intro fuel
    induction fuel with
    | zero => intros; rfl
    | succ n ih =>
      intro a b ha hb
      have hn : ∀ x y, equivNames m (equivTypes m aliased n) x y = equivNames m (equivTypes m aliased n) y x := by
        intro x y
        exact equivNames_comm (fun t1 t2 h1 h2 => ih _ _ (hdefs _ _ h1) (hdefs _ _ h2))
      simp only [equivTypes, equivStep]
      by_cases ht : a.type = b.type
      · rw [if_neg (not_not.2 ht), if_neg (not_not.2 ht.symm), ← ht]
        rw [hal b a, ptrEq_comm _ b.minSize, ptrEq_comm _ b.min, ptrEq_comm _ b.max, hn b.unit, hn b.value,
          hn b.items, hn b.keys]
        have len : ∀ {α : Type} [DecidableEq α] (l1 l2 : List α), l1.Nodup → l2.Nodup →
            (decide (l1.length = l2.length) && l2.all (fun s => l1.contains s)) =
            (decide (l2.length = l1.length) && l1.all (fun s => l2.contains s)) := by
          intro α _ l1 l2 h1 h2
          by_cases hl : l1.length = l2.length
          · rw [sameSet_comm h1 h2 hl]; simp [hl]
          · simp [hl, Ne.symm hl]
        have e1 := len _ _ ha.2.1 hb.2.1
        have e2 := len _ _ ha.2.2 hb.2.2
        simp only [List.length_map] at e1 e2
        rw [e1, e2]
        have hr : decide (a.reference = b.reference) = decide (b.reference = a.reference) := by simp [eq_comm]
        have hf : decide (a.fields.length = b.fields.length) = decide (b.fields.length = a.fields.length) := by
          simp [eq_comm]
        rw [hr, hf]
        split <;> try rfl
        congr 2
        have hp : decide (a.pattern = b.pattern) = decide (b.pattern = a.pattern) := by simp [eq_comm]
        rw [hp]
        by_cases hl : (a.values.getD []).length = (b.values.getD []).length
        · rw [sameSet_comm ha.1 hb.1 hl, hl]
        · simp [hl, Ne.symm hl]
      · rw [if_pos ht, if_pos (Ne.symm ht)]
  constructor
  · rintro ⟨f, h⟩; exact ⟨f, by rw [← key f a b ha hb]; exact h⟩
  · rintro ⟨f, h⟩; exact ⟨f, by rw [key f a b ha hb]; exact h⟩

/-- C13, symmetry refuted: `Enum{A,B}` is equivalent to `Enum{A,A}` but not conversely. -/
theorem C13_refuted_symmetric : ∃ a b : TypeSpec, ∀ m aliased,
    EquivReturns m aliased a b true ∧ EquivReturns m aliased b a false :=
  ⟨{ type := "Enum", elements := [{ symbol := "A" }, { symbol := "B" }] },
   { type := "Enum", elements := [{ symbol := "A" }, { symbol := "A" }] },
   fun _ _ => ⟨⟨1, by rfl⟩, ⟨1, by rfl⟩⟩⟩

/-- C13, "equivalent types accept the same values": proved for models whose types use only
constraints that the comparison looks at (`Compared`: no struct fields, no maximum size, no
empty value list, no repeats).  The rest is false, see the `C13_refuted_values_*`. -/
theorem C13_same_values_partial (lib : Lib) (s : Schema) (m : Model) (h : newModel s = .ok m)
    (hs : ∀ td ∈ s.types, Compared td.ts) (aliased : TypeSpec → TypeSpec → Bool) (a b : String)
    (heq : EquivByNameReturns m aliased a b true) (v : Value) (hv : Real v) :
    Accepts lib m a v ↔ Accepts lib m b v := by
  have hdefs : ∀ n td, m.findType n = some td → Compared td.ts := by
    intro n td hf
    rcases (newModel_findType_iff h n td).1 hf with ⟨h1, _⟩ | ⟨_, rfl⟩
    · exact hs td h1
    · exact ⟨rfl, rfl, by simp [baseTypeDef], by simp [baseTypeDef], by simp [baseTypeDef]⟩
  have hAny : m.Means "Any" { type := "Any" } :=
    ⟨baseTypeDef "Any", (newModel_findType_iff h _ _).2 (Or.inr ⟨by decide, rfl⟩), rfl⟩
  obtain ⟨fuel, hf⟩ := heq
  rcases equivNames_true.1 hf with rfl | ⟨t1, t2, h1, h2, h3⟩
  · rfl
  · have sv := equiv_sameValues (lib := lib) hAny hdefs fuel _ _ h3 (hdefs _ _ h1) (hdefs _ _ h2)
    rw [accepts_conforms h hv, accepts_conforms h hv, ← means_eq_defines h]
    constructor
    · rintro ⟨t, ht, hc⟩
      obtain rfl := means_fun ht ⟨t1, h1, rfl⟩
      exact ⟨t2.ts, ⟨t2, h2, rfl⟩, (sv v).1 hc⟩
    · rintro ⟨t, ht, hc⟩
      obtain rfl := means_fun ht ⟨t2, h2, rfl⟩
      exact ⟨t1.ts, ⟨t1, h1, rfl⟩, (sv v).2 hc⟩

/-- Two enums with the same symbols in different order, and arrays of them. -/
def exEqSchema : Schema :=
  { types := [{ name := "E1", ts := { type := "Enum", elements := [{ symbol := "A" }, { symbol := "B" }] } },
              { name := "E2", ts := { type := "Enum", elements := [{ symbol := "B" }, { symbol := "A" }] } },
              { name := "L1", ts := { type := "Array", items := "E1" } },
              { name := "L2", ts := { type := "Array", items := "E2" } }] }

example : ∃ m, newModel exEqSchema = .ok m ∧ (∀ td ∈ exEqSchema.types, Compared td.ts) ∧
    EquivByNameReturns m (fun _ _ => false) "L1" "L2" true ∧ ¬ EquivByNameReturns m (fun _ _ => false) "L1" "E2" true := by
  refine ⟨_, rfl, ?_, ⟨3, by rfl⟩, ?_⟩
  · intro td htd
    simp only [exEqSchema, List.mem_cons, List.not_mem_nil, or_false] at htd
    rcases htd with rfl | rfl | rfl | rfl <;> simp [Compared]
  · rintro ⟨n, hn⟩
    cases n with
    | zero => exact absurd hn (by intro h; cases h)
    | succ n => exact absurd hn (by intro h; cases h)

theorem not_accepts {lib : Lib} {m : Model} {n : String} {v : Value} (h : Rejects lib m n v) :
    ¬ Accepts lib m n v := by
  rintro ⟨k, hk⟩
  obtain ⟨k', e, he⟩ := h
  cases validate_agree hk he

example : ∃ m, newModel exEqSchema = .ok m ∧ ∀ n td, m.findType n = some td → NoRepeats td.ts := by
  refine ⟨_, rfl, ?_⟩
  intro n td hf
  rcases (newModel_findType_iff (s := exEqSchema) rfl n td).1 hf with ⟨h, _⟩ | ⟨_, rfl⟩
  · simp only [exEqSchema, List.mem_cons, List.not_mem_nil, or_false] at h
    rcases h with rfl | rfl | rfl | rfl <;> simp [NoRepeats]
  · simp [NoRepeats, baseTypeDef]

/-- C13 refuted for structs: only the number of fields is compared. -/
theorem C13_refuted_values_struct : ∃ (lib : Lib) (s : Schema) (m : Model) (v : Value), newModel s = .ok m ∧ Real v ∧
    (∀ aliased, EquivByNameReturns m aliased "P" "Q" true) ∧ Accepts lib m "P" v ∧ ¬ Accepts lib m "Q" v := by
  refine ⟨exLib, { types := [
      { name := "P", ts := { type := "Struct", fields := [{ name := "x", ts := { type := "Bool" } }] } },
      { name := "Q", ts := { type := "Struct", fields := [{ name := "y", ts := { type := "Bool" } }] } }] },
    _, .obj [("x", .bool true)], rfl, ?_, fun _ => ⟨1, by rfl⟩, ⟨5, by rfl⟩, ?_⟩
  · exact .obj (by simp) (by
      intro k x hx
      simp only [List.mem_singleton, Prod.mk.injEq] at hx
      obtain ⟨_, rfl⟩ := hx
      exact .atom (by simp) (by simp))
  · exact not_accepts ⟨5, _, rfl⟩

/-- C13 refuted for maximum sizes: `String (maxsize=1)` is equivalent to `String`. -/
theorem C13_refuted_values_maxsize : ∃ (lib : Lib) (s : Schema) (m : Model) (v : Value), newModel s = .ok m ∧ Real v ∧
    (∀ aliased, EquivByNameReturns m aliased "String" "Short" true) ∧
    Accepts lib m "String" v ∧ ¬ Accepts lib m "Short" v := by
  refine ⟨exLib, { types := [{ name := "Short", ts := { type := "String", maxSize := some 1 } }] },
    _, .str "ab", rfl, .atom (by simp) (by simp), fun _ => ⟨1, by rfl⟩, ⟨5, by rfl⟩, ?_⟩
  exact not_accepts ⟨5, _, rfl⟩

/-! ### C14 -/

/-- Type references are acyclic and defined: `rank` decreases along item, key, unit and
value references of every definition. -/
def Ranked (m : Model) (rank : String → Nat) (a : String) (ts : TypeSpec) : Prop :=
  ((ts.type = "Array" ∨ ts.type = "Map") → (m.findType ts.items).isSome ∧ rank ts.items < rank a) ∧
  (ts.type = "Array" → ts.keys = "") ∧
  (ts.type = "Map" → (m.findType ts.keys).isSome ∧ rank ts.keys < rank a) ∧
  (ts.type = "UnitValue" → (m.findType ts.unit).isSome ∧ rank ts.unit < rank a ∧
    (m.findType ts.value).isSome ∧ rank ts.value < rank a)

/-- C14: between defined types whose references are acyclic, `EquivalentTypesByName`
returns.  For recursive types and for the parameterless built-in containers it need not,
see `C14_refuted_*`. -/
theorem C14_returns_partial (m : Model) (aliased : TypeSpec → TypeSpec → Bool) (rank : String → Nat)
    (dom : String → Prop)
    (hdom : ∀ n, dom n → ∃ td, m.findType n = some td ∧ Ranked m rank n td.ts ∧
      ((td.ts.type = "Array" ∨ td.ts.type = "Map") → dom td.ts.items) ∧
      (td.ts.type = "Map" → dom td.ts.keys) ∧
      (td.ts.type = "UnitValue" → dom td.ts.unit ∧ dom td.ts.value))
    (a b : String) (ha : dom a) (hb : dom b) : ∃ r, EquivByNameReturns m aliased a b r := by
  -- with fuel above the rank of `a`, an answer is found
  have key : ∀ (fuel : Nat) (a b : String), dom a → dom b → rank a < fuel →
      ∃ r, equivNames m (equivTypes m aliased fuel) a b = some (.ok r) := by
    intro fuel
    induction fuel with
    | zero => intro a b _ _ h; omega
    | succ n ih =>
      intro a b ha hb hr
      obtain ⟨t1, f1, r1, d1, d2, d3⟩ := hdom a ha
      obtain ⟨t2, f2, r2, e1, e2, e3⟩ := hdom b hb
      obtain ⟨q1, q2, q3, q4⟩ := r1
      by_cases hab : a = b
      · exact ⟨true, by simp [equivNames, hab]⟩
      have hstep : equivNames m (equivTypes m aliased (n + 1)) a b =
          equivStep m aliased (equivTypes m aliased n) t1.ts t2.ts := by
        simp [equivNames, hab, f1, f2, equivTypes]
      rw [hstep]
      have both : ∀ x y x' y' : String, (∃ r, equivNames m (equivTypes m aliased n) x y = some (.ok r)) →
          (∃ r, equivNames m (equivTypes m aliased n) x' y' = some (.ok r)) →
          ∃ r, (equivNames m (equivTypes m aliased n) x y).andAlso
            (equivNames m (equivTypes m aliased n) x' y') = some (.ok r) := by
        rintro x y x' y' ⟨r, hr⟩ ⟨r', hr'⟩
        rw [hr, hr']
        cases r
        · exact ⟨false, rfl⟩
        · exact ⟨r', rfl⟩
      unfold equivStep
      by_cases ht : t1.ts.type = t2.ts.type
      · rw [if_neg (not_not.2 ht)]
        split
        case h_5 h =>
          have g := q4 h
          have g1 := d3 h
          have g2 := e3 (ht ▸ h)
          exact both _ _ _ _ (ih _ _ g1.1 g2.1 (by omega)) (ih _ _ g1.2 g2.2 (by omega))
        case h_6 h =>
          split_ifs
          · have hi := q1 (Or.inl h)
            refine both _ _ _ _ (ih _ _ (d1 (Or.inl h)) (e1 (Or.inl (ht ▸ h))) (by omega)) ?_
            exact ⟨true, by simp [equivNames, q2 h, r2.2.1 (ht ▸ h)]⟩
          · exact ⟨_, rfl⟩
        case h_7 h =>
          split_ifs
          · have hi := q1 (Or.inr h)
            have hk := q3 h
            exact both _ _ _ _ (ih _ _ (d1 (Or.inr h)) (e1 (Or.inr (ht ▸ h))) (by omega))
              (ih _ _ (d2 h) (e2 (ht ▸ h)) (by omega))
          · exact ⟨_, rfl⟩
        all_goals exact ⟨_, rfl⟩
      · rw [if_pos ht]; exact ⟨_, rfl⟩
  obtain ⟨r, hr⟩ := key (rank a + 1) a b ha hb (by omega)
  exact ⟨r, rank a + 1, hr⟩

example : ∃ (m : Model) (rank : String → Nat) (dom : String → Prop), newModel exEqSchema = .ok m ∧
    (∀ n, dom n → ∃ td, m.findType n = some td ∧ Ranked m rank n td.ts ∧
      ((td.ts.type = "Array" ∨ td.ts.type = "Map") → dom td.ts.items) ∧
      (td.ts.type = "Map" → dom td.ts.keys) ∧
      (td.ts.type = "UnitValue" → dom td.ts.unit ∧ dom td.ts.value)) ∧ dom "L1" ∧ dom "L2" := by
  refine ⟨_, fun n => if n = "L1" ∨ n = "L2" then 1 else 0, fun n => n ∈ ["E1", "E2", "L1", "L2"], rfl, ?_, by decide, by decide⟩
  intro n hn
  simp only [List.mem_cons, List.not_mem_nil, or_false] at hn
  rcases hn with rfl | rfl | rfl | rfl <;> refine ⟨_, rfl, ?_⟩ <;> simp [Ranked] <;> decide

theorem mutual_arrays_diverge (m : Model) (aliased : TypeSpec → TypeSpec → Bool) (x y : TypeDef)
    (hx : m.findType "A" = some x) (hy : m.findType "B" = some y)
    (hx' : x.ts = { type := "Array", items := "B" }) (hy' : y.ts = { type := "Array", items := "A" }) (fuel : Nat) :
    equivTypes m aliased fuel x.ts y.ts = none ∧ equivTypes m aliased fuel y.ts x.ts = none := by
  induction fuel with
  | zero => exact ⟨rfl, rfl⟩
  | succ n ih =>
    constructor
    · have : equivNames m (equivTypes m aliased n) "B" "A" = none := by simp [equivNames, hx, hy, ih.2]
      rw [hx', hy']
      simp [equivTypes, equivStep, ptrEq, this, Res.andAlso]
    · have : equivNames m (equivTypes m aliased n) "A" "B" = none := by simp [equivNames, hx, hy, ih.1]
      rw [hx', hy']
      simp [equivTypes, equivStep, ptrEq, this, Res.andAlso]

/-- C14 refuted: two mutually recursive arrays; the comparison never returns. -/
theorem C14_refuted_diverges : ∃ (s : Schema) (m : Model), newModel s = .ok m ∧
    ∀ aliased fuel, equivTypesByName m aliased fuel "A" "B" = none := by
  refine ⟨{ types := [{ name := "A", ts := { type := "Array", items := "B" } },
                      { name := "B", ts := { type := "Array", items := "A" } }] }, _, rfl, ?_⟩
  intro aliased fuel
  exact (mutual_arrays_diverge _ aliased _ _ rfl rfl rfl rfl fuel).1

/-- C14 refuted: comparing a user-defined array with the built-in `Array` crashes. -/
theorem C14_refuted_crashes : ∃ (s : Schema) (m : Model), newModel s = .ok m ∧
    ∀ aliased, ∃ e, equivTypesByName m aliased 5 "A" "Array" = some (.panic e) :=
  ⟨{ types := [{ name := "A", ts := { type := "Array", items := "String" } }] }, _, rfl, fun _ => ⟨_, rfl⟩⟩

end Sadl.Props
