import Verif.Lemmas.ValidateMain
import Verif.Lemmas.NewModel
namespace Sadl
open Spec

theorem ne_none_mono {lib : Lib} {m : Model} {n n' : Nat} (h : n ≤ n') {td : TypeSpec} {v : Value}
    (hv : validateSpec lib m n td v ≠ none) : validateSpec lib m n' td v ≠ none := by
  rcases validateSpec_mono (lib := lib) (m := m) h td v with h' | h'
  · exact absurd h' hv
  · rwa [← h']

theorem andThen_ne_none {a b : VRes} (h1 : a ≠ none) (h2 : b ≠ none) : a.andThen b ≠ none := by
  cases a with
  | none => exact absurd rfl h1
  | some e => cases e with
    | error e => simp [VRes.andThen]
    | ok u => exact h2

theorem forEach_ne_none {α : Type} {f : α → VRes} (xs : List α) (h : ∀ x ∈ xs, f x ≠ none) :
    forEach f xs ≠ none := by
  induction xs with
  | nil => simp [forEach, vok]
  | cons x r ih =>
    exact andThen_ne_none (h x (by simp)) (ih (fun y hy => h y (by simp [hy])))

theorem step_named_none {lib : Lib} {m : Model} {r : TypeSpec → Value → VRes} {ts : TypeSpec} {v : Value}
    (ht : ts.type ∉ MeaningfulNames) (hf : m.findType ts.type = none) :
    ∃ e, validateStep lib m r ts v = verr e := by
  rcases validateStep_named (lib := lib) (m := m) (recur := r) (v := v) ht with h | ⟨_, h⟩
  · exact ⟨_, by rw [h]; simp [validateNamed, hf]; rfl⟩
  · exact h

theorem step_named_some {lib : Lib} {m : Model} {r : TypeSpec → Value → VRes} {ts : TypeSpec} {v : Value}
    {td : TypeDef} (ht : ts.type ∉ MeaningfulNames) (hf : m.findType ts.type = some td) :
    validateStep lib m r ts v = r td.ts v := by
  rcases validateStep_named (lib := lib) (m := m) (recur := r) (v := v) ht with h | ⟨h, _⟩
  · rw [h]; simp [validateNamed, hf]
  · rw [hf] at h; cases h

/-- Answers on every specification free of `Union`. -/
def Halts (lib : Lib) (m : Model) (v : Value) : Prop :=
  ∀ ts, NoUnion ts → ∃ n, validateSpec lib m n ts v ≠ none

inductive Child : Value → Value → Prop
  | arr {xs x} : x ∈ xs → Child x (.arr xs)
  | obj {kvs k x} : (k, x) ∈ kvs → Child x (.obj kvs)

/-- The definitions found in the model are flat and free of `Union`. -/
def Flat (m : Model) : Prop :=
  ∀ n td, m.findType n = some td → n ≠ "Union" → td.ts.type ∈ MeaningfulNames ∧ NoUnion td.ts

theorem halts_meaningful {lib : Lib} {m : Model} (hm : Flat m) {v : Value}
    (hc : ∀ x, Child x v → Halts lib m x)
    (hu : ∀ s, v = .strPtr s → (∀ d, Halts lib m (.dec d)) ∧ (∀ s, Halts lib m (.str s)))
    (ts : TypeSpec) (hts : NoUnion ts) (ht : ts.type ∈ MeaningfulNames) :
    ∃ n, validateSpec lib m n ts v ≠ none := by
  obtain ⟨u1, u2, u3, u4, u5⟩ := hts
  rcases meaningful_cases ht with ht | ht | ht | ht | ht | ht | ht | ht | ht | ht | ht | ht
  · refine ⟨1, ?_⟩
    rw [validateSpec, step_number ht]
    unfold validateNumber
    cases v <;> simp only [verr, vok, ne_eq, reduceCtorEq, not_false_eq_true]
    split_ifs <;> simp
  · refine ⟨1, ?_⟩
    rw [validateSpec, step_timestamp ht]
    unfold validateTimestamp
    cases v <;> simp only [verr, vok, ne_eq, reduceCtorEq, not_false_eq_true]
    split_ifs <;> simp
  · refine ⟨1, ?_⟩
    rw [validateSpec, step_string ht]
    unfold validateString
    dsimp only
    repeat' split
    all_goals simp [vok, verr]
  · cases v with
    | obj kvs =>
      obtain ⟨n, hn⟩ := common_bound ts.fields
        (fun f n => ∀ x, mget kvs f.name = some x → validateSpec lib m n f.ts x ≠ none)
        (fun f n n' hn hP x hx => ne_none_mono hn (hP x hx))
        (fun f hf => by
          cases hg : mget kvs f.name with
          | none => exact ⟨0, by simp⟩
          | some x =>
            obtain ⟨n, hn⟩ := hc x (.obj (mget_mem hg)) f.ts (u5 f hf)
            exact ⟨n, by rintro y hy; cases hy; exact hn⟩)
      refine ⟨n + 1, ?_⟩
      rw [validateSpec, step_struct ht]
      unfold validateStruct
      refine andThen_ne_none (forEach_ne_none _ fun kv _ => ?_) (forEach_ne_none _ fun f hf => ?_)
      · split_ifs
        · exact vok_ne_none
        · exact verr_ne_none _
      · split
        · rename_i x hx; exact hn f hf x hx
        · split_ifs
          · exact verr_ne_none _
          · exact vok_ne_none
    | _ => exact ⟨1, by rw [validateSpec, step_struct ht]; simp [validateStruct, verr]⟩
  · cases v with
    | arr xs =>
      have key : ∃ n, ∀ td, m.findType ts.items = some td → ∀ x ∈ xs, validateSpec lib m n td.ts x ≠ none := by
        cases hf : m.findType ts.items with
        | none => exact ⟨0, by simp⟩
        | some td =>
          obtain ⟨n, hn⟩ := common_bound xs (fun x n => validateSpec lib m n td.ts x ≠ none)
            (fun x n n' hn hP => ne_none_mono hn hP)
            (fun x hx => hc x (.arr hx) td.ts (hm _ _ hf u2).2)
          exact ⟨n, by rintro td' h'; cases h'; exact hn⟩
      obtain ⟨n, hn⟩ := key
      refine ⟨n + 1, ?_⟩
      rw [validateSpec, step_array ht]
      unfold validateArray
      refine andThen_ne_none ?_ ?_
      · split_ifs
        · split
          · exact verr_ne_none _
          · rename_i td hf
            exact forEach_ne_none _ (hn td hf)
        · exact vok_ne_none
      · unfold validateSize
        split_ifs
        · exact verr_ne_none _
        · exact verr_ne_none _
        · exact vok_ne_none
    | _ => exact ⟨1, by rw [validateSpec, step_array ht]; simp [validateArray, verr]⟩
  · cases v with
    | obj kvs =>
      have key : ∃ n, ∀ td, m.findType ts.items = some td → ∀ kv ∈ kvs, validateSpec lib m n td.ts kv.2 ≠ none := by
        cases hf : m.findType ts.items with
        | none => exact ⟨0, by simp⟩
        | some td =>
          obtain ⟨n, hn⟩ := common_bound kvs (fun kv n => validateSpec lib m n td.ts kv.2 ≠ none)
            (fun x n n' hn hP => ne_none_mono hn hP)
            (fun kv hx => hc kv.2 (.obj hx) td.ts (hm _ _ hf u2).2)
          exact ⟨n, by rintro td' h'; cases h'; exact hn⟩
      obtain ⟨n, hn⟩ := key
      refine ⟨n + 1, ?_⟩
      rw [validateSpec, step_map ht]
      unfold validateMap
      refine andThen_ne_none ?_ ?_
      · split_ifs
        · split
          · exact verr_ne_none _
          · rename_i td hf
            exact forEach_ne_none _ (hn td hf)
        · exact vok_ne_none
      · unfold validateSize
        split_ifs
        · exact verr_ne_none _
        · exact verr_ne_none _
        · exact vok_ne_none
    | _ => exact ⟨1, by rw [validateSpec, step_map ht]; simp [validateMap, verr]⟩
  · exact ⟨1, by rw [validateSpec, step_bool ht]; cases v <;> simp [validateBool, verr, vok]⟩
  · refine ⟨1, ?_⟩
    rw [validateSpec, step_enum ht]
    unfold validateEnum
    dsimp only
    split_ifs
    · exact vok_ne_none
    · exact verr_ne_none _
  · cases v with
    | strPtr s =>
      obtain ⟨hd, hs⟩ := hu s rfl
      have k1 : ∀ (d : BigFloat), ∃ n, validateNamed m (validateSpec lib m n) ts.value (.dec d) ≠ none := by
        intro d
        unfold validateNamed
        cases hf : m.findType ts.value with
        | none => exact ⟨0, verr_ne_none _⟩
        | some td => exact hd d td.ts (hm _ _ hf u3).2
      have k2 : ∀ (u : String), ∃ n, validateNamed m (validateSpec lib m n) ts.unit (.str u) ≠ none := by
        intro u
        unfold validateNamed
        cases hf : m.findType ts.unit with
        | none => exact ⟨0, verr_ne_none _⟩
        | some td => exact hs u td.ts (hm _ _ hf u4).2
      have kmono : ∀ n n' name (v : Value), n ≤ n' → validateNamed m (validateSpec lib m n) name v ≠ none →
          validateNamed m (validateSpec lib m n') name v ≠ none := by
        intro n n' name v hn h
        unfold validateNamed at h ⊢
        cases hf : m.findType name with
        | none => exact verr_ne_none _
        | some td =>
          rw [hf] at h
          exact ne_none_mono hn h
      cases hsp : splitFirst ' ' s.toList with
      | none => exact ⟨1, by rw [validateSpec, step_unitValue ht]; simp [validateUnitValue, hsp, verr]⟩
      | some p =>
        obtain ⟨val, unit⟩ := p
        cases hp : lib.parseDecimal (String.ofList val) with
        | none =>
          refine ⟨1, ?_⟩
          rw [validateSpec, step_unitValue ht]
          simp only [validateUnitValue, hsp, hp]
          split_ifs <;> exact verr_ne_none _
        | some d =>
          obtain ⟨n1, h1⟩ := k1 d
          obtain ⟨n2, h2⟩ := k2 (String.ofList unit)
          refine ⟨max n1 n2 + 1, ?_⟩
          rw [validateSpec, step_unitValue ht]
          simp only [validateUnitValue, hsp, hp]
          split_ifs
          · exact andThen_ne_none (kmono _ _ _ _ (le_max_left _ _) h1) (kmono _ _ _ _ (le_max_right _ _) h2)
          · exact verr_ne_none _
    | _ => exact ⟨1, by rw [validateSpec, step_unitValue ht]; simp [validateUnitValue, verr]⟩
  · refine ⟨1, ?_⟩
    rw [validateSpec, step_uuid ht]
    unfold validateUUID
    cases v <;> simp only [verr, vok, ne_eq, reduceCtorEq, not_false_eq_true]
    all_goals split_ifs <;> simp
  · exact ⟨1, by rw [validateSpec, step_bytes ht]; exact vok_ne_none⟩
  · exact ⟨1, by rw [validateSpec, step_any ht]; exact vok_ne_none⟩

theorem halts_step {lib : Lib} {m : Model} (hm : Flat m) {v : Value}
    (hc : ∀ x, Child x v → Halts lib m x)
    (hu : ∀ s, v = .strPtr s → (∀ d, Halts lib m (.dec d)) ∧ (∀ s, Halts lib m (.str s))) :
    Halts lib m v := by
  intro ts hts
  by_cases ht : ts.type ∈ MeaningfulNames
  · exact halts_meaningful hm hc hu ts hts ht
  · cases hf : m.findType ts.type with
    | none =>
      obtain ⟨e, he⟩ := step_named_none (lib := lib) (r := validateSpec lib m 0) (v := v) ht hf
      exact ⟨1, by rw [validateSpec, he]; exact verr_ne_none _⟩
    | some t =>
      have hU : ts.type ≠ "Union" := by cases hts; assumption
      obtain ⟨h1, h2⟩ := hm _ _ hf hU
      obtain ⟨n, hn⟩ := halts_meaningful hm hc hu t.ts h2 h1
      refine ⟨n + 1, ?_⟩
      rwa [validateSpec, step_named_some ht hf]

theorem child_size {x v : Value} (h : Child x v) : sizeOf x < sizeOf v := by
  cases h with
  | arr h => have := List.sizeOf_lt_of_mem h; simp; omega
  | obj h =>
    have := List.sizeOf_lt_of_mem h
    simp at this ⊢; omega

theorem halts_all {lib : Lib} {m : Model} (hm : Flat m) (v : Value) : Halts lib m v := by
  have hd : ∀ d, Halts lib m (.dec d) := fun d => halts_step hm (by rintro x ⟨⟩) (by simp)
  have hs : ∀ s, Halts lib m (.str s) := fun s => halts_step hm (by rintro x ⟨⟩) (by simp)
  induction h : sizeOf v using Nat.strongRecOn generalizing v with
  | _ n ih =>
    subst h
    exact halts_step hm (fun x hx => ih _ (child_size hx) x rfl) (fun _ _ => ⟨hd, hs⟩)

theorem base_meaningful {n : String} (h : n ∈ BaseTypes) (hn : n ≠ "Union") : n ∈ MeaningfulNames := by
  revert hn
  simp only [BaseTypes, List.mem_cons, List.not_mem_nil, or_false] at h
  rcases h with rfl | rfl | rfl | rfl | rfl | rfl | rfl | rfl | rfl | rfl | rfl | rfl | rfl | rfl | rfl |
    rfl | rfl | rfl | rfl <;> simp [MeaningfulNames, NumericNames]

theorem terminating_flat {s : Schema} {m : Model} (h : newModel s = .ok m) (ht : Terminating s) : Flat m := by
  intro n td hf hn
  rcases (newModel_findType_iff h n td).1 hf with ⟨h1, h2⟩ | ⟨h1, rfl⟩
  · obtain ⟨a, b⟩ := ht td h1
    refine ⟨?_, b⟩
    have : td.ts.type ≠ "Union" := by cases b; assumption
    exact base_meaningful a this
  · exact ⟨base_meaningful h1 hn, ⟨hn, by simp [baseTypeDef], by simp [baseTypeDef], by simp [baseTypeDef], by simp [baseTypeDef]⟩⟩

/-! ### Union -/

theorem union_diverges {lib : Lib} {m : Model} {td : TypeDef} (hf : m.findType "Union" = some td)
    (ht : td.ts.type = "Union") (n : Nat) (ts : TypeSpec) (hts : ts.type = "Union") (v : Value) :
    validateSpec lib m n ts v = none := by
  induction n generalizing ts with
  | zero => rfl
  | succ n ih =>
    have hn : ts.type ∉ MeaningfulNames := by rw [hts]; simp [MeaningfulNames, NumericNames]
    rw [validateSpec, step_named_some hn (by rw [hts]; exact hf)]
    exact ih td.ts ht

end Sadl
