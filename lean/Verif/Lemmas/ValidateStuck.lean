import Verif.Lemmas.ValidateApi
/-
When validation does not return.
-/
namespace Sadl
open Spec

section
variable {lib : Lib} {m : Model}

theorem conforms_no_error {ts : TypeSpec} {v : Value} (h : Conforms lib m.Means ts v) (n : Nat) :
    validateSpec lib m n ts v = none ∨ validateSpec lib m n ts v = vok := by
  obtain ⟨k, hk⟩ := validateSpec_complete h
  rcases Nat.le_total n k with hn | hn
  · rcases validateSpec_mono (lib := lib) (m := m) hn ts v with e | e
    · exact .inl e
    · exact .inr (e.trans hk)
  · exact .inr (validateSpec_vok_mono hn hk)

theorem andThen_none {a b : VRes} (h1 : a = none ∨ a = vok) (h2 : b = none) : a.andThen b = none := by
  rcases h1 with rfl | rfl
  · rfl
  · exact h2

theorem forEach_stuck {α : Type} {f : α → VRes} {pre : List α} {x : α} {post : List α} (h1 : ∀ y ∈ pre, f y = none ∨ f y = vok) (h2 : f x = none) :
    forEach f (pre ++ x :: post) = none := by
  induction pre with
  | nil => simp [forEach, h2, VRes.andThen]
  | cons y ys ih => exact andThen_none (h1 y (by simp)) (ih fun z hz => h1 z (List.mem_cons_of_mem _ hz))

theorem means_find {n : String} {ts : TypeSpec} (h : m.Means n ts) : ∃ td, m.findType n = some td ∧ td.ts = ts := h

theorem validateNamed_means {n : String} {ts : TypeSpec} (h : m.Means n ts) (r : TypeSpec → Value → VRes) (v : Value) :
    validateNamed m r n v = r ts v := by
  obtain ⟨td, h1, rfl⟩ := h
  simp [validateNamed, h1]

theorem unit_split {val unit : String} (h : ' ' ∉ val.toList) (h3 : 3 ≤ Bytes val) :
    splitFirst ' ' (val ++ " " ++ unit).toList = some (val.toList, unit.toList) ∧ byteLen val.toList ≥ 3 := by
  constructor
  · rw [splitFirst_some]
    simp [h]
  · unfold Bytes at h3; rw [byteLen_eq]; omega

/-- A value on which the specification is stuck is validated forever. -/
theorem stuck_forever {ts : TypeSpec} {v : Value} (h : Stuck lib m.Means ts v) (hv : Real v) (n : Nat) : validateSpec lib m n ts v = none := by
  induction h generalizing n with
  | self t ht hd he =>
    rename_i ts v
    obtain ⟨td, hf, rfl⟩ := hd
    have key : ∀ n (ts' : TypeSpec), ts'.type = ts.type → validateSpec lib m n ts' v = none := by
      intro n
      induction n with
      | zero => intros; rfl
      | succ n ih =>
        intro ts' h'
        rw [validateSpec, step_named_some (by rw [h']; exact ht) (by rw [h']; exact hf)]
        exact ih _ he
    exact key n ts rfl
  | named t ht hd _ ih =>
    obtain ⟨td, hf, rfl⟩ := hd
    cases n with
    | zero => rfl
    | succ n => rw [validateSpec, step_named_some ht hf]; exact ih hv n
  | @item ts pre x post ti ht hi hd hpre _ ih =>
    obtain ⟨td, hf, rfl⟩ := hd
    cases n with
    | zero => rfl
    | succ n =>
      have hx : Real x := by
        cases hv with
        | arr h => exact h x (by simp)
        | atom h1 _ => exact absurd rfl (h1 _)
      have h1 := forEach_stuck (f := fun x => validateSpec lib m n td.ts x) (post := post) (fun y hy => conforms_no_error (hpre y hy) n) (ih hx n)
      rw [validateSpec, step_array ht]
      simp only [validateArray, if_pos hi, hf, h1, VRes.andThen]
  | @entry ts pre k x post ti ht hi hd hpre _ ih =>
    obtain ⟨td, hf, rfl⟩ := hd
    cases n with
    | zero => rfl
    | succ n =>
      have hx : Real x := by
        cases hv with
        | obj _ h => exact h k x (by simp)
        | atom _ h1 => exact absurd rfl (h1 _)
      have h1 := forEach_stuck (f := fun kv : String × Value => validateSpec lib m n td.ts kv.2) (x := (k, x)) (post := post)
        (fun y hy => conforms_no_error (hpre y hy) n) (ih hx n)
      rw [validateSpec, step_map ht]
      simp only [validateMap, if_pos hi, hf, h1, VRes.andThen]
  | @field ts kvs pre f post x ht hk hfs hreq hpre hx _ ih =>
    cases n with
    | zero => rfl
    | succ n =>
      have hr : (kvs.map Prod.fst).Nodup ∧ Real x := by
        cases hv with
        | obj h0 h => exact ⟨h0, h f.name x hx⟩
        | atom _ h1 => exact absurd rfl (h1 _)
      have hg : mget kvs f.name = some x := mget_of_mem hr.1 hx
      have hkeys : forEach (fun kv : String × Value => if isStructField ts kv.1 then vok else verr "Undefined field") kvs = vok := by
        rw [forEach_vok]
        rintro ⟨k, y⟩ hy
        obtain ⟨g, hg, e⟩ := hk k y hy
        have : isStructField ts k = true := List.any_eq_true.2 ⟨g, hg, by simp [e]⟩
        simp [this]
      have h1 := forEach_stuck (f := fun f : StructFieldDef => match mget kvs f.name with
          | some fv => validateSpec lib m n f.ts fv
          | none => if f.required then verr "missing required field" else vok) (pre := pre) (x := f) (post := post) (fun g hg' => by
        cases hm : mget kvs g.name with
        | some y => exact conforms_no_error (hpre g hg' y (mget_mem hm)) n
        | none =>
          have : ¬ g.required = true := fun hq => by
            obtain ⟨y, hy⟩ := hreq g hg' hq
            rw [mget_of_mem hr.1 hy] at hm
            cases hm
          simp [this]) (by simp only [hg]; exact ih hr.2 n)
      rw [validateSpec, step_struct ht]
      simp only [validateStruct, hkeys, hfs]
      exact h1
  | @amount ts val unit d tv ht h2 h3 h4 hd _ ih =>
    obtain ⟨hs, hb⟩ := unit_split (unit := unit) h2 h3
    cases n with
    | zero => rfl
    | succ n =>
      have := ih (.atom (by simp) (by simp)) n
      rw [validateSpec, step_unitValue ht]
      simp only [validateUnitValue, hs, hb, if_true, String.ofList_toList, h4, validateNamed_means hd, this, VRes.andThen]
  | @unit ts val unit d tv tu ht h2 h3 h4 hd hc hu _ ih =>
    obtain ⟨hs, hb⟩ := unit_split (unit := unit) h2 h3
    cases n with
    | zero => rfl
    | succ n =>
      have := ih (.atom (by simp) (by simp)) n
      rw [validateSpec, step_unitValue ht]
      simp only [validateUnitValue, hs, hb, if_true, String.ofList_toList, h4, validateNamed_means hd, validateNamed_means hu, this]
      exact andThen_none (conforms_no_error hc n) rfl

/-! ### All others return -/

theorem validateSpec_ok_or {ts : TypeSpec} {v : Value} {n : Nat} (h : validateSpec lib m n ts v ≠ none) :
    validateSpec lib m n ts v = vok ∨ ∃ e, validateSpec lib m n ts v = verr e := by
  cases hr : validateSpec lib m n ts v with
  | none => exact absurd hr h
  | some r => cases r with
    | ok u => exact .inl rfl
    | error e => exact .inr ⟨e, rfl⟩

/-- A loop returns if each of its steps does, those before it having been fine. -/
theorem forEach_returns {α : Type} {f : Nat → α → VRes} (hmono : ∀ n n' x, n ≤ n' → Leq (f n x) (f n' x)) (xs : List α)
    (h : ∀ pre x post, xs = pre ++ x :: post → (∀ y ∈ pre, ∃ n, f n y = vok) → ∃ n, f n x ≠ none) : ∃ n, forEach (f n) xs ≠ none := by
  induction xs with
  | nil => exact ⟨0, by simp [forEach, vok]⟩
  | cons x xs ih =>
    obtain ⟨n, hn⟩ := h [] x xs rfl (by simp)
    cases hr : f n x with
    | none => exact absurd hr hn
    | some r =>
      cases r with
      | error e => exact ⟨n, by simp [forEach, hr, VRes.andThen]⟩
      | ok u =>
        obtain ⟨k, hk⟩ := ih fun pre y post e hp => h (x :: pre) y post (by rw [e]; rfl) fun z hz => by
          rcases List.mem_cons.1 hz with rfl | hz
          · exact ⟨n, hr⟩
          · exact hp z hz
        refine ⟨max n k, ?_⟩
        have h1 : f (max n k) x ≠ none := by
          rcases hmono n (max n k) x (le_max_left _ _) with e | e
          · exact absurd e hn
          · rw [← e]; exact hn
        have h2 : forEach (f (max n k)) xs ≠ none := by
          rcases forEach_mono xs (fun y _ => hmono k (max n k) y (le_max_right _ _)) with e | e
          · exact absurd e hk
          · rw [← e]; exact hk
        exact andThen_ne_none h1 h2

/-- Answers on every specification on which it is not stuck. -/
def Returns (lib : Lib) (m : Model) (v : Value) : Prop := ∀ ts, ¬ Stuck lib m.Means ts v → ∃ n, validateSpec lib m n ts v ≠ none

theorem validateSize_ne_none (td : TypeSpec) (n : Nat) : validateSize td n ≠ none := by
  unfold validateSize
  split_ifs
  · exact verr_ne_none _
  · exact verr_ne_none _
  · exact vok_ne_none

theorem returns_meaningful {v : Value} (hv : Real v) (hc : ∀ x, Child x v → Real x ∧ Returns lib m x)
    (hu : ∀ s, v = .strPtr s → (∀ d, Returns lib m (.dec d)) ∧ (∀ s, Returns lib m (.str s)))
    (ts : TypeSpec) (hts : ¬ Stuck lib m.Means ts v) (ht : ts.type ∈ MeaningfulNames) : ∃ n, validateSpec lib m n ts v ≠ none := by
  rcases meaningful_cases ht with ht | ht | ht | ht | ht | ht | ht | ht | ht | ht | ht | ht
  · refine ⟨1, ?_⟩
    rw [validateSpec, step_number ht]
    unfold validateNumber
    cases v <;> simp only [verr, vok, ne_eq, reduceCtorEq, not_false_eq_true]
    split_ifs <;> simp
  · refine ⟨1, ?_⟩
    rw [validateSpec, step_timestamp ht]
    unfold validateTimestamp
    cases v <;> simp only [verr, vok, ne_eq, reduceCtorEq, not_false_eq_true]
    split_ifs <;> simp
  · refine ⟨1, ?_⟩
    rw [validateSpec, step_string ht]
    unfold validateString
    dsimp only
    repeat' split
    all_goals simp [vok, verr]
  · cases v with
    | obj kvs =>
      by_cases hk : ∀ k x, (k, x) ∈ kvs → ∃ f ∈ ts.fields, f.name = k
      · obtain ⟨n, hn⟩ := forEach_returns (f := fun n (f : StructFieldDef) => match mget kvs f.name with
            | some fv => validateSpec lib m n f.ts fv
            | none => if f.required then verr "missing required field" else vok)
          (fun n n' f hn => by
            cases mget kvs f.name with
            | some y => exact validateSpec_mono hn _ _
            | none => exact Leq.refl _) ts.fields (fun pre f post e hp => by
          cases hg : mget kvs f.name with
          | none => exact ⟨0, by simp only [hg]; split_ifs <;> [exact verr_ne_none _; exact vok_ne_none]⟩
          | some x =>
            have hd : (kvs.map Prod.fst).Nodup := by
              cases hv with
              | obj h0 h => exact h0
              | atom _ h1 => exact absurd rfl (h1 _)
            simp only [hg]
            refine (hc x (.obj (mget_mem hg))).2 f.ts fun hs => hts ?_
            refine .field kvs pre f post x ht hk e (fun g hg' hq => ?_) (fun g hg' y hy => ?_) (mget_mem hg) hs
            · obtain ⟨n, hn⟩ := hp g hg'
              cases hm : mget kvs g.name with
              | some y => exact ⟨y, mget_mem hm⟩
              | none => simp only [hm, hq, if_true] at hn; cases hn
            · obtain ⟨n, hn⟩ := hp g hg'
              simp only [mget_of_mem hd hy] at hn
              exact validateSpec_sound n _ _ (hc y (.obj hy)).1 hn)
        refine ⟨n + 1, ?_⟩
        rw [validateSpec, step_struct ht]
        unfold validateStruct
        refine andThen_ne_none (forEach_ne_none _ fun kv _ => ?_) hn
        split_ifs
        · exact vok_ne_none
        · exact verr_ne_none _
      · refine ⟨1, ?_⟩
        rw [validateSpec, step_struct ht]
        unfold validateStruct
        have h1 : forEach (fun kv : String × Value => if isStructField ts kv.1 then vok else verr "Undefined field") kvs ≠ none :=
          forEach_ne_none _ fun kv _ => by
            split_ifs
            · exact vok_ne_none
            · exact verr_ne_none _
        have h2 : forEach (fun kv : String × Value => if isStructField ts kv.1 then vok else verr "Undefined field") kvs ≠ vok := fun h => hk fun k x hx => by
          have := forEach_vok.1 h (k, x) hx
          by_cases hf : isStructField ts k = true
          · obtain ⟨g, hg, e⟩ := List.any_eq_true.1 hf
            exact ⟨g, hg, by simpa using (beq_iff_eq.1 e).symm⟩
          · simp [hf] at this
        cases hr : forEach (fun kv : String × Value => if isStructField ts kv.1 then vok else verr "Undefined field") kvs with
        | none => exact absurd hr h1
        | some r =>
          cases r with
          | ok u => exact absurd hr h2
          | error e => simp [hr, VRes.andThen]
    | _ => exact ⟨1, by rw [validateSpec, step_struct ht]; simp [validateStruct, verr]⟩
  · cases v with
    | arr xs =>
      by_cases hi : ts.items = "Any"
      · refine ⟨1, ?_⟩
        rw [validateSpec, step_array ht]
        simp only [validateArray, hi, ne_eq, not_true_eq_false, if_false]
        exact validateSize_ne_none _ _
      · cases hf : m.findType ts.items with
        | none =>
          refine ⟨1, ?_⟩
          rw [validateSpec, step_array ht]
          simp only [validateArray, hi, ne_eq, not_false_eq_true, if_true, hf]
          exact verr_ne_none _
        | some td =>
          obtain ⟨n, hn⟩ := forEach_returns (f := fun n x => validateSpec lib m n td.ts x) (fun n n' x hn => validateSpec_mono hn _ _) xs
            (fun pre x post e hp => by
              subst e
              refine (hc x (.arr (by simp))).2 td.ts fun hs => hts (.item pre x post td.ts ht hi ⟨td, hf, rfl⟩ (fun y hy => ?_) hs)
              obtain ⟨n, hn⟩ := hp y hy
              exact validateSpec_sound n _ _ (hc y (.arr (by simp [hy]))).1 hn)
          refine ⟨n + 1, ?_⟩
          rw [validateSpec, step_array ht]
          simp only [validateArray, hi, ne_eq, not_false_eq_true, if_true, hf]
          exact andThen_ne_none hn (validateSize_ne_none _ _)
    | _ => exact ⟨1, by rw [validateSpec, step_array ht]; simp [validateArray, verr]⟩
  · cases v with
    | obj kvs =>
      by_cases hi : ts.items = "Any"
      · refine ⟨1, ?_⟩
        rw [validateSpec, step_map ht]
        simp only [validateMap, hi, ne_eq, not_true_eq_false, if_false]
        exact validateSize_ne_none _ _
      · cases hf : m.findType ts.items with
        | none =>
          refine ⟨1, ?_⟩
          rw [validateSpec, step_map ht]
          simp only [validateMap, hi, ne_eq, not_false_eq_true, if_true, hf]
          exact verr_ne_none _
        | some td =>
          obtain ⟨n, hn⟩ := forEach_returns (f := fun n (kv : String × Value) => validateSpec lib m n td.ts kv.2) (fun n n' x hn => validateSpec_mono hn _ _) kvs
            (fun pre x post e hp => by
              subst e
              obtain ⟨k, x⟩ := x
              refine (hc x (.obj (k := k) (by simp))).2 td.ts fun hs => hts (.entry pre k x post td.ts ht hi ⟨td, hf, rfl⟩ (fun y hy => ?_) hs)
              obtain ⟨n, hn⟩ := hp y hy
              exact validateSpec_sound n _ _ (hc y.2 (.obj (k := y.1) (by simp [hy]))).1 hn)
          refine ⟨n + 1, ?_⟩
          rw [validateSpec, step_map ht]
          simp only [validateMap, hi, ne_eq, not_false_eq_true, if_true, hf]
          exact andThen_ne_none hn (validateSize_ne_none _ _)
    | _ => exact ⟨1, by rw [validateSpec, step_map ht]; simp [validateMap, verr]⟩
  · exact ⟨1, by rw [validateSpec, step_bool ht]; cases v <;> simp [validateBool, verr, vok]⟩
  · refine ⟨1, ?_⟩
    rw [validateSpec, step_enum ht]
    unfold validateEnum
    dsimp only
    split_ifs
    · exact vok_ne_none
    · exact verr_ne_none _
  · cases v with
    | strPtr s =>
      obtain ⟨hd, hs⟩ := hu s rfl
      cases hsp : splitFirst ' ' s.toList with
      | none => exact ⟨1, by rw [validateSpec, step_unitValue ht]; simp [validateUnitValue, hsp, verr]⟩
      | some p =>
        obtain ⟨val, unit⟩ := p
        obtain ⟨e1, e2⟩ := splitFirst_some.1 hsp
        have es : s = String.ofList val ++ " " ++ String.ofList unit := by
          rw [← String.toList_inj]
          simp [e1]
        by_cases hb : byteLen val ≥ 3
        · cases hp : lib.parseDecimal (String.ofList val) with
          | none =>
            refine ⟨1, ?_⟩
            rw [validateSpec, step_unitValue ht]
            simp only [validateUnitValue, hsp, hp]
            split_ifs <;> exact verr_ne_none _
          | some d =>
            have h2 : ' ' ∉ (String.ofList val).toList := by simpa using e2
            have h3 : 3 ≤ Bytes (String.ofList val) := by
              unfold Bytes; rw [← byteLen_eq]; simp only [String.toList_ofList]; omega
            have step : ∀ n, validateSpec lib m (n + 1) ts (.strPtr s) = (validateNamed m (validateSpec lib m n) ts.value (.dec d)).andThen
                (validateNamed m (validateSpec lib m n) ts.unit (.str (String.ofList unit))) := fun n => by
              rw [validateSpec, step_unitValue ht]
              simp only [validateUnitValue, hsp, hp, hb, if_true]
            cases hf : m.findType ts.value with
            | none => exact ⟨1, by rw [step]; simp [validateNamed, hf, verr, VRes.andThen]⟩
            | some tv =>
              obtain ⟨n, hn⟩ := hd d tv.ts fun hst => hts (by rw [es]; exact .amount _ _ d tv.ts ht h2 h3 hp ⟨tv, hf, rfl⟩ hst)
              cases hr : validateSpec lib m n tv.ts (.dec d) with
              | none => exact absurd hr hn
              | some r =>
                cases r with
                | error e => exact ⟨n + 1, by rw [step]; simp [validateNamed, hf, hr, VRes.andThen]⟩
                | ok u =>
                  cases hg : m.findType ts.unit with
                  | none => exact ⟨n + 1, by rw [step]; simp [validateNamed, hf, hr, hg, verr, VRes.andThen]⟩
                  | some tu =>
                    have hcf : Conforms lib m.Means tv.ts (.dec d) := validateSpec_sound n _ _ (.atom (by simp) (by simp)) hr
                    obtain ⟨k, hk⟩ := hs (String.ofList unit) tu.ts fun hst => hts (by
                      rw [es]; exact .unit _ _ d tv.ts tu.ts ht h2 h3 hp ⟨tv, hf, rfl⟩ hcf ⟨tu, hg, rfl⟩ hst)
                    refine ⟨max n k + 1, ?_⟩
                    rw [step]
                    simp only [validateNamed, hf, hg]
                    exact andThen_ne_none (ne_none_mono (le_max_left _ _) hn) (ne_none_mono (le_max_right _ _) hk)
        · refine ⟨1, ?_⟩
          rw [validateSpec, step_unitValue ht]
          simp only [validateUnitValue, hsp, hb, if_false]
          exact verr_ne_none _
    | _ => exact ⟨1, by rw [validateSpec, step_unitValue ht]; simp [validateUnitValue, verr]⟩
  · refine ⟨1, ?_⟩
    rw [validateSpec, step_uuid ht]
    unfold validateUUID
    cases v <;> simp only [verr, vok, ne_eq, reduceCtorEq, not_false_eq_true]
    all_goals split_ifs <;> simp
  · exact ⟨1, by rw [validateSpec, step_bytes ht]; exact vok_ne_none⟩
  · exact ⟨1, by rw [validateSpec, step_any ht]; exact vok_ne_none⟩

/-- The definitions found in the model have simple kinds. -/
def SimpleModel (m : Model) : Prop := ∀ n td, m.findType n = some td → td.ts.type ∈ MeaningfulNames ∨ td.ts.type = "Union" ∨ td.ts.type = "List"

theorem returns_step (hm : SimpleModel m) (hU : m.Means "Union" { type := "Union" }) {v : Value} (hv : Real v) (hc : ∀ x, Child x v → Real x ∧ Returns lib m x)
    (hu : ∀ s, v = .strPtr s → (∀ d, Returns lib m (.dec d)) ∧ (∀ s, Returns lib m (.str s))) : Returns lib m v := by
  have hnU : "Union" ∉ MeaningfulNames := by simp [MeaningfulNames, NumericNames]
  have hnL : "List" ∉ MeaningfulNames := by simp [MeaningfulNames, NumericNames]
  have union : ∀ ts : TypeSpec, ts.type = "Union" → Stuck lib m.Means ts v := fun ts h =>
    .self { type := "Union" } (by rw [h]; exact hnU) (by rw [h]; exact hU) h.symm
  have named : ∀ (ts : TypeSpec), ts.type ∉ MeaningfulNames → m.findType ts.type = none → ∃ n, validateSpec lib m n ts v ≠ none := fun ts ht hf => by
    obtain ⟨e, he⟩ := step_named_none (lib := lib) (r := validateSpec lib m 0) (v := v) ht hf
    exact ⟨1, by rw [validateSpec, he]; exact verr_ne_none _⟩
  have down : ∀ (ts : TypeSpec) t, ts.type ∉ MeaningfulNames → m.findType ts.type = some t → (∃ n, validateSpec lib m n t.ts v ≠ none) →
      ∃ n, validateSpec lib m n ts v ≠ none := fun ts t ht hf ⟨n, hn⟩ => ⟨n + 1, by rwa [validateSpec, step_named_some ht hf]⟩
  have list : ∀ ts : TypeSpec, ts.type = "List" → ¬ Stuck lib m.Means ts v → ∃ n, validateSpec lib m n ts v ≠ none := fun ts h hts => by
    have ht : ts.type ∉ MeaningfulNames := by rw [h]; exact hnL
    cases hf : m.findType ts.type with
    | none => exact named ts ht hf
    | some t =>
      have ht2 : ¬ Stuck lib m.Means t.ts v := fun hs => hts (.named t.ts ht ⟨t, hf, rfl⟩ hs)
      rcases hm _ _ hf with hk | hk | hk
      · exact down ts t ht hf (returns_meaningful hv hc hu _ ht2 hk)
      · exact absurd (union _ hk) ht2
      · exact absurd (.self t.ts ht ⟨t, hf, rfl⟩ (hk.trans h.symm)) hts
  intro ts hts
  by_cases ht : ts.type ∈ MeaningfulNames
  · exact returns_meaningful hv hc hu ts hts ht
  · cases hf : m.findType ts.type with
    | none => exact named ts ht hf
    | some t =>
      have ht2 : ¬ Stuck lib m.Means t.ts v := fun hs => hts (.named t.ts ht ⟨t, hf, rfl⟩ hs)
      refine down ts t ht hf ?_
      rcases hm _ _ hf with hk | hk | hk
      · exact returns_meaningful hv hc hu _ ht2 hk
      · exact absurd (union _ hk) ht2
      · exact list _ hk ht2

theorem real_child {x v : Value} (h : Child x v) (hv : Real v) : Real x := by
  cases h with
  | arr h =>
    cases hv with
    | arr h1 => exact h1 _ h
    | atom h1 _ => exact absurd rfl (h1 _)
  | obj h =>
    cases hv with
    | obj _ h1 => exact h1 _ _ h
    | atom _ h1 => exact absurd rfl (h1 _)

theorem returns_all (hm : SimpleModel m) (hU : m.Means "Union" { type := "Union" }) {v : Value} (hv : Real v) : Returns lib m v := by
  have hd : ∀ d, Returns lib m (.dec d) := fun d => returns_step hm hU (.atom (by simp) (by simp)) (by rintro x ⟨⟩) (by simp)
  have hs : ∀ s, Returns lib m (.str s) := fun s => returns_step hm hU (.atom (by simp) (by simp)) (by rintro x ⟨⟩) (by simp)
  induction h : sizeOf v using Nat.strongRecOn generalizing v with
  | _ n ih =>
    subst h
    exact returns_step hm hU hv (fun x hx => ⟨real_child hx hv, ih _ (child_size hx) (real_child hx hv) rfl⟩) (fun _ _ => ⟨hd, hs⟩)

theorem simple_model {s : Schema} (h : newModel s = .ok m) (hk : SimpleKinds s) : SimpleModel m := by
  intro n td hf
  have base : ∀ n, n ∈ BaseTypes → n ∈ MeaningfulNames ∨ n = "Union" ∨ n = "List" := fun n hn => by
    by_cases hU : n = "Union"
    · exact .inr (.inl hU)
    · exact .inl (base_meaningful hn hU)
  rcases (newModel_findType_iff h n td).1 hf with ⟨h1, h2⟩ | ⟨h1, rfl⟩
  · rcases hk td h1 with hb | hb
    · exact base _ hb
    · exact .inr (.inr hb)
  · exact base _ h1

end
end Sadl
