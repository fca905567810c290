import Verif.Lemmas.Validate
namespace Sadl
open Spec

section eqns
variable {lib : Lib} {m : Model} {recur : TypeSpec → Value → VRes} {td : TypeSpec} {v : Value}

theorem step_timestamp (h : td.type = "Timestamp") : validateStep lib m recur td v = validateTimestamp lib v := by
  simp [validateStep, h]
theorem step_string (h : td.type = "String") : validateStep lib m recur td v = validateString lib td v := by
  simp [validateStep, h]
theorem step_struct (h : td.type = "Struct") : validateStep lib m recur td v = validateStruct recur td v := by
  simp [validateStep, h]
theorem step_array (h : td.type = "Array") : validateStep lib m recur td v = validateArray m recur td v := by
  simp [validateStep, h]
theorem step_map (h : td.type = "Map") : validateStep lib m recur td v = validateMap m recur td v := by
  simp [validateStep, h]
theorem step_number (h : td.type ∈ NumericNames) : validateStep lib m recur td v = validateNumber td v := by
  simp only [NumericNames, List.mem_cons, List.not_mem_nil, or_false] at h
  rcases h with h | h | h | h | h | h | h <;> simp [validateStep, h]
theorem step_bool (h : td.type = "Bool") : validateStep lib m recur td v = validateBool v := by
  simp [validateStep, h]
theorem step_enum (h : td.type = "Enum") : validateStep lib m recur td v = validateEnum td v := by
  simp [validateStep, h]
theorem step_unitValue (h : td.type = "UnitValue") :
    validateStep lib m recur td v = validateUnitValue lib m recur td v := by
  simp [validateStep, h]
theorem step_uuid (h : td.type = "UUID") : validateStep lib m recur td v = validateUUID v := by
  simp [validateStep, h]
theorem step_bytes (h : td.type = "Bytes") : validateStep lib m recur td v = vok := by
  simp [validateStep, h]
theorem step_any (h : td.type = "Any") : validateStep lib m recur td v = vok := by
  simp [validateStep, h]
end eqns

theorem meaningful_cases {t : String} (h : t ∈ MeaningfulNames) :
    t ∈ NumericNames ∨ t = "Timestamp" ∨ t = "String" ∨ t = "Struct" ∨ t = "Array" ∨ t = "Map" ∨ t = "Bool" ∨
    t = "Enum" ∨ t = "UnitValue" ∨ t = "UUID" ∨ t = "Bytes" ∨ t = "Any" := by
  unfold MeaningfulNames at h
  simpa [List.mem_append] using h

/-! ### soundness -/

theorem validateSpec_sound {lib : Lib} {m : Model} (n : Nat) :
    ∀ (td : TypeSpec) (v : Value), Real v → validateSpec lib m n td v = vok → Conforms lib m.Means td v := by
  induction n with
  | zero => intro td v _ h; simp [validateSpec, vok] at h
  | succ n ih =>
    intro td v hv h
    unfold validateSpec at h
    by_cases ht : td.type ∈ MeaningfulNames
    · rcases meaningful_cases ht with ht | ht | ht | ht | ht | ht | ht | ht | ht | ht | ht | ht
      · rw [step_number ht, validateNumber_vok ht] at h
        obtain ⟨d, h1, h2⟩ := h
        exact .number d ht h1 h2
      · rw [step_timestamp ht, validateTimestamp_vok] at h
        rcases h with h | ⟨s, h1, h2⟩
        · exact .timestampPtr ht h
        · exact .timestampText s ht h1 h2
      · rw [step_string ht, validateString_vok] at h
        obtain ⟨s, h1, h2⟩ := h
        exact .string s ht h1 h2
      · rw [step_struct ht, validateStruct_vok] at h
        obtain ⟨kvs, rfl, h1, h2⟩ := h
        have hd : GoMap.Distinct kvs ∧ ∀ k x, (k, x) ∈ kvs → Real x := by
          cases hv with
          | obj a b => exact ⟨a, b⟩
          | atom a b => exact absurd rfl (b kvs)
        refine .struct kvs ht rfl h1 ?_ ?_
        · intro f hf hr
          have := (h2 f hf).2 hr
          cases hg : mget kvs f.name with
          | none => exact absurd hg this
          | some x => exact ⟨x, mget_mem hg⟩
        · intro f hf x hx
          exact ih f.ts x (hd.2 _ _ hx) ((h2 f hf).1 x (mget_of_mem hd.1 hx))
      · rw [step_array ht, validateArray_vok] at h
        obtain ⟨xs, rfl, h1, h2⟩ := h
        have hd : ∀ x ∈ xs, Real x := by
          cases hv with
          | arr a => exact a
          | atom a b => exact absurd rfl (a xs)
        rcases h2 with h2 | ⟨h2, t, h3, h4⟩
        · exact .arrayAny xs ht rfl h2 h1
        · exact .arrayOf xs t ht rfl h2 h3 (fun x hx => ih t x (hd x hx) (h4 x hx)) h1
      · rw [step_map ht, validateMap_vok] at h
        obtain ⟨kvs, rfl, h1, h2⟩ := h
        have hd : ∀ k x, (k, x) ∈ kvs → Real x := by
          cases hv with
          | obj a b => exact b
          | atom a b => exact absurd rfl (b kvs)
        rcases h2 with h2 | ⟨h2, t, h3, h4⟩
        · exact .mapAny kvs ht rfl h2 h1
        · exact .mapOf kvs t ht rfl h2 h3 (fun k x hx => ih t x (hd k x hx) (h4 k x hx)) h1
      · rw [step_bool ht, validateBool_vok] at h
        obtain ⟨b, h⟩ := h
        exact .bool b ht h
      · rw [step_enum ht, validateEnum_vok] at h
        obtain ⟨s, h1, h2, h3⟩ := h
        exact .enum s ht h1 h2 h3
      · rw [step_unitValue ht, validateUnitValue_vok] at h
        obtain ⟨val, unit, d, tv, tu, h1, h2, h3, h4, h5, h6, h7, h8⟩ := h
        have ra : ∀ d, Real (.dec d) := fun d => .atom (by simp) (by simp)
        have rb : ∀ s, Real (.str s) := fun d => .atom (by simp) (by simp)
        exact .unitValue val unit d tv tu ht h1 h2 h3 h4 h5 (ih _ _ (ra _) h6) h7 (ih _ _ (rb _) h8)
      · rw [step_uuid ht, validateUUID_vok] at h
        rcases h with ⟨s, h⟩ | ⟨s, h1, h2⟩
        · exact .uuid s ht h
        · exact .uuidText s ht h1 h2
      · exact .bytes ht
      · exact .any ht
    · rw [validateStep_named_vok ht] at h
      obtain ⟨t, h1, h2⟩ := h
      exact .named t ht h1 (ih t v hv h2)

/-! ### more fuel never changes an answer -/

def Leq (r r' : VRes) : Prop := r = none ∨ r = r'

theorem Leq.refl (r : VRes) : Leq r r := Or.inr rfl
theorem Leq.trans {a b c : VRes} (h1 : Leq a b) (h2 : Leq b c) : Leq a c := by
  rcases h1 with h1 | h1
  · exact Or.inl h1
  · subst h1; exact h2

theorem andThen_mono {a a' b b' : VRes} (h1 : Leq a a') (h2 : Leq b b') : Leq (a.andThen b) (a'.andThen b') := by
  rcases h1 with rfl | rfl
  · exact Or.inl rfl
  · cases a with
    | none => exact Or.inl rfl
    | some e => cases e with
      | error e => exact Or.inr rfl
      | ok u => exact h2

theorem forEach_mono {α : Type} {f f' : α → VRes} (xs : List α) (h : ∀ x ∈ xs, Leq (f x) (f' x)) :
    Leq (forEach f xs) (forEach f' xs) := by
  induction xs with
  | nil => exact Leq.refl _
  | cons x r ih =>
    exact andThen_mono (h x (by simp)) (ih (fun y hy => h y (by simp [hy])))

theorem validateStep_mono {lib : Lib} {m : Model} {r r' : TypeSpec → Value → VRes}
    (h : ∀ t v, Leq (r t v) (r' t v)) (td : TypeSpec) (v : Value) :
    Leq (validateStep lib m r td v) (validateStep lib m r' td v) := by
  have hN : ∀ n v, Leq (validateNamed m r n v) (validateNamed m r' n v) := by
    intro n v; unfold validateNamed
    cases m.findType n with
    | none => exact Leq.refl _
    | some t => exact h _ _
  unfold validateStep
  split <;> try exact Leq.refl _
  · unfold validateStruct
    split
    · exact andThen_mono (Leq.refl _) (forEach_mono _ fun f _ => by
        split
        · exact h _ _
        · exact Leq.refl _)
    · exact Leq.refl _
  · unfold validateArray
    split
    · refine andThen_mono ?_ (Leq.refl _)
      split
      · split
        · exact Leq.refl _
        · exact forEach_mono _ fun x _ => h _ _
      · exact Leq.refl _
    · exact Leq.refl _
  · unfold validateMap
    split
    · refine andThen_mono ?_ (Leq.refl _)
      split
      · split
        · exact Leq.refl _
        · exact forEach_mono _ fun x _ => h _ _
      · exact Leq.refl _
    · exact Leq.refl _
  · unfold validateUnitValue
    split
    · split
      · split
        · split
          · exact Leq.refl _
          · exact andThen_mono (hN _ _) (hN _ _)
        · exact Leq.refl _
      · exact Leq.refl _
    · exact Leq.refl _
  · split
    · exact Leq.refl _
    · exact h _ _

theorem validateSpec_succ {lib : Lib} {m : Model} (n : Nat) (td : TypeSpec) (v : Value) :
    Leq (validateSpec lib m n td v) (validateSpec lib m (n + 1) td v) := by
  induction n generalizing td v with
  | zero => exact Or.inl rfl
  | succ n ih => exact validateStep_mono (fun t v => ih t v) td v

theorem validateSpec_mono {lib : Lib} {m : Model} {n n' : Nat} (h : n ≤ n') (td : TypeSpec) (v : Value) :
    Leq (validateSpec lib m n td v) (validateSpec lib m n' td v) := by
  induction h with
  | refl => exact Leq.refl _
  | step _ ih => exact ih.trans (validateSpec_succ _ _ _)

theorem validateSpec_vok_mono {lib : Lib} {m : Model} {n n' : Nat} (h : n ≤ n') {td : TypeSpec} {v : Value}
    (hv : validateSpec lib m n td v = vok) : validateSpec lib m n' td v = vok := by
  rcases validateSpec_mono (lib := lib) (m := m) h td v with h' | h'
  · rw [hv] at h'; simp at h'
  · rw [← h', hv]

/-- Finitely many witnesses have a common bound. -/
theorem common_bound {α : Type} (xs : List α) (P : α → Nat → Prop)
    (hmono : ∀ x n n', n ≤ n' → P x n → P x n') (h : ∀ x ∈ xs, ∃ n, P x n) :
    ∃ n, ∀ x ∈ xs, P x n := by
  induction xs with
  | nil => exact ⟨0, by simp⟩
  | cons x r ih =>
    obtain ⟨n1, h1⟩ := h x (by simp)
    obtain ⟨n2, h2⟩ := ih (fun y hy => h y (by simp [hy]))
    refine ⟨max n1 n2, ?_⟩
    intro y hy
    rcases List.mem_cons.1 hy with rfl | hy
    · exact hmono _ _ _ (le_max_left _ _) h1
    · exact hmono _ _ _ (le_max_right _ _) (h2 y hy)

/-! ### completeness -/

theorem validateSpec_complete {lib : Lib} {m : Model} {td : TypeSpec} {v : Value}
    (h : Conforms lib m.Means td v) : ∃ n, validateSpec lib m n td v = vok := by
  induction h with
  | bool b ht h => exact ⟨1, by rw [validateSpec, step_bool ht, validateBool_vok]; exact ⟨b, h⟩⟩
  | string s ht h1 h2 => exact ⟨1, by rw [validateSpec, step_string ht, validateString_vok]; exact ⟨s, h1, h2⟩⟩
  | enum s ht h1 h2 h3 => exact ⟨1, by rw [validateSpec, step_enum ht, validateEnum_vok]; exact ⟨s, h1, h2, h3⟩⟩
  | number d ht h1 h2 => exact ⟨1, by rw [validateSpec, step_number ht, validateNumber_vok ht]; exact ⟨d, h1, h2⟩⟩
  | timestampPtr ht h => exact ⟨1, by rw [validateSpec, step_timestamp ht, validateTimestamp_vok]; exact Or.inl h⟩
  | timestampText s ht h1 h2 =>
    exact ⟨1, by rw [validateSpec, step_timestamp ht, validateTimestamp_vok]; exact Or.inr ⟨s, h1, h2⟩⟩
  | uuid s ht h => exact ⟨1, by rw [validateSpec, step_uuid ht, validateUUID_vok]; exact Or.inl ⟨s, h⟩⟩
  | uuidText s ht h1 h2 =>
    exact ⟨1, by rw [validateSpec, step_uuid ht, validateUUID_vok]; exact Or.inr ⟨s, h1, h2⟩⟩
  | unitValue val unit d tv tu ht h1 h2 h3 h4 h5 _ h7 _ ih1 ih2 =>
    obtain ⟨n1, ih1⟩ := ih1
    obtain ⟨n2, ih2⟩ := ih2
    refine ⟨max n1 n2 + 1, ?_⟩
    rw [validateSpec, step_unitValue ht, validateUnitValue_vok]
    exact ⟨val, unit, d, tv, tu, h1, h2, h3, h4, h5, validateSpec_vok_mono (le_max_left _ _) ih1, h7,
      validateSpec_vok_mono (le_max_right _ _) ih2⟩
  | @struct ts v kvs ht h1 h2 h3 h4 ih =>
    have key := common_bound ts.fields
      (fun f n => ∀ x, mget kvs f.name = some x → validateSpec lib m n f.ts x = vok)
      (fun f n n' hn hP x hx => validateSpec_vok_mono hn (hP x hx))
      (fun f hf => by
        cases hg : mget kvs f.name with
        | none => exact ⟨0, by simp⟩
        | some x =>
          obtain ⟨n, hn⟩ := ih f hf x (mget_mem hg)
          exact ⟨n, by rintro y hy; cases hy; exact hn⟩)
    obtain ⟨n, hn⟩ := key
    refine ⟨n + 1, ?_⟩
    rw [validateSpec, step_struct ht, validateStruct_vok]
    refine ⟨kvs, h1, h2, fun f hf => ⟨hn f hf, ?_⟩⟩
    intro hr hnone
    obtain ⟨x, hx⟩ := h3 f hf hr
    rw [mget_none_iff] at hnone
    exact hnone (List.mem_map.2 ⟨_, hx, rfl⟩)
  | arrayAny xs ht h1 h2 h3 =>
    exact ⟨1, by rw [validateSpec, step_array ht, validateArray_vok]; exact ⟨xs, h1, h3, Or.inl h2⟩⟩
  | arrayOf xs ti ht h1 h2 h3 _ h5 ih =>
    obtain ⟨n, hn⟩ := common_bound xs (fun x n => validateSpec lib m n ti x = vok)
      (fun x n n' hn hP => validateSpec_vok_mono hn hP) ih
    refine ⟨n + 1, ?_⟩
    rw [validateSpec, step_array ht, validateArray_vok]
    exact ⟨xs, h1, h5, Or.inr ⟨h2, ti, h3, hn⟩⟩
  | mapAny kvs ht h1 h2 h3 =>
    exact ⟨1, by rw [validateSpec, step_map ht, validateMap_vok]; exact ⟨kvs, h1, h3, Or.inl h2⟩⟩
  | mapOf kvs ti ht h1 h2 h3 _ h5 ih =>
    obtain ⟨n, hn⟩ := common_bound kvs (fun kv n => validateSpec lib m n ti kv.2 = vok)
      (fun x n n' hn hP => validateSpec_vok_mono hn hP) (fun kv hkv => ih kv.1 kv.2 hkv)
    refine ⟨n + 1, ?_⟩
    rw [validateSpec, step_map ht, validateMap_vok]
    exact ⟨kvs, h1, h5, Or.inr ⟨h2, ti, h3, fun k x hx => hn (k, x) hx⟩⟩
  | bytes ht => exact ⟨1, by rw [validateSpec, step_bytes ht]⟩
  | any ht => exact ⟨1, by rw [validateSpec, step_any ht]⟩
  | named t ht h1 _ ih =>
    obtain ⟨n, hn⟩ := ih
    refine ⟨n + 1, ?_⟩
    rw [validateSpec, validateStep_named_vok ht]
    exact ⟨t, h1, hn⟩

/-! ### key order -/

theorem reordered_real {v w : Value} (h : Reordered v w) (hv : Real v) : Real w := by
  induction h with
  | same v => exact hv
  | arr hl _ ih =>
    rename_i xs ys _
    have hx : ∀ x ∈ xs, Real x := by
      cases hv with
      | arr a => exact a
      | atom a b => exact absurd rfl (a xs)
    refine .arr fun y hy => ?_
    obtain ⟨i, hi, rfl⟩ := List.getElem_of_mem hy
    have hi' : i < xs.length := by omega
    exact ih i xs[i] ys[i] (List.getElem?_eq_getElem hi') (List.getElem?_eq_getElem hi)
      (hx _ (List.getElem_mem hi'))
  | obj hp _ ih =>
    rename_i kvs kws _
    have hx : (kvs.map Prod.fst).Nodup ∧ ∀ k x, (k, x) ∈ kvs → Real x := by
      cases hv with
      | obj a b => exact ⟨a, b⟩
      | atom a b => exact absurd rfl (b kvs)
    refine .obj (hp.nodup_iff.1 hx.1) fun k y hy => ?_
    have : k ∈ kvs.map Prod.fst := hp.mem_iff.2 (List.mem_map.2 ⟨_, hy, rfl⟩)
    obtain ⟨⟨k', x⟩, hx', rfl⟩ := List.mem_map.1 this
    exact ih k' x y hx' hy (hx.2 _ _ hx')

theorem validateSpec_reordered {lib : Lib} {m : Model} (n : Nat) :
    ∀ {v w : Value}, Reordered v w → Real v → ∀ td : TypeSpec,
      validateSpec lib m n td v = vok → validateSpec lib m n td w = vok := by
  induction n with
  | zero => intro v w _ _ td h; simp [validateSpec, vok] at h
  | succ n ih =>
    intro v w hvw hv td h
    cases hvw with
    | same => exact h
    | @arr xs ys hl hxy =>
      have hx : ∀ x ∈ xs, Real x := by
        cases hv with
        | arr a => exact a
        | atom a b => exact absurd rfl (a xs)
      have key : ∀ t, (∀ x ∈ xs, validateSpec lib m n t x = vok) → ∀ y ∈ ys, validateSpec lib m n t y = vok := by
        intro t ht y hy
        obtain ⟨i, hi, rfl⟩ := List.getElem_of_mem hy
        have hi' : i < xs.length := by omega
        exact ih (hxy i xs[i] ys[i] (List.getElem?_eq_getElem hi') (List.getElem?_eq_getElem hi))
          (hx _ (List.getElem_mem hi')) t (ht _ (List.getElem_mem hi'))
      unfold validateSpec at h ⊢
      by_cases ht : td.type ∈ MeaningfulNames
      · rcases meaningful_cases ht with ht | ht | ht | ht | ht | ht | ht | ht | ht | ht | ht | ht
        · rw [step_number ht] at h; simp [validateNumber] at h
        · rw [step_timestamp ht] at h; simp [validateTimestamp] at h
        · rw [step_string ht] at h; simp [validateString] at h
        · rw [step_struct ht] at h; simp [validateStruct] at h
        · rw [step_array ht, validateArray_vok] at h ⊢
          obtain ⟨xs', h1, h2, h3⟩ := h
          cases h1
          refine ⟨ys, rfl, hl ▸ h2, ?_⟩
          rcases h3 with h3 | ⟨h3, t, h4, h5⟩
          · exact Or.inl h3
          · exact Or.inr ⟨h3, t, h4, key t h5⟩
        · rw [step_map ht] at h; simp [validateMap] at h
        · rw [step_bool ht] at h; simp [validateBool] at h
        · rw [step_enum ht] at h; simp [validateEnum] at h
        · rw [step_unitValue ht] at h; simp [validateUnitValue] at h
        · rw [step_uuid ht] at h; simp [validateUUID] at h
        · rw [step_bytes ht]
        · rw [step_any ht]
      · rw [validateStep_named_vok ht] at h ⊢
        obtain ⟨t, h1, h2⟩ := h
        exact ⟨t, h1, ih (.arr hl hxy) hv t h2⟩
    | @obj kvs kws hp hxy =>
      have hx : (kvs.map Prod.fst).Nodup ∧ ∀ k x, (k, x) ∈ kvs → Real x := by
        cases hv with
        | obj a b => exact ⟨a, b⟩
        | atom a b => exact absurd rfl (b kvs)
      have hw : GoMap.Distinct kws := hp.nodup_iff.1 hx.1
      have hlen : kvs.length = kws.length := by simpa using hp.length_eq
      have hkey : ∀ {k y}, (k, y) ∈ kws → ∃ x, (k, x) ∈ kvs := by
        intro k y hy
        have : k ∈ kvs.map Prod.fst := hp.mem_iff.2 (List.mem_map.2 ⟨_, hy, rfl⟩)
        obtain ⟨⟨k', x⟩, hx', rfl⟩ := List.mem_map.1 this
        exact ⟨x, hx'⟩
      unfold validateSpec at h ⊢
      by_cases ht : td.type ∈ MeaningfulNames
      · rcases meaningful_cases ht with ht | ht | ht | ht | ht | ht | ht | ht | ht | ht | ht | ht
        · rw [step_number ht] at h; simp [validateNumber] at h
        · rw [step_timestamp ht] at h; simp [validateTimestamp] at h
        · rw [step_string ht] at h; simp [validateString] at h
        · rw [step_struct ht, validateStruct_vok] at h ⊢
          obtain ⟨kvs', h0, h1, h2⟩ := h
          cases h0
          refine ⟨kws, rfl, ?_, ?_⟩
          · intro k y hy
            obtain ⟨x, hx'⟩ := hkey hy
            exact h1 k x hx'
          · intro f hf
            constructor
            · intro y hy
              have hy := mget_mem hy
              obtain ⟨x, hx'⟩ := hkey hy
              exact ih (hxy _ x y hx' hy) (hx.2 _ _ hx') _ ((h2 f hf).1 x (mget_of_mem hx.1 hx'))
            · intro hr hnone
              apply (h2 f hf).2 hr
              rw [mget_none_iff] at hnone ⊢
              exact fun hc => hnone (hp.mem_iff.1 hc)
        · rw [step_array ht] at h; simp [validateArray] at h
        · rw [step_map ht, validateMap_vok] at h ⊢
          obtain ⟨xs', h1, h2, h3⟩ := h
          cases h1
          refine ⟨kws, rfl, hlen ▸ h2, ?_⟩
          rcases h3 with h3 | ⟨h3, t, h4, h5⟩
          · exact Or.inl h3
          · refine Or.inr ⟨h3, t, h4, fun k y hy => ?_⟩
            obtain ⟨x, hx'⟩ := hkey hy
            exact ih (hxy _ x y hx' hy) (hx.2 _ _ hx') _ (h5 k x hx')
        · rw [step_bool ht] at h; simp [validateBool] at h
        · rw [step_enum ht] at h; simp [validateEnum] at h
        · rw [step_unitValue ht] at h; simp [validateUnitValue] at h
        · rw [step_uuid ht] at h; simp [validateUUID] at h
        · rw [step_bytes ht]
        · rw [step_any ht]
      · rw [validateStep_named_vok ht] at h ⊢
        obtain ⟨t, h1, h2⟩ := h
        exact ⟨t, h1, ih (.obj hp hxy) hv t h2⟩

theorem reordered_symm {v w : Value} (h : Reordered v w) : Reordered w v := by
  induction h with
  | same v => exact .same v
  | arr hl _ ih => exact .arr hl.symm fun i x y hx hy => ih i y x hy hx
  | obj hp _ ih => exact .obj hp.symm fun k x y hx hy => ih k y x hy hx

end Sadl
