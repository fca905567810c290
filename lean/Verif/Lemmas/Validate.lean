import Verif.Spec.Conforms
import Verif.Lemmas.NewModel
import Verif.Lemmas.Text
namespace Sadl
open Spec

theorem andThen_vok {r k : VRes} : r.andThen k = vok ↔ r = vok ∧ k = vok := by
  unfold VRes.andThen vok
  cases r with
  | none => simp
  | some e => cases e <;> simp

theorem forEach_vok {α : Type} {f : α → VRes} {xs : List α} :
    forEach f xs = vok ↔ ∀ x ∈ xs, f x = vok := by
  induction xs with
  | nil => simp [forEach]
  | cons x r ih => simp [forEach, andThen_vok, ih]

@[simp] theorem verr_ne_vok (s : String) : verr s ≠ vok := by simp [verr, vok]
@[simp] theorem verr_eq_vok (s : String) : (verr s = vok) ↔ False := by simp [verr, vok]
@[simp] theorem verr_ne_none (s : String) : verr s ≠ none := by simp [verr]
@[simp] theorem vok_ne_none : vok ≠ none := by simp [vok]

theorem ite_verr_vok {c : Prop} [Decidable c] {e : String} {k : VRes} :
    (if c then verr e else k) = vok ↔ ¬ c ∧ k = vok := by
  split_ifs with h <;> simp [h]

theorem ite_vok_verr {c : Prop} [Decidable c] {e : String} :
    (if c then vok else verr e) = vok ↔ c := by
  split_ifs with h <;> simp [h]

/-! ### numbers -/

theorem fin_lt_iff (m e m' e' : Int) :
    BigFloat.lt (.fin m e) (.fin m' e') = true ↔ (m : ℚ) * (2 : ℚ) ^ e < (m' : ℚ) * (2 : ℚ) ^ e' := by
  have h2 : (2 : ℚ) ≠ 0 := by norm_num
  unfold BigFloat.lt
  by_cases h : e ≤ e'
  · simp only [h, if_true, decide_eq_true_eq]
    obtain ⟨k, rfl⟩ : ∃ k : Nat, e' = e + k := ⟨(e' - e).toNat, by omega⟩
    have : (e + (k : Int) - e).toNat = k := by omega
    rw [this, zpow_add₀ h2, zpow_natCast]
    have hp : (0 : ℚ) < 2 ^ e := by positivity
    rw [show (m' : ℚ) * (2 ^ e * 2 ^ k) = (m' * 2 ^ k) * 2 ^ e by ring, mul_lt_mul_iff_of_pos_right hp]
    exact_mod_cast Iff.rfl
  · simp only [h, if_false, decide_eq_true_eq]
    obtain ⟨k, rfl⟩ : ∃ k : Nat, e = e' + k := ⟨(e - e').toNat, by omega⟩
    have : (e' + (k : Int) - e').toNat = k := by omega
    rw [this, zpow_add₀ h2, zpow_natCast]
    have hp : (0 : ℚ) < 2 ^ e' := by positivity
    rw [show (m : ℚ) * (2 ^ e' * 2 ^ k) = (m * 2 ^ k) * 2 ^ e' by ring, mul_lt_mul_iff_of_pos_right hp]
    exact_mod_cast Iff.rfl

theorem lt_iff_not_le (a b : BigFloat) : BigFloat.lt a b = true ↔ ¬ NumLe b a := by
  cases a with
  | fin m e =>
    cases b with
    | fin m' e' => rw [fin_lt_iff]; simp [NumLe]
    | inf n => cases n <;> simp [BigFloat.lt, NumLe]
  | inf n =>
    cases n <;> cases b with
    | fin m' e' => simp [BigFloat.lt, NumLe]
    | inf n' => cases n' <;> simp [BigFloat.lt, NumLe]

theorem lt_false_iff_le (a b : BigFloat) : BigFloat.lt a b = false ↔ NumLe b a := by
  rw [← Bool.not_eq_true, lt_iff_not_le]; simp

theorem numberLimits_eq {td : TypeSpec} (h : td.type ∈ NumericNames) :
    numberLimits td = (td.min, td.max) := by
  have hd : ∀ (v : Option BigFloat) (n : Int), decimalValue v (.int n) = v := by
    intro v n; cases v <;> rfl
  have hd' : ∀ (v : Option BigFloat), decimalValue v .none = v := by
    intro v; cases v <;> rfl
  simp only [NumericNames, List.mem_cons, List.not_mem_nil, or_false] at h
  unfold numberLimits
  rcases h with h | h | h | h | h | h | h <;> rw [h] <;> simp [hd, hd']

theorem validateNumber_vok {td : TypeSpec} (ht : td.type ∈ NumericNames) {v : Value} :
    validateNumber td v = vok ↔ ∃ d, v = .dec d ∧ NumWithin td.min td.max d := by
  cases v with
  | dec d =>
    simp only [validateNumber, numberLimits_eq ht, Value.dec.injEq, exists_eq_left']
    have hlo : numBelow td.min d = true ↔
        ¬ (∀ k, td.min = some k → NumLe k d) := by
      unfold numBelow
      cases td.min with
      | none => simp
      | some k => simp [lt_iff_not_le]
    have hhi : numAbove td.max d = true ↔
        ¬ (∀ k, td.max = some k → NumLe d k) := by
      unfold numAbove
      cases td.max with
      | none => simp
      | some k => simp [lt_iff_not_le]
    unfold NumWithin
    rw [ite_verr_vok, ite_verr_vok, hlo, hhi]
    simp
  | _ => simp [validateNumber]

/-! ### leaves -/

theorem validateBool_vok {v : Value} :
    validateBool v = vok ↔ ∃ b, v = .bool b ∨ v = .boolPtr b := by
  cases v <;> simp [validateBool]

theorem validateEnum_vok {td : TypeSpec} {v : Value} :
    validateEnum td v = vok ↔
      ∃ s, IsText v s ∧ s ≠ "" ∧ ∃ el ∈ td.elements, el.symbol = s := by
  have key : ∀ s : String, validateEnum td (.str s) = vok ↔ s ≠ "" ∧ ∃ el ∈ td.elements, el.symbol = s := by
    intro s; simp [validateEnum, ite_vok_verr]
  cases v with
  | str s =>
    rw [key]
    constructor
    · rintro ⟨h, h'⟩; exact ⟨s, Or.inl rfl, h, h'⟩
    · rintro ⟨s', h, h'⟩
      simp only [IsText, Value.str.injEq, reduceCtorEq, or_false] at h
      subst h; exact h'
  | strPtr s =>
    rw [show validateEnum td (.strPtr s) = validateEnum td (.str s) from rfl, key]
    constructor
    · rintro ⟨h, h'⟩; exact ⟨s, Or.inr rfl, h, h'⟩
    · rintro ⟨s', h, h'⟩
      simp only [IsText, Value.strPtr.injEq, reduceCtorEq, false_or] at h
      subst h; exact h'
  | _ => simp [validateEnum, IsText]

theorem sizeLo_iff {o : Option Int} {n : Int} :
    belowMin o n = true ↔ ¬ ∀ k, o = some k → k ≤ n := by
  cases o <;> simp [belowMin]

theorem sizeHi_iff {o : Option Int} {n : Int} :
    aboveMax o n = true ↔ ¬ ∀ k, o = some k → n ≤ k := by
  cases o <;> simp [aboveMax]

theorem validateSize_vok {td : TypeSpec} {n : Nat} :
    validateSize td n = vok ↔ Within td.minSize td.maxSize n := by
  unfold validateSize Within
  rw [ite_verr_vok, ite_verr_vok, sizeHi_iff, sizeLo_iff, not_not, not_not]
  tauto

theorem validateString_text {lib : Lib} {td : TypeSpec} {v : Value} {s : String} (h : IsText v s) :
    validateString lib td v = vok ↔ StringOk lib td s := by
  have e : validateString lib td v = validateString lib td (.str s) := by
    rcases h with rfl | rfl <;> rfl
  rw [e]
  unfold validateString StringOk Within Bytes
  simp only [byteLen_eq]
  rw [ite_verr_vok, ite_verr_vok, sizeHi_iff, sizeLo_iff, not_not, not_not, ← and_assoc]
  refine and_congr Iff.rfl ?_
  cases hv : td.values with
  | some vals => simp [ite_vok_verr]
  | none =>
    by_cases hp : td.pattern = ""
    · simp [hp]
    · simp only [ne_eq, hp, not_false_eq_true, if_true]
      cases hr : lib.regexMatch td.pattern s with
      | none => simp
      | some b => cases b <;> simp

theorem validateString_vok {lib : Lib} {td : TypeSpec} {v : Value} :
    validateString lib td v = vok ↔ ∃ s, IsText v s ∧ StringOk lib td s := by
  constructor
  · intro h
    cases v with
    | str s => exact ⟨s, Or.inl rfl, (validateString_text (Or.inl rfl)).1 h⟩
    | strPtr s => exact ⟨s, Or.inr rfl, (validateString_text (Or.inr rfl)).1 h⟩
    | _ => simp [validateString] at h
  · rintro ⟨s, hs, hok⟩
    exact (validateString_text hs).2 hok

theorem validateTimestamp_vok {lib : Lib} {v : Value} :
    validateTimestamp lib v = vok ↔ v = .tsPtr ∨ ∃ s, v = .strPtr s ∧ lib.timestampOk s = true := by
  cases v <;> simp [validateTimestamp]

theorem drop_get {α : Type} {l : List α} {n : Nat} {x : α} (h : l[n]? = some x) :
    l.drop n = x :: l.drop (n + 1) := by
  obtain ⟨hn, rfl⟩ := List.getElem?_eq_some_iff.1 h
  exact List.drop_eq_getElem_cons hn

theorem uuid_shape_iff (b : List UInt8) :
    (b.length = 36 ∧ b[8]? = some 45 ∧ b[13]? = some 45 ∧ b[18]? = some 45 ∧ b[23]? = some 45) ↔
    ∃ a b' c d e : List UInt8, a.length = 8 ∧ b'.length = 4 ∧ c.length = 4 ∧ d.length = 4 ∧ e.length = 12 ∧
      b = a ++ 45 :: b' ++ 45 :: c ++ 45 :: d ++ 45 :: e := by
  constructor
  · rintro ⟨hl, h8, h13, h18, h23⟩
    refine ⟨b.take 8, (b.drop 9).take 4, (b.drop 14).take 4, (b.drop 19).take 4, b.drop 24,
      by simp [hl], by simp [hl], by simp [hl], by simp [hl], by simp [hl], ?_⟩
    have e1 : b = b.take 8 ++ b.drop 8 := (List.take_append_drop 8 b).symm
    have e2 := drop_get h8
    have e3 : b.drop 9 = (b.drop 9).take 4 ++ b.drop 13 := by
      conv_lhs => rw [← List.take_append_drop 4 (b.drop 9)]
      rw [List.drop_drop]
    have e4 := drop_get h13
    have e5 : b.drop 14 = (b.drop 14).take 4 ++ b.drop 18 := by
      conv_lhs => rw [← List.take_append_drop 4 (b.drop 14)]
      rw [List.drop_drop]
    have e6 := drop_get h18
    have e7 : b.drop 19 = (b.drop 19).take 4 ++ b.drop 23 := by
      conv_lhs => rw [← List.take_append_drop 4 (b.drop 19)]
      rw [List.drop_drop]
    have e8 := drop_get h23
    conv_lhs => rw [e1, e2, e3, e4, e5, e6, e7, e8]
    simp
  · rintro ⟨a, b', c, d, e, ha, hb, hc, hd, he, rfl⟩
    simp [List.getElem?_append, List.getElem?_cons, ha, hb, hc, hd, he]

theorem parseUUID_aux (b : List UInt8) (s : String) (hs : b.length = 36 → s ≠ "") :
    (if b.length ≠ 36 then ""
      else if b[8]? ≠ some 45 ∨ b[13]? ≠ some 45 ∨ b[18]? ≠ some 45 ∨ b[23]? ≠ some 45 then "" else s) ≠ "" ↔
    (b.length = 36 ∧ b[8]? = some 45 ∧ b[13]? = some 45 ∧ b[18]? = some 45 ∧ b[23]? = some 45) := by
  by_cases h : b.length = 36
  · have hs := hs h
    rw [if_neg (by simpa using h)]
    split_ifs with h'
    · refine iff_of_false (by simp) ?_
      tauto
    · refine iff_of_true hs ?_
      tauto
  · rw [if_pos h]
    exact iff_of_false (by simp) (fun hc => h hc.1)

theorem parseUUID_ne {s : String} : parseUUID s ≠ "" ↔ UuidShaped s := by
  unfold UuidShaped
  rw [← uuid_shape_iff]
  exact parseUUID_aux (bytesOf s.toList) s (by rintro h rfl; simp [bytesOf] at h)

theorem validateUUID_vok {v : Value} :
    validateUUID v = vok ↔ (∃ s, v = .uuid s) ∨ ∃ s, IsText v s ∧ UuidShaped s := by
  have hne : ∀ s, UuidShaped s → s ≠ "" := by
    rintro s ⟨a, b, c, d, e, ha, -, -, -, -, h⟩ rfl
    have := congrArg List.length h
    simp at this
  cases v with
  | uuid s => simp [validateUUID]
  | str s =>
    simp only [validateUUID, ite_vok_verr]
    rw [parseUUID_ne]
    simp only [reduceCtorEq, exists_false, false_or, IsText, or_false, Value.str.injEq, exists_eq_left']
    exact ⟨fun h => h.2, fun h => ⟨hne _ h, h⟩⟩
  | strPtr s =>
    simp only [validateUUID, ite_vok_verr]
    rw [parseUUID_ne]
    simp only [reduceCtorEq, exists_false, false_or, IsText, Value.strPtr.injEq, exists_eq_left']
    exact ⟨fun h => h.2, fun h => ⟨hne _ h, h⟩⟩
  | _ => simp [validateUUID, IsText]

/-! ### the dispatch -/

/-- The meaning of names in a model, as a relation. -/
def Model.Means (m : Model) (n : String) (t : TypeSpec) : Prop := ∃ td, m.findType n = some td ∧ td.ts = t

theorem validateNamed_vok {m : Model} {recur : TypeSpec → Value → VRes} {n : String} {v : Value} :
    validateNamed m recur n v = vok ↔ ∃ t, m.Means n t ∧ recur t v = vok := by
  unfold validateNamed Model.Means
  cases h : m.findType n with
  | none => simp
  | some td => simp

theorem validateStruct_vok {recur : TypeSpec → Value → VRes} {td : TypeSpec} {v : Value} :
    validateStruct recur td v = vok ↔ ∃ kvs, v = .obj kvs ∧
      (∀ k x, (k, x) ∈ kvs → ∃ f ∈ td.fields, f.name = k) ∧
      (∀ f ∈ td.fields, (∀ x, mget kvs f.name = some x → recur f.ts x = vok) ∧
        (f.required = true → mget kvs f.name ≠ none)) := by
  cases v with
  | obj kvs =>
    simp only [validateStruct, andThen_vok, forEach_vok, Value.obj.injEq, exists_eq_left']
    refine and_congr ?_ ?_
    · constructor
      · intro h k x hm
        have := h _ hm
        simp only [isStructField, ite_vok_verr, List.any_eq_true, beq_iff_eq] at this
        obtain ⟨f, hf, he⟩ := this
        exact ⟨f, hf, he.symm⟩
      · rintro h ⟨k, x⟩ hm
        obtain ⟨f, hf, he⟩ := h k x hm
        have : isStructField td k = true := by
          simp only [isStructField, List.any_eq_true, beq_iff_eq]
          exact ⟨f, hf, he.symm⟩
        simp [this]
    · refine forall₂_congr fun f _ => ?_
      cases hg : mget kvs f.name with
      | none =>
        cases hr : f.required <;> simp
      | some x => simp
  | _ => simp [validateStruct]

theorem validateArray_vok {m : Model} {recur : TypeSpec → Value → VRes} {td : TypeSpec} {v : Value} :
    validateArray m recur td v = vok ↔ ∃ xs, v = .arr xs ∧ Within td.minSize td.maxSize xs.length ∧
      (td.items = "Any" ∨ td.items ≠ "Any" ∧ ∃ t, m.Means td.items t ∧ ∀ x ∈ xs, recur t x = vok) := by
  cases v with
  | arr xs =>
    simp only [validateArray, andThen_vok, Value.arr.injEq, exists_eq_left', validateSize_vok]
    rw [and_comm]
    refine and_congr Iff.rfl ?_
    by_cases h : td.items = "Any"
    · simp [h]
    · simp only [ne_eq, h, not_false_eq_true, if_true, false_or, true_and]
      unfold Model.Means
      cases hf : m.findType td.items with
      | none => simp
      | some t => simp [forEach_vok]
  | _ => simp [validateArray]

theorem validateMap_vok {m : Model} {recur : TypeSpec → Value → VRes} {td : TypeSpec} {v : Value} :
    validateMap m recur td v = vok ↔ ∃ kvs, v = .obj kvs ∧ Within td.minSize td.maxSize kvs.length ∧
      (td.items = "Any" ∨ td.items ≠ "Any" ∧ ∃ t, m.Means td.items t ∧ ∀ k x, (k, x) ∈ kvs → recur t x = vok) := by
  cases v with
  | obj kvs =>
    simp only [validateMap, andThen_vok, Value.obj.injEq, exists_eq_left', validateSize_vok]
    rw [and_comm]
    refine and_congr Iff.rfl ?_
    by_cases h : td.items = "Any"
    · simp [h]
    · simp only [ne_eq, h, not_false_eq_true, if_true, false_or, true_and]
      unfold Model.Means
      cases hf : m.findType td.items with
      | none => simp
      | some t => simp [forEach_vok]
  | _ => simp [validateMap]

theorem validateUnitValue_vok {lib : Lib} {m : Model} {recur : TypeSpec → Value → VRes} {td : TypeSpec} {v : Value} :
    validateUnitValue lib m recur td v = vok ↔ ∃ (val unit : String) (d : BigFloat) (tv tu : TypeSpec),
      v = .strPtr (val ++ " " ++ unit) ∧ ' ' ∉ val.toList ∧ 3 ≤ Bytes val ∧
      lib.parseDecimal val = some d ∧ m.Means td.value tv ∧ recur tv (.dec d) = vok ∧
      m.Means td.unit tu ∧ recur tu (.str unit) = vok := by
  cases v with
  | strPtr s =>
    simp only [validateUnitValue]
    constructor
    · intro h
      split at h
      · rename_i val unit hs
        obtain ⟨h1, h2⟩ := splitFirst_some.1 hs
        split at h
        · rename_i hlen
          split at h
          · simp at h
          · rename_i d hd
            rw [andThen_vok, validateNamed_vok, validateNamed_vok] at h
            obtain ⟨⟨tv, a1, a2⟩, tu, b1, b2⟩ := h
            refine ⟨String.ofList val, String.ofList unit, d, tv, tu, ?_, ?_, ?_, hd, a1, a2, b1, b2⟩
            · congr 1
              rw [← String.toList_inj]
              simp [h1]
            · simpa using h2
            · unfold Bytes; rw [← byteLen_eq]; simp only [String.toList_ofList]; omega
        · simp at h
      · simp at h
    · rintro ⟨val, unit, d, tv, tu, h1, h2, h3, h4, h5, h6, h7, h8⟩
      have hs : splitFirst ' ' s.toList = some (val.toList, unit.toList) := by
        rw [splitFirst_some]
        simp only [Value.strPtr.injEq] at h1
        subst h1
        simp [h2]
      simp only [hs]
      have h3' : byteLen val.toList ≥ 3 := by
        unfold Bytes at h3; rw [byteLen_eq]; omega
      simp only [h3', if_true, String.ofList_toList, h4, andThen_vok, validateNamed_vok]
      exact ⟨⟨tv, h5, h6⟩, tu, h7, h8⟩
  | _ => simp [validateUnitValue]

/-- The `default` branch is taken for all names without a meaning of their own. -/
theorem validateStep_named {lib : Lib} {m : Model} {recur : TypeSpec → Value → VRes} {td : TypeSpec}
    {v : Value} (h : td.type ∉ MeaningfulNames) :
    validateStep lib m recur td v = validateNamed m recur td.type v ∨
      (m.findType td.type = none ∧ ∃ e, validateStep lib m recur td v = verr e) := by
  simp only [MeaningfulNames, NumericNames, List.cons_append, List.nil_append, List.mem_cons,
    List.not_mem_nil, or_false, not_or] at h
  unfold validateStep validateNamed
  split <;> try simp_all
  cases m.findType td.type <;> simp

theorem validateStep_named_vok {lib : Lib} {m : Model} {recur : TypeSpec → Value → VRes} {td : TypeSpec}
    {v : Value} (h : td.type ∉ MeaningfulNames) :
    validateStep lib m recur td v = vok ↔ ∃ t, m.Means td.type t ∧ recur t v = vok := by
  rcases validateStep_named (lib := lib) (recur := recur) (v := v) (m := m) h with h | ⟨h, e, he⟩
  · rw [h, validateNamed_vok]
  · rw [he]; simp [Model.Means, h]

end Sadl
