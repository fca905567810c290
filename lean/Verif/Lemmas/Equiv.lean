import Verif.Model.Equiv
import Verif.Lemmas.ValidateApi
import Mathlib.Data.List.Perm.Subperm
namespace Sadl
open Spec

/-- "same length and contained" decides "same set" for duplicate-free lists. -/
theorem sameSet_comm {α : Type} [DecidableEq α] {l1 l2 : List α} (h1 : l1.Nodup) (h2 : l2.Nodup)
    (hl : l1.length = l2.length) : l2.all (fun s => l1.contains s) = l1.all (fun s => l2.contains s) := by
  have key : ∀ {a b : List α}, b.Nodup → a.length = b.length → b.all (fun s => a.contains s) = true →
      a.all (fun s => b.contains s) = true := by
    intro a b hb hlen h
    rw [List.all_eq_true] at h ⊢
    have hsub : b ⊆ a := fun x hx => by simpa using h x hx
    have hp : b.Perm a := (hb.subperm hsub).perm_of_length_le (by omega)
    intro x hx
    simpa using hp.mem_iff.2 hx
  rw [Bool.eq_iff_iff]
  exact ⟨key h2 hl, key h1 hl.symm⟩

theorem sameSet_mem {α : Type} [DecidableEq α] {l1 l2 : List α} (h2 : l2.Nodup)
    (hl : l1.length = l2.length) (h : l2.all (fun s => l1.contains s) = true) (x : α) : x ∈ l1 ↔ x ∈ l2 := by
  rw [List.all_eq_true] at h
  have hsub : l2 ⊆ l1 := fun x hx => by simpa using h x hx
  have hp : l2.Perm l1 := (h2.subperm hsub).perm_of_length_le (by omega)
  exact hp.mem_iff.symm

theorem ptrEq_comm {α : Type} [DecidableEq α] (s : Bool) (a b : Option α) : ptrEq s a b = ptrEq s b a := by
  cases a <;> cases b <;> simp [ptrEq, eq_comm]

theorem ptrEq_eq {α : Type} [DecidableEq α] {s : Bool} {a b : Option α} (h : ptrEq s a b = true) : a = b := by
  cases a <;> cases b <;> simp_all [ptrEq]

theorem ptrEq_self {α : Type} [DecidableEq α] (a : Option α) : ptrEq true a a = true := by
  cases a <;> simp [ptrEq]

theorem andAlso_true {a b : Res Bool} : a.andAlso b = some (.ok true) ↔ a = some (.ok true) ∧ b = some (.ok true) := by
  unfold Res.andAlso
  split
  · simp
  · rename_i h; constructor
    · intro h'; exact absurd h' h
    · rintro ⟨h', _⟩; exact absurd h' h

theorem equivNames_true {m : Model} {recur : TypeSpec → TypeSpec → Res Bool} {a b : String} :
    equivNames m recur a b = some (.ok true) ↔
      a = b ∨ ∃ t1 t2, m.findType a = some t1 ∧ m.findType b = some t2 ∧ recur t1.ts t2.ts = some (.ok true) := by
  unfold equivNames
  split_ifs with h
  · simp [h]
  · cases h1 : m.findType a <;> cases h2 : m.findType b <;> simp [h]

theorem equivNames_comm {m : Model} {recur : TypeSpec → TypeSpec → Res Bool} {a b : String}
    (h : ∀ t1 t2, m.findType a = some t1 → m.findType b = some t2 → recur t1.ts t2.ts = recur t2.ts t1.ts) :
    equivNames m recur a b = equivNames m recur b a := by
  unfold equivNames
  by_cases hab : a = b
  · simp [hab]
  · rw [if_neg hab, if_neg (Ne.symm hab)]
    cases h1 : m.findType a <;> cases h2 : m.findType b <;> simp
    exact h _ _ h1 h2

/-! Equivalent specifications accept the same values, on the fragment where the code
compares everything the validator looks at. -/

/-- No constraint that the comparison overlooks: no struct fields, no maximum size, no empty list
of values, no repeated value or symbol. -/
def Compared (ts : TypeSpec) : Prop :=
  ts.fields = [] ∧ ts.maxSize = none ∧ ts.values ≠ some [] ∧ (ts.values.getD []).Nodup ∧
  (ts.elements.map (·.symbol)).Nodup

section
variable (lib : Lib) (m : Model)

def SameValues (a b : TypeSpec) : Prop := ∀ v, Conforms lib m.Means a v ↔ Conforms lib m.Means b v

def NamesAgree (a b : String) : Prop :=
  a = b ∨ ∃ t1 t2, m.Means a t1 ∧ m.Means b t2 ∧ SameValues lib m t1 t2

structure Agree (a b : TypeSpec) : Prop where
  type : a.type = b.type
  struct : a.fields = [] ∧ b.fields = []
  pattern : a.type = "String" → a.pattern = b.pattern
  hasValues : a.type = "String" → (a.values = none ↔ b.values = none)
  values : a.type = "String" → ∀ x, x ∈ a.values.getD [] ↔ x ∈ b.values.getD []
  minSize : a.type = "String" ∨ a.type = "Array" ∨ a.type = "Map" → a.minSize = b.minSize
  maxSize : a.maxSize = b.maxSize
  symbols : a.type = "Enum" → ∀ x, x ∈ a.elements.map (·.symbol) ↔ x ∈ b.elements.map (·.symbol)
  min : a.type ∈ NumericNames → a.min = b.min ∧ a.max = b.max
  items : a.type = "Array" ∨ a.type = "Map" → NamesAgree lib m a.items b.items
  unit : a.type = "UnitValue" → NamesAgree lib m a.unit b.unit ∧ NamesAgree lib m a.value b.value

variable {lib m}

theorem NamesAgree.symm {a b : String} (h : NamesAgree lib m a b) : NamesAgree lib m b a := by
  rcases h with h | ⟨t1, t2, h1, h2, h3⟩
  · exact Or.inl h.symm
  · exact Or.inr ⟨t2, t1, h2, h1, fun v => (h3 v).symm⟩

theorem Agree.symm {a b : TypeSpec} (h : Agree lib m a b) : Agree lib m b a where
  type := h.type.symm
  struct := h.struct.symm
  pattern e := (h.pattern (h.type.trans e)).symm
  hasValues e := (h.hasValues (h.type.trans e)).symm
  values e x := (h.values (h.type.trans e) x).symm
  minSize e := (h.minSize (by rwa [h.type])).symm
  maxSize := h.maxSize.symm
  symbols e x := (h.symbols (h.type.trans e) x).symm
  min e := ⟨(h.min (by rwa [h.type])).1.symm, (h.min (by rwa [h.type])).2.symm⟩
  items e := (h.items (by rwa [h.type])).symm
  unit e := ⟨(h.unit (h.type.trans e)).1.symm, (h.unit (h.type.trans e)).2.symm⟩

theorem means_fun {n : String} {a b : TypeSpec} (ha : m.Means n a) (hb : m.Means n b) : a = b := by
  obtain ⟨td, h1, rfl⟩ := ha
  obtain ⟨td', h2, rfl⟩ := hb
  rw [h1] at h2; cases h2; rfl

/-- A named type on the left may be replaced by the agreeing name on the right. -/
theorem NamesAgree.move {a b : String} (h : NamesAgree lib m a b) {t : TypeSpec} (ht : m.Means a t) :
    ∃ t', m.Means b t' ∧ ∀ v, Conforms lib m.Means t v → Conforms lib m.Means t' v := by
  rcases h with rfl | ⟨t1, t2, h1, h2, h3⟩
  · exact ⟨t, ht, fun _ h => h⟩
  · obtain rfl := means_fun ht h1
    exact ⟨t2, h2, fun v => (h3 v).1⟩

theorem Agree.conforms (hAny : m.Means "Any" { type := "Any" }) {a b : TypeSpec} (h : Agree lib m a b) {v : Value}
    (hc : Conforms lib m.Means a v) : Conforms lib m.Means b v := by
  have anyAll : ∀ t, m.Means "Any" t → ∀ v, Conforms lib m.Means t v := by
    intro t ht v
    rw [means_fun ht hAny]
    exact .any rfl
  cases hc with
  | bool x h1 h2 => exact .bool x (h.type ▸ h1) h2
  | string s h1 h2 h3 =>
    refine .string s (h.type ▸ h1) h2 ?_
    obtain ⟨h4, h5, h6⟩ := h3
    refine ⟨by rw [← h.minSize (Or.inl h1), ← h.maxSize]; exact h4, ?_, ?_⟩
    · intro vals hv
      cases ha : a.values with
      | none => rw [(h.hasValues h1).1 ha] at hv; cases hv
      | some l =>
        have := (h.values h1 s).1 (by rw [ha]; exact h5 l ha)
        rw [hv] at this; exact this
    · intro hv hp
      rw [← h.pattern h1] at hp ⊢
      exact h6 ((h.hasValues h1).2 hv) hp
  | enum s h1 h2 h3 h4 =>
    refine .enum s (h.type ▸ h1) h2 h3 ?_
    have := (h.symbols h1 s).1 (List.mem_map.2 h4)
    exact List.mem_map.1 this
  | number d h1 h2 h3 =>
    refine .number d (h.type ▸ h1) h2 ?_
    rw [← (h.min h1).1, ← (h.min h1).2]; exact h3
  | timestampPtr h1 h2 => exact .timestampPtr (h.type ▸ h1) h2
  | timestampText s h1 h2 h3 => exact .timestampText s (h.type ▸ h1) h2 h3
  | uuid s h1 h2 => exact .uuid s (h.type ▸ h1) h2
  | uuidText s h1 h2 h3 => exact .uuidText s (h.type ▸ h1) h2 h3
  | unitValue val unit d tv tu h1 h2 h3 h4 h5 h6 h7 h8 h9 =>
    obtain ⟨tu', g1, g2⟩ := (h.unit h1).1.move h8
    obtain ⟨tv', g3, g4⟩ := (h.unit h1).2.move h6
    exact .unitValue val unit d tv' tu' (h.type ▸ h1) h2 h3 h4 h5 g3 (g4 _ h7) g1 (g2 _ h9)
  | struct kvs h1 h2 h3 h4 h5 =>
    rw [h.struct.1] at h3 h4 h5
    exact .struct kvs (h.type ▸ h1) h2 (h.struct.2 ▸ h3) (h.struct.2 ▸ h4) (h.struct.2 ▸ h5)
  | arrayAny xs h1 h2 h3 h4 =>
    rw [h.minSize (Or.inr (Or.inl h1)), h.maxSize] at h4
    by_cases hb : b.items = "Any"
    · exact .arrayAny xs (h.type ▸ h1) h2 hb h4
    · have hi := h.items (Or.inl h1)
      rw [h3] at hi
      obtain ⟨t', g1, g2⟩ := hi.move hAny
      exact .arrayOf xs t' (h.type ▸ h1) h2 hb g1 (fun x _ => g2 x (.any rfl)) h4
  | arrayOf xs ti h1 h2 h3 h4 h5 h6 =>
    rw [h.minSize (Or.inr (Or.inl h1)), h.maxSize] at h6
    by_cases hb : b.items = "Any"
    · exact .arrayAny xs (h.type ▸ h1) h2 hb h6
    · obtain ⟨t', g1, g2⟩ := (h.items (Or.inl h1)).move h4
      exact .arrayOf xs t' (h.type ▸ h1) h2 hb g1 (fun x hx => g2 x (h5 x hx)) h6
  | mapAny xs h1 h2 h3 h4 =>
    rw [h.minSize (Or.inr (Or.inr h1)), h.maxSize] at h4
    by_cases hb : b.items = "Any"
    · exact .mapAny xs (h.type ▸ h1) h2 hb h4
    · have hi := h.items (Or.inr h1)
      rw [h3] at hi
      obtain ⟨t', g1, g2⟩ := hi.move hAny
      exact .mapOf xs t' (h.type ▸ h1) h2 hb g1 (fun _ x _ => g2 x (.any rfl)) h4
  | mapOf xs ti h1 h2 h3 h4 h5 h6 =>
    rw [h.minSize (Or.inr (Or.inr h1)), h.maxSize] at h6
    by_cases hb : b.items = "Any"
    · exact .mapAny xs (h.type ▸ h1) h2 hb h6
    · obtain ⟨t', g1, g2⟩ := (h.items (Or.inr h1)).move h4
      exact .mapOf xs t' (h.type ▸ h1) h2 hb g1 (fun k x hx => g2 x (h5 k x hx)) h6
  | bytes h1 => exact .bytes (h.type ▸ h1)
  | any h1 => exact .any (h.type ▸ h1)
  | named t h1 h2 h3 => exact .named t (h.type ▸ h1) (h.type ▸ h2) h3

theorem agree_of_equiv {aliased : TypeSpec → TypeSpec → Bool} {recur : TypeSpec → TypeSpec → Res Bool} {a b : TypeSpec}
    (h : equivStep m aliased recur a b = some (.ok true)) (ca : Compared a) (cb : Compared b)
    (hrec : ∀ n n' t1 t2, m.findType n = some t1 → m.findType n' = some t2 →
      recur t1.ts t2.ts = some (.ok true) → SameValues lib m t1.ts t2.ts) :
    Agree lib m a b := by
  have names : ∀ {x y : String}, equivNames m recur x y = some (.ok true) → NamesAgree lib m x y := by
    intro x y hxy
    rcases equivNames_true.1 hxy with rfl | ⟨t1, t2, h1, h2, h3⟩
    · exact Or.inl rfl
    · exact Or.inr ⟨t1.ts, t2.ts, ⟨t1, h1, rfl⟩, ⟨t2, h2, rfl⟩, hrec _ _ _ _ h1 h2 h3⟩
  obtain ⟨a1, a2, a3, a4, a5⟩ := ca
  obtain ⟨b1, b2, b3, b4, b5⟩ := cb
  have ht : a.type = b.type := by
    by_contra hne
    simp [equivStep, hne] at h
  refine ⟨ht, ⟨a1, b1⟩, ?_, ?_, ?_, ?_, a2.trans b2.symm, ?_, ?_, ?_, ?_⟩
  · intro e
    simp [equivStep, ← ht, e] at h
    exact h.1.1.1.1
  · intro e
    simp [equivStep, ← ht, e] at h
    have hl := h.1.1.2
    cases ha : a.values with
    | none =>
      cases hb : b.values with
      | none => simp
      | some l =>
        rw [ha, hb] at hl
        exact absurd (by rw [hb, (List.length_eq_zero_iff (l := l)).1 hl.symm]) b3
    | some l =>
      cases hb : b.values with
      | none =>
        rw [ha, hb] at hl
        exact absurd (by rw [ha, (List.length_eq_zero_iff (l := l)).1 hl]) a3
      | some l' => simp
  · intro e x
    simp [equivStep, ← ht, e] at h
    apply sameSet_mem b4 h.1.1.2
    rcases h.2 with h0 | h0
    · have hl := h.1.1.2
      rw [h0] at hl
      have : b.values.getD [] = [] := List.length_eq_zero_iff.1 hl.symm
      rw [this]; rfl
    · rw [List.all_eq_true]; intro y hy; simpa using h0 y hy
  · rintro (e | e | e)
    · simp [equivStep, ← ht, e] at h
      exact ptrEq_eq h.1.1.1.2
    · simp [equivStep, ← ht, e] at h
      split_ifs at h with hp
      · exact ptrEq_eq hp
      · cases h
    · simp [equivStep, ← ht, e] at h
      split_ifs at h with hp
      · exact ptrEq_eq hp
      · cases h
  · intro e x
    simp only [equivStep, ← ht, e, ne_eq, not_true_eq_false, if_false, Option.some.injEq, Out.ok.injEq,
      Bool.and_eq_true, decide_eq_true_eq] at h
    exact sameSet_mem b5 (by simpa using h.1) h.2 x
  · intro e
    simp only [NumericNames, List.mem_cons, List.not_mem_nil, or_false] at e
    rcases e with e | e | e | e | e | e | e <;>
    · simp [equivStep, ← ht, e] at h
      exact ⟨ptrEq_eq h.1, ptrEq_eq h.2⟩
  · rintro (e | e)
    · simp [equivStep, ← ht, e] at h
      split_ifs at h with hp
      · exact names (andAlso_true.1 h).1
      · cases h
    · simp [equivStep, ← ht, e] at h
      split_ifs at h with hp
      · exact names (andAlso_true.1 h).1
      · cases h
  · intro e
    simp [equivStep, ← ht, e] at h
    exact ⟨names (andAlso_true.1 h).1, names (andAlso_true.1 h).2⟩

theorem equiv_sameValues (hAny : m.Means "Any" { type := "Any" })
    (hdefs : ∀ n td, m.findType n = some td → Compared td.ts)
    {aliased : TypeSpec → TypeSpec → Bool} (fuel : Nat) (a b : TypeSpec)
    (h : equivTypes m aliased fuel a b = some (.ok true)) (ca : Compared a) (cb : Compared b) : SameValues lib m a b := by
  induction fuel generalizing a b with
  | zero => simp [equivTypes] at h
  | succ n ih =>
    have ag : Agree lib m a b := agree_of_equiv h ca cb (by
      intro n n' t1 t2 h1 h2 h3
      exact ih _ _ h3 (hdefs _ _ h1) (hdefs _ _ h2))
    exact fun v => ⟨ag.conforms hAny, ag.symm.conforms hAny⟩
end
end Sadl
