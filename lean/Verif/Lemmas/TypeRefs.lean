import Verif.Model.TypeRefs
import Verif.Spec.TypeRefs
import Verif.Lemmas.Valid
/-
`AllTypeRefs` and the relation `TypeLeadsTo`.
-/
namespace Sadl
open Sadl.Spec

/-- What a call goes on with: names, or types of fields. -/
def refKids (ts : TypeSpec) : List (String ⊕ TypeSpec) :=
  match ts.type with
  | "Array" => [.inl ts.items]
  | "Map" => [.inl ts.items, .inl ts.keys]
  | "Struct" => ts.fields.map (fun f => .inr f.ts)
  | "UnitValue" => [.inl ts.unit, .inl ts.value]
  | "Union" => ts.variants.map (fun v => .inl v.ts.type)
  | _ => []

def refOwn (ts : TypeSpec) (refs : GoMap Bool) : GoMap Bool :=
  match ts.type with
  | "Bool" | "Int8" | "Int16" | "Int32" | "Int64" | "Float32" | "Float64" | "Decimal" | "Bytes" | "String"
  | "Timestamp" | "UUID" => mset refs ts.type true
  | "Struct" => if ts.fields.length = 0 then mset refs "Struct" true else refs
  | _ => refs

def visitKid (m : Model) (recur : GoMap Bool → TypeSpec → Res (GoMap Bool)) (refs : GoMap Bool) : String ⊕ TypeSpec → Res (GoMap Bool)
  | .inl n => noteName m recur refs n
  | .inr ts => recur refs ts

theorem noteAll_map {α β : Type} (f : GoMap Bool → β → Res (GoMap Bool)) (g : α → β) (xs : List α) (refs : GoMap Bool) :
    noteAll f (xs.map g) refs = noteAll (fun r x => f r (g x)) xs refs := by
  induction xs generalizing refs with
  | nil => rfl
  | cons x xs ih =>
    simp only [List.map_cons, noteAll]
    split <;> simp_all

theorem noteAll_one {α : Type} (f : GoMap Bool → α → Res (GoMap Bool)) (x : α) (refs : GoMap Bool) : noteAll f [x] refs = f refs x := by
  simp only [noteAll]
  split <;> simp_all

theorem noteStep_eq (m : Model) (recur : GoMap Bool → TypeSpec → Res (GoMap Bool)) (refs : GoMap Bool) (ts : TypeSpec) :
    noteStep m recur refs ts = noteAll (visitKid m recur) (refKids ts) (refOwn ts refs) := by
  unfold noteStep
  split
  case h_14 h => simp [refKids, h, refOwn, noteAll_one, visitKid]
  case h_15 h =>
    simp only [refKids, h, refOwn]
    exact (noteAll_map (visitKid m recur) Sum.inl [ts.items, ts.keys] refs).symm
  case h_16 h =>
    simp only [refKids, h, refOwn, noteAll_map]
    split_ifs with hl
    · rw [List.eq_nil_of_length_eq_zero hl]; rfl
    · rfl
  case h_17 h =>
    simp only [refKids, h, refOwn]
    exact (noteAll_map (visitKid m recur) Sum.inl [ts.unit, ts.value] refs).symm
  case h_18 h =>
    simp only [refKids, h, refOwn, noteAll_map]
    rfl
  case h_19 => simp [refKids, refOwn, noteAll, *]
  all_goals (rename_i h; simp [refKids, h, refOwn, noteAll])

theorem refKids_ref (ts : TypeSpec) (n : String) : .inl n ∈ refKids ts ↔ TypeRefersTo ts n := by
  unfold refKids TypeRefersTo
  split <;> simp_all

theorem refKids_field (ts t : TypeSpec) : .inr t ∈ refKids ts ↔ ts.type = "Struct" ∧ ∃ f ∈ ts.fields, f.ts = t := by
  unfold refKids
  split <;> simp_all

theorem refOwn_mget (ts : TypeSpec) (refs : GoMap Bool) (k : String) :
    mget (refOwn ts refs) k = some true ↔ mget refs k = some true ∨ IsBuiltIn ts k := by
  unfold refOwn IsBuiltIn
  split
  case h_13 h =>
    rw [h]
    split_ifs with hl
    · rw [mget_mset]
      have := List.eq_nil_of_length_eq_zero hl
      by_cases hk : k = "Struct"
      · simp [hk, this]
      · simp only [hk, if_false, and_false, or_false, false_and]
        constructor
        · exact .inl
        · rintro (h | ⟨rfl, _⟩)
          · exact h
          · exact absurd rfl hk
    · have : ts.fields ≠ [] := fun h => hl (by simp [h])
      constructor
      · exact .inl
      · rintro (h | ⟨rfl, h⟩ | h)
        · exact h
        · exact absurd h (by decide)
        · exact absurd h.2.1 this
  case h_14 =>
    constructor
    · exact .inl
    · rintro (h | ⟨rfl, h⟩ | h)
      · exact h
      · simp_all
      · simp_all
  all_goals
    rename_i h
    rw [h, mget_mset]
    split_ifs with hk
    · subst hk; simp
    · constructor
      · exact .inl
      · rintro (h | ⟨rfl, _⟩ | ⟨h, _⟩)
        · exact h
        · exact absurd rfl hk
        · exact absurd h (by decide)

section
variable {s : Schema} {m : Model} (hm : newModel s = .ok m)
include hm

theorem leadsTo_iff (ts t : TypeSpec) : TypeLeadsTo s ts t ↔ ∃ k ∈ refKids ts, k = .inr t ∨ ∃ n, k = .inl n ∧ Defines s n t := by
  constructor
  · rintro (⟨n, h1, h2⟩ | ⟨f, h1, h2⟩)
    · exact ⟨.inl n, (refKids_ref ts n).2 h1, .inr ⟨n, rfl, h2⟩⟩
    · exact ⟨.inr f.ts, (refKids_field ts _).2 ⟨h1, f, h2, rfl⟩, .inl rfl⟩
  · rintro ⟨k, h, rfl | ⟨n, rfl, hd⟩⟩
    · obtain ⟨h1, f, h2, rfl⟩ := (refKids_field ts _).1 h
      exact .field f h1 h2
    · exact .ref n ((refKids_ref ts n).1 h) hd

/-- What one returning call says. -/
def Noted (s : Schema) (refs r : GoMap Bool) (ts : TypeSpec) : Prop :=
  Grounded s ts ∧ ∀ k, mget r k = some true ↔ mget refs k = some true ∨ ∃ t, Relation.ReflTransGen (TypeLeadsTo s) ts t ∧ IsBuiltIn t k

theorem visitAll_sound {fuel : Nat} (ih : ∀ refs ts r, noteTypeRefs m fuel refs ts = some (.ok r) → Noted s refs r ts) :
    ∀ (ks : List (String ⊕ TypeSpec)) (refs r : GoMap Bool), noteAll (visitKid m (noteTypeRefs m fuel)) ks refs = some (.ok r) →
      (∀ n, .inl n ∈ ks → ∃ t, Defines s n t) ∧
      (∀ t, (∃ k ∈ ks, k = .inr t ∨ ∃ n, k = .inl n ∧ Defines s n t) → Grounded s t) ∧
      ∀ k, mget r k = some true ↔ mget refs k = some true ∨
        ∃ t, (∃ k ∈ ks, k = .inr t ∨ ∃ n, k = .inl n ∧ Defines s n t) ∧ ∃ u, Relation.ReflTransGen (TypeLeadsTo s) t u ∧ IsBuiltIn u k := by
  intro ks
  induction ks with
  | nil =>
    intro refs r h
    simp only [noteAll, Option.some.injEq, Out.ok.injEq] at h
    subst h
    simp
  | cons k ks ihk =>
    intro refs r h
    unfold noteAll at h
    split at h
    · next r1 h1 =>
      obtain ⟨a1, a2, a3⟩ := ihk _ _ h
      have key : (∀ n, k = .inl n → ∃ t, Defines s n t) ∧ (∀ t, (k = .inr t ∨ ∃ n, k = .inl n ∧ Defines s n t) → Noted s refs r1 t) ∧
          ∃ t, (k = .inr t ∨ ∃ n, k = .inl n ∧ Defines s n t) := by
        cases k with
        | inr t =>
          refine ⟨by simp, ?_, t, .inl rfl⟩
          rintro t' (h' | ⟨n, h', _⟩)
          · cases h'; exact ih _ _ _ h1
          · cases h'
        | inl n =>
          simp only [visitKid, noteName] at h1
          cases hf : m.findType n with
          | none => rw [hf] at h1; cases h1
          | some td =>
            rw [hf] at h1
            have hd := findType_defines hm hf
            refine ⟨by rintro n' h'; cases h'; exact ⟨_, hd⟩, ?_, td.ts, .inr ⟨n, rfl, hd⟩⟩
            rintro t' (h' | ⟨n', h', hd'⟩)
            · cases h'
            · cases h'; rw [defines_unique hm hd' hd]; exact ih _ _ _ h1
      obtain ⟨k1, k2, t0, k3⟩ := key
      have uniq : ∀ t, (k = .inr t ∨ ∃ n, k = .inl n ∧ Defines s n t) → t = t0 := by
        rintro t (rfl | ⟨n, rfl, hd⟩)
        · rcases k3 with h' | ⟨n, h', _⟩
          · cases h'; rfl
          · cases h'
        · rcases k3 with h' | ⟨n, h', hd'⟩
          · cases h'
          · cases h'; exact defines_unique hm hd hd'
      refine ⟨?_, ?_, ?_⟩
      · intro n hn
        rcases List.mem_cons.1 hn with h' | h'
        · exact k1 n h'.symm
        · exact a1 n h'
      · rintro t ⟨k', hk', hh⟩
        rcases List.mem_cons.1 hk' with rfl | h'
        · exact (k2 t hh).1
        · exact a2 t ⟨k', h', hh⟩
      · intro x
        rw [a3 x, (k2 t0 k3).2 x]
        constructor
        · rintro ((h' | h') | ⟨t, ⟨k', hk', hh⟩, hu⟩)
          · exact .inl h'
          · exact .inr ⟨t0, ⟨k, List.mem_cons_self, k3⟩, h'⟩
          · exact .inr ⟨t, ⟨k', List.mem_cons_of_mem _ hk', hh⟩, hu⟩
        · rintro (h' | ⟨t, ⟨k', hk', hh⟩, hu⟩)
          · exact .inl (.inl h')
          · rcases List.mem_cons.1 hk' with rfl | h'
            · rw [uniq t hh] at hu; exact .inl (.inr hu)
            · exact .inr ⟨t, ⟨k', h', hh⟩, hu⟩
    · next hne => exact absurd h (by rintro h'; exact hne r h')

theorem note_sound : ∀ (fuel : Nat) (refs : GoMap Bool) (ts : TypeSpec) (r : GoMap Bool),
    noteTypeRefs m fuel refs ts = some (.ok r) → Noted s refs r ts := by
  intro fuel
  induction fuel with
  | zero => intro refs ts r h; cases h
  | succ fuel ih =>
    intro refs ts r h
    rw [noteTypeRefs, noteStep_eq] at h
    obtain ⟨h1, h2, h3⟩ := visitAll_sound hm ih _ _ _ h
    refine ⟨.mk (fun n hn => h1 n ((refKids_ref ts n).2 hn)) (fun t ht => h2 t ((leadsTo_iff hm ts t).1 ht)), fun k => ?_⟩
    rw [h3 k, refOwn_mget]
    constructor
    · rintro ((h' | h') | ⟨t, ht, u, hu, hb⟩)
      · exact .inl h'
      · exact .inr ⟨ts, .refl, h'⟩
      · exact .inr ⟨u, .head ((leadsTo_iff hm ts t).2 ht) hu, hb⟩
    · rintro (h' | ⟨u, hu, hb⟩)
      · exact .inl (.inl h')
      · rcases Relation.ReflTransGen.cases_head hu with rfl | ⟨t, ht, hu⟩
        · exact .inl (.inr hb)
        · exact .inr ⟨t, (leadsTo_iff hm ts t).1 ht, u, hu, hb⟩

omit hm in
theorem noteAll_returns {α : Type} (f : Nat → GoMap Bool → α → Res (GoMap Bool)) (xs : List α)
    (h : ∀ x ∈ xs, ∃ n, ∀ fuel, n ≤ fuel → ∀ refs, ∃ r, f fuel refs x = some (.ok r)) :
    ∃ n, ∀ fuel, n ≤ fuel → ∀ refs, ∃ r, noteAll (f fuel) xs refs = some (.ok r) := by
  induction xs with
  | nil => exact ⟨0, fun _ _ refs => ⟨refs, rfl⟩⟩
  | cons x xs ih =>
    obtain ⟨n1, h1⟩ := h x List.mem_cons_self
    obtain ⟨n2, h2⟩ := ih (fun y hy => h y (List.mem_cons_of_mem _ hy))
    refine ⟨max n1 n2, fun fuel hf refs => ?_⟩
    obtain ⟨r1, e1⟩ := h1 fuel (le_trans (le_max_left _ _) hf) refs
    obtain ⟨r2, e2⟩ := h2 fuel (le_trans (le_max_right _ _) hf) r1
    exact ⟨r2, by simp only [noteAll, e1, e2]⟩

theorem note_returns {ts : TypeSpec} (h : Grounded s ts) :
    ∃ n, ∀ fuel, n ≤ fuel → ∀ refs, ∃ r, noteTypeRefs m fuel refs ts = some (.ok r) := by
  induction h with
  | @mk ts h1 h2 ih =>
    obtain ⟨n, hn⟩ := noteAll_returns (fun fuel => visitKid m (noteTypeRefs m fuel)) (refKids ts) (by
      intro k hk
      cases k with
      | inl nm =>
        obtain ⟨t, ht⟩ := h1 nm ((refKids_ref ts nm).1 hk)
        obtain ⟨td, hf, rfl⟩ := findType_of_defines hm ht
        obtain ⟨n, hn⟩ := ih td.ts ((leadsTo_iff hm ts _).2 ⟨_, hk, .inr ⟨nm, rfl, ht⟩⟩)
        exact ⟨n, fun fuel hl refs => by simpa only [visitKid, noteName, hf] using hn fuel hl refs⟩
      | inr t => exact ih t ((leadsTo_iff hm ts t).2 ⟨_, hk, .inl rfl⟩))
    refine ⟨n + 1, fun fuel hl refs => ?_⟩
    obtain ⟨f, rfl⟩ : ∃ f, fuel = f + 1 := ⟨fuel - 1, by omega⟩
    obtain ⟨r, hr⟩ := hn f (by omega) (refOwn ts refs)
    exact ⟨r, by rw [noteTypeRefs, noteStep_eq]; exact hr⟩

omit hm in
theorem noteAll_each {f : GoMap Bool → TypeDef → Res (GoMap Bool)} {P : GoMap Bool → GoMap Bool → TypeDef → Prop}
    (hf : ∀ refs td r, f refs td = some (.ok r) → P refs r td) {Q : TypeDef → String → Prop} {G : TypeDef → Prop}
    (hP : ∀ refs r td, P refs r td → G td ∧ ∀ k, mget r k = some true ↔ mget refs k = some true ∨ Q td k) :
    ∀ (xs : List TypeDef) (refs r : GoMap Bool), noteAll f xs refs = some (.ok r) →
      (∀ td ∈ xs, G td) ∧ ∀ k, mget r k = some true ↔ mget refs k = some true ∨ ∃ td ∈ xs, Q td k := by
  intro xs
  induction xs with
  | nil => intro refs r h; cases h; simp
  | cons x xs ih =>
    intro refs r h
    unfold noteAll at h
    split at h
    · next r1 h1 =>
      obtain ⟨a1, a2⟩ := ih _ _ h
      obtain ⟨b1, b2⟩ := hP _ _ _ (hf _ _ _ h1)
      refine ⟨by simpa using ⟨b1, a1⟩, fun k => ?_⟩
      rw [a2 k, b2 k]
      simp [or_assoc]
    · next hne => exact absurd h (by rintro h'; exact hne r h')
end

end Sadl
