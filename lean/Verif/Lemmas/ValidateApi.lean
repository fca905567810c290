import Verif.Lemmas.ValidateTerm
namespace Sadl
open Spec

theorem means_eq_defines {s : Schema} {m : Model} (h : newModel s = .ok m) : m.Means = Defines s := by
  funext n ts
  apply propext
  unfold Model.Means Defines
  constructor
  · rintro ⟨td, hf, rfl⟩
    rcases (newModel_findType_iff h n td).1 hf with ⟨h1, h2⟩ | ⟨h1, rfl⟩
    · exact Or.inl ⟨td, h1, h2, rfl⟩
    · exact Or.inr ⟨h1, rfl⟩
  · rintro (⟨td, h1, h2, rfl⟩ | ⟨h1, rfl⟩)
    · exact ⟨td, (newModel_findType_iff h n td).2 (Or.inl ⟨h1, h2⟩), rfl⟩
    · exact ⟨baseTypeDef n, (newModel_findType_iff h n _).2 (Or.inr ⟨h1, rfl⟩), rfl⟩

theorem validate_leq {lib : Lib} {m : Model} {n n' : Nat} (h : n ≤ n') (name : String) (v : Value) :
    Leq (validate lib m n name v) (validate lib m n' name v) := by
  unfold validate validateNamed
  cases m.findType name with
  | none => exact Leq.refl _
  | some td => exact validateSpec_mono h _ _

theorem validate_agree {lib : Lib} {m : Model} {n n' : Nat} {name : String} {v : Value} {a b : Except String Unit}
    (h : validate lib m n name v = some a) (h' : validate lib m n' name v = some b) : a = b := by
  rcases Nat.le_total n n' with hn | hn
  · rcases validate_leq (lib := lib) (m := m) hn name v with e | e
    · rw [h] at e; cases e
    · rw [h, h'] at e; injection e
  · rcases validate_leq (lib := lib) (m := m) hn name v with e | e
    · rw [h'] at e; cases e
    · rw [h, h'] at e; injection e with e; exact e.symm

theorem accepts_iff {lib : Lib} {m : Model} {name : String} {v : Value} :
    Accepts lib m name v ↔ ∃ ts, m.Means name ts ∧ ∃ n, validateSpec lib m n ts v = vok := by
  unfold Accepts validate
  constructor
  · rintro ⟨n, hn⟩
    obtain ⟨t, h1, h2⟩ := validateNamed_vok.1 hn
    exact ⟨t, h1, n, h2⟩
  · rintro ⟨t, h1, n, h2⟩
    exact ⟨n, validateNamed_vok.2 ⟨t, h1, h2⟩⟩

theorem accepts_conforms {lib : Lib} {s : Schema} {m : Model} (h : newModel s = .ok m) {name : String} {v : Value}
    (hv : Real v) : Accepts lib m name v ↔ ∃ ts, Defines s name ts ∧ Conforms lib (Defines s) ts v := by
  rw [accepts_iff, ← means_eq_defines h]
  constructor
  · rintro ⟨ts, h1, n, h2⟩
    exact ⟨ts, h1, validateSpec_sound n ts v hv h2⟩
  · rintro ⟨ts, h1, h2⟩
    exact ⟨ts, h1, validateSpec_complete h2⟩

theorem defines_unique {s : Schema} {m : Model} (h : newModel s = .ok m) {n : String} {a b : TypeSpec}
    (ha : Defines s n a) (hb : Defines s n b) : a = b := by
  rw [← means_eq_defines h] at ha hb
  obtain ⟨td, h1, rfl⟩ := ha
  obtain ⟨td', h2, rfl⟩ := hb
  rw [h1] at h2; cases h2; rfl

/-- Acceptance by a named type, unfolded one step for a definition with a meaning of its own. -/
theorem accepts_step {lib : Lib} {s : Schema} {m : Model} (h : newModel s = .ok m) {name : String} {ts : TypeSpec}
    (hd : Defines s name ts) {v : Value} :
    Accepts lib m name v ↔ ∃ n, validateStep lib m (validateSpec lib m n) ts v = vok := by
  rw [accepts_iff, means_eq_defines h]
  constructor
  · rintro ⟨t, h1, n, h2⟩
    rw [defines_unique h h1 hd] at h2
    cases n with
    | zero => simp [validateSpec, vok] at h2
    | succ n => exact ⟨n, h2⟩
  · rintro ⟨n, hn⟩
    exact ⟨ts, hd, n + 1, hn⟩

end Sadl
