import Verif.Lemmas.ValidMain
/-
Validation looks at a model only through its indexes, so permuting the definitions of a
schema changes nothing.
-/
namespace Sadl
variable {lib : Lib} {m m' : Model}

theorem validateSpec_congr (ht : m.findType = m'.findType) (n : Nat) : validateSpec lib m n = validateSpec lib m' n := by
  induction n with
  | zero => funext td v; rfl
  | succ n ih =>
    funext td v
    simp only [validateSpec, ih]
    unfold validateStep validateArray validateMap validateUnitValue validateNamed
    simp only [ht]

theorem defined_congr (ht : m.findType = m'.findType) : defined m = defined m' := by
  funext n; simp only [defined, ht]

theorem checkType_congr (ht : m.findType = m'.findType) (n : Nat) : checkType lib m n = checkType lib m' n := by
  funext td
  unfold checkType checkStruct checkField checkDefault checkFieldParams checkArray checkMap checkUnitValue checkStringDef checkReference
  simp only [defined_congr ht, validateSpec_congr ht, ht]

theorem checkExample_congr (ht : m.findType = m'.findType) (hh : m.findHttp = m'.findHttp) (n : Nat) :
    checkExample lib m n = checkExample lib m' n := by
  funext ex
  unfold checkExample checkHttpResponse checkHttpExample checkMember exampleSpec
  simp only [validateSpec_congr ht, ht, hh]

theorem checkInputs_congr (ht : m.findType = m'.findType) : checkInputs m = checkInputs m' := by
  funext b body ps
  induction ps generalizing body with
  | nil => rfl
  | cons p ps ih => simp only [checkInputs, ih, defined_congr ht]

theorem checkOutputs_congr (ht : m.findType = m'.findType) : checkOutputs m = checkOutputs m' := by
  funext b body ps
  induction ps generalizing body with
  | nil => rfl
  | cons p ps ih => simp only [checkOutputs, ih, defined_congr ht]

theorem checkHttp_congr (ht : m.findType = m'.findType) : checkHttp m = checkHttp m' := by
  funext h
  unfold checkHttp
  simp only [checkInputs_congr ht, checkOutputs_congr ht, defined_congr ht]

theorem option_ext' {α : Type} {a b : Option α} (h : ∀ x, a = some x ↔ b = some x) : a = b := by
  cases a with
  | none => cases b with
    | none => rfl
    | some y => exact absurd ((h y).2 rfl) (by simp)
  | some x => exact ((h x).1 rfl).symm

theorem checkModel_perm {s s' : Schema} (h1 : newModel s = .ok m) (h2 : newModel s' = .ok m')
    (ht : s.types.Perm s'.types) (he : s.examples.Perm s'.examples) (hh : s.http.Perm s'.http) (n : Nat) :
    checkModel lib m n = rok ↔ checkModel lib m' n = rok := by
  have e1 : m.findType = m'.findType := by
    funext k
    refine option_ext' fun td => ?_
    rw [newModel_findType_iff h1, newModel_findType_iff h2, ht.mem_iff]
  have e2 : m.findHttp = m'.findHttp := by
    funext k
    refine option_ext' fun td => ?_
    rw [newModel_findHttp_iff h1, newModel_findHttp_iff h2, hh.mem_iff]
  have s1 : m.schema = s := by obtain ⟨_, _, _, rfl⟩ := (newModel_ok_iff s m).1 h1; rfl
  have s2 : m'.schema = s' := by obtain ⟨_, _, _, rfl⟩ := (newModel_ok_iff s' m').1 h2; rfl
  unfold checkModel
  rw [checkType_congr e1, checkExample_congr e1 e2, checkHttp_congr e1, s1, s2]
  simp only [andThen_rok, checkAll_rok]
  simp only [ht.mem_iff, he.mem_iff, hh.mem_iff]

theorem newModel_perm {s s' : Schema} (h1 : newModel s = .ok m) (ht : s.types.Perm s'.types) (hh : s.http.Perm s'.http) :
    ∃ m', newModel s' = .ok m' := by
  obtain ⟨a, b, c, _⟩ := (newModel_ok_iff s m).1 h1
  exact ⟨_, (newModel_ok_iff s' _).2 ⟨(ht.map _).nodup_iff.1 a, fun td h => b td (ht.mem_iff.2 h), (hh.map _).nodup_iff.1 c, rfl⟩⟩

end Sadl
