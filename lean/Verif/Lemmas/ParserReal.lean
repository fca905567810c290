import Verif.Lemmas.ParserPost
import Verif.Spec.Valid
/-
The values written in a parsed source are real: their objects have distinct keys.
-/
namespace Sadl
open Spec

theorem mem_mset {α : Type} {m : GoMap α} {k k' : String} {v v' : α} (h : (k', v') ∈ mset m k v) :
    (k', v') = (k, v) ∨ (k', v') ∈ m := by
  induction m with
  | nil => simp only [mset, List.mem_singleton] at h; exact .inl h
  | cons p r ih =>
    unfold mset at h
    split_ifs at h with hk
    · rcases List.mem_cons.1 h with h | h
      · exact .inl (by rw [h]; simpa using hk)
      · exact .inr (List.mem_cons_of_mem _ h)
    · rcases List.mem_cons.1 h with h | h
      · exact .inr (by rw [h]; simp)
      · rcases ih h with h | h
        · exact .inl h
        · exact .inr (List.mem_cons_of_mem _ h)

theorem real_atom_of {v : Value} (h1 : ∀ xs, v ≠ .arr xs) (h2 : ∀ kvs, v ≠ .obj kvs) : Real v := .atom h1 h2

theorem ret_parseLiteralN (lib : PLib) (n : Nat) : ∀ tok, Ret (parseLiteralN lib n tok) Real := by
  induction n with
  | zero => intro tok; exact ret_hang
  | succ n ih =>
    intro tok
    unfold parseLiteralN literalStep
    split
    · split
      · exact ret_pure (.atom (by simp) (by simp))
      · exact ret_pure (.atom (by simp) (by simp))
      · exact ret_pure (.atom (by simp) (by simp))
      · exact ret_fail
    · exact ret_bind' (fun q => ret_pure (.atom (by simp) (by simp)))
    · split
      · exact ret_pure (.atom (by simp) (by simp))
      · exact ret_fail
    · refine ret_loop (I := fun ary => ∀ x ∈ ary, Real x) (by simp) ?_
      intro ary hary
      unfold arrayStep
      refine ret_bind' (fun t => ?_)
      refine ret_ite (fun _ => ?_) (fun _ => ret_pure hary)
      refine ret_ite (fun _ => ret_pure (.arr hary)) (fun _ => ?_)
      refine ret_ite (fun _ => ?_) (fun _ => ret_pure hary)
      exact ret_bind (ih t) (fun v hv => ret_pure (forall_append_one hary hv))
    · refine ret_loop (I := fun obj : GoMap Value => (obj.map Prod.fst).Nodup ∧ ∀ k x, (k, x) ∈ obj → Real x) (by simp) ?_
      intro obj hobj
      unfold objectStep
      refine ret_bind' (fun t => ?_)
      refine ret_ite (fun _ => ret_pure (.obj hobj.1 hobj.2)) (fun _ => ?_)
      refine ret_ite (fun _ => ?_) (fun _ => ?_)
      · refine ret_bind' (fun key => ret_bind' (fun _ => ret_bind' (fun t' => ?_)))
        refine ret_bind (ih t') (fun v hv => ret_pure ⟨distinct_mset hobj.1 key v, ?_⟩)
        intro k x hx
        rcases mem_mset hx with h | h
        · injection h with _ h; rw [h]; exact hv
        · exact hobj.2 k x h
      · exact ret_ite (fun _ => ret_fail) (fun _ => ret_pure hobj)
    · exact ret_syntaxError

theorem ret_parseLiteralValue (lib : PLib) : Ret (parseLiteralValue lib) Real := by
  unfold parseLiteralValue
  refine ret_bind' (fun t => ?_)
  cases t with
  | none => exact ret_syntaxError
  | some t => exact ret_recursion (fun n => ret_parseLiteralN lib n t)

theorem real_null : Real .null := .atom (by simp) (by simp)

theorem ret_parseOption (lib : PLib) (o : Options) (name : String) (h : Real o.default) :
    Ret (parseOption lib o name) (fun o' => Real o'.default) := by
  unfold parseOption
  split
  case h_8 =>
    unfold parseEqualsLiteral
    refine ret_bind (Q1 := Real) ?_ (fun v hv => ret_pure hv)
    exact ret_bind' (fun _ => ret_parseLiteralValue lib)
  case h_7 => exact ret_pure h
  case h_15 => exact ret_fail
  all_goals exact ret_bind' (fun _ => ret_pure h)

theorem ret_parseOptions (lib : PLib) (acc : List String) : Ret (parseOptions lib acc) (fun o => Real o.default) := by
  unfold parseOptions
  refine ret_bind' (fun t => ?_)
  cases t with
  | none => exact ret_pure real_null
  | some t =>
    refine ret_ite (fun _ => ?_) (fun _ => ret_bind' (fun _ => ret_pure real_null))
    refine ret_loop (I := fun o => Real o.default) real_null ?_
    intro o ho
    unfold optionsStep
    refine ret_bind' (fun t => ?_)
    cases t with
    | none => exact ret_syntaxError
    | some t =>
      refine ret_ite (fun _ => ret_pure ho) (fun _ => ?_)
      refine ret_ite (fun _ => ?_) (fun _ => ?_)
      · refine ret_ite (fun _ => ret_bind' (fun _ => ret_pure ho)) (fun _ => ?_)
        refine ret_ite (fun _ => ?_) (fun _ => ret_fail)
        exact ret_bind (ret_parseOption lib o _ ho) (fun o' ho' => ret_pure ho')
      · exact ret_ite (fun _ => ret_pure ho) (fun _ => ret_syntaxError)

/-- The defaults of the fields are real. -/
def RealFields (fs : List StructFieldDef) : Prop := ∀ f ∈ fs, Real f.default

theorem ret_parseStructFieldDef (lib : PLib) (recur : P Elems) :
    Ret (parseStructFieldDef lib recur) (fun r => ∀ f, r = some f → Real f.default) := by
  unfold parseStructFieldDef
  refine ret_bind' (fun r => ?_)
  cases r with
  | none => exact ret_pure (by simp)
  | some comment =>
    refine ret_bind' (fun fname => ret_bind' (fun ts => ?_))
    refine ret_bind (ret_parseOptions lib _) (fun o ho => ret_bind' (fun r => ret_pure ?_))
    intro f hf
    injection hf with hf
    subst hf
    exact ho

theorem ret_parseBraces (lib : PLib) (recur : P Elems) (tn : String) (o : Options) :
    Ret (parseBraces lib recur tn o) (fun e => RealFields e.fields) := by
  unfold parseBraces
  refine ret_bind' (fun c => ret_ite (fun _ => ?_) (fun _ => ?_))
  · refine ret_bind' (fun _ => ?_)
    refine ret_bind (Q1 := RealFields) ?_ (fun fs hfs => ret_bind' (fun _ => ret_bind' (fun _ => ret_pure hfs)))
    refine ret_loop (I := RealFields) (by simp [RealFields]) ?_
    intro fs hfs
    unfold fieldsStep
    refine ret_bind (ret_parseStructFieldDef lib recur) (fun r hr => ?_)
    cases r with
    | none => exact ret_pure hfs
    | some f => exact ret_pure (forall_append_one hfs (hr f rfl))
  · refine ret_bind' (fun _ => ret_bind' (fun _ => ret_bind' (fun _ => ret_bind' (fun _ => ret_pure ?_))))
    simp [RealFields]

theorem ret_parseTypeSpecElements (lib : PLib) : Ret (parseTypeSpecElements lib) (fun e => RealFields e.fields) := by
  refine ret_recursion (fun n => ?_)
  cases n with
  | zero => exact ret_hang
  | succ n =>
    unfold typeSpecElementsN typeSpecElementsStep
    refine ret_bind' (fun tn => ret_bind' (fun t => ?_))
    cases t with
    | none => exact ret_pure (by simp [RealFields])
    | some t =>
      refine ret_ite (fun _ => ?_) (fun _ => ?_)
      · split
        · exact ret_syntaxError
        · exact ret_bind' (fun _ => ret_pure (by simp [RealFields]))
      · refine ret_ite (fun _ => ?_) (fun _ => ret_bind' (fun _ => ret_pure (by simp [RealFields])))
        refine ret_ite (fun _ => ?_) (fun _ => ret_parseBraces lib _ _ _)
        refine ret_bind' (fun _ => ret_bind' (fun o => ret_bind' (fun t' => ?_)))
        refine ret_ite (fun _ => ret_parseBraces lib _ _ _) (fun _ => ret_bind' (fun _ => ret_pure (by simp [RealFields])))

theorem ret_parseTypeOptions (lib : PLib) (td : TypeDef) (acc : List String) :
    Ret (parseTypeOptions lib td acc) (fun td' => td'.ts.fields = td.ts.fields) := by
  unfold parseTypeOptions
  exact ret_bind' (fun o => ret_pure rfl)

theorem ret_parseSimpleDef (lib : PLib) (td : TypeDef) (acc : List String) :
    Ret (parseSimpleDef lib td acc) (fun td' => td'.ts.fields = td.ts.fields) := by
  unfold parseSimpleDef
  exact ret_bind (ret_parseTypeOptions lib td acc) (fun td' h => ret_bind' (fun c => ret_pure h))

theorem ret_parseTypeDirective (lib : PLib) (c : String) :
    Ret (parseTypeDirective lib c) (fun td => RealFields td.ts.fields) := by
  have hnil : ∀ td : TypeDef, td.ts.fields = [] → RealFields td.ts.fields := by
    intro td h; rw [h]; simp [RealFields]
  unfold parseTypeDirective
  refine ret_bind' (fun tn => ret_bind (ret_parseTypeSpecElements lib) (fun e he => ?_))
  dsimp only
  split
  case h_12 =>
    unfold parseStringDef
    refine ret_bind (ret_parseSimpleDef lib _ _) (fun td h => ret_pure ?_)
    split
    · exact hnil _ h
    · exact hnil _ h
  case h_14 =>
    unfold parseUnitValueDef
    exact ret_bind (ret_parseTypeOptions lib _ _) (fun td h => ret_bind' (fun _ => ret_bind' (fun _ => ret_pure (hnil _ h))))
  case h_15 =>
    unfold parseArrayDef
    exact ret_bind' (fun _ => ret_mono (ret_parseSimpleDef lib _ _) (fun td h => hnil td h))
  case h_16 =>
    unfold parseArrayDef
    exact ret_bind' (fun _ => ret_mono (ret_parseSimpleDef lib _ _) (fun td h => hnil td h))
  case h_17 =>
    unfold parseMapDef
    exact ret_bind' (fun _ => ret_mono (ret_parseSimpleDef lib _ _) (fun td h => hnil td h))
  case h_18 =>
    unfold parseStructDef
    exact ret_bind' (fun _ => ret_pure he)
  case h_19 => exact ret_pure (hnil _ rfl)
  case h_20 =>
    unfold parseUnionDef
    refine ret_bind (ret_parseTypeOptions lib _ _) (fun td h => ret_ite (fun _ => ret_syntaxError) (fun _ => ?_))
    exact ret_bind' (fun _ => ret_pure (hnil _ h))
  case h_21 => exact ret_fail
  all_goals exact ret_mono (ret_parseSimpleDef lib _ _) (fun td h => hnil td h)

theorem ret_parseExampleDirective (lib : PLib) (c : String) :
    Ret (parseExampleDirective lib c) (fun ex => Real ex.example) := by
  unfold parseExampleDirective
  exact ret_bind' (fun _ => ret_bind' (fun _ => ret_bind (ret_parseLiteralValue lib) (fun v hv => ret_pure hv)))

/-- The values of a parsed source are real, if those of the included files are. -/
theorem realValues_of_source {lib : PLib} {incl : String → IncRes} {init : Schema} {toks : List Token} {m : Model}
    (hI : ∀ f m, incl f = some (.ok m) → RealValues m.schema) (h0 : RealValues init)
    (h : parseNoValidate lib incl init toks = some (.ok m)) : RealValues m.schema := by
  obtain ⟨s, hs, _⟩ := parseNoValidate_ok h
  have := parseSchema_all (PT := fun td => RealFields td.ts.fields) (PH := fun _ => True) (PO := fun _ => True)
    (PE := fun ex => Real ex.example)
    (fun _ _ hx => hx) (fun _ _ _ => trivial) (fun _ _ _ => trivial)
    (ret_parseTypeDirective lib) (fun _ => ret_true _) (fun _ => ret_true _) (ret_parseExampleDirective lib)
    (fun f m hf => ⟨(hI f m hf).1, fun _ _ => trivial, fun _ _ => trivial, (hI f m hf).2⟩)
    ⟨h0.1, fun _ _ => trivial, fun _ _ => trivial, h0.2⟩ hs
  exact ⟨this.types, this.examples⟩

theorem realValues_initial (name ns : String) : RealValues (initialSchema name ns) :=
  ⟨by simp [initialSchema], by simp [initialSchema]⟩

theorem realValues_of_file {lib : PLib} {files : String → Option (List Token)} (n : Nat) : ∀ (f : String) (m : Model),
    parseFileN lib files n f = some (.ok m) → RealValues m.schema := by
  induction n with
  | zero => intro f m h; cases h
  | succ n ih =>
    intro f m h
    unfold parseFileN at h
    cases hf : files f with
    | none => rw [hf] at h; simp at h
    | some toks =>
      rw [hf] at h
      exact realValues_of_source ih (realValues_initial "" "") h

end Sadl
