import Verif.Lemmas.ParserLoop
/-
Postconditions: `Ret p Q` says that every value returned by the parsing function `p`
satisfies `Q`.
-/
namespace Sadl
variable {α β σ : Type}

def Ret (p : P α) (Q : α → Prop) : Prop := ∀ s a s', p s = .ok a s' → Q a

theorem ret_true (p : P α) : Ret p (fun _ => True) := fun _ _ _ _ => trivial

theorem ret_mono {p : P α} {Q Q' : α → Prop} (h : Ret p Q) (hq : ∀ a, Q a → Q' a) : Ret p Q' :=
  fun s a s' h1 => hq a (h s a s' h1)

theorem ret_pure {a : α} {Q : α → Prop} (h : Q a) : Ret (pure a : P α) Q := by
  intro s b s' hb
  injection (show PRes.ok a s = .ok b s' from hb) with h1 _
  exact h1 ▸ h

theorem ret_fail {e : String} {Q : α → Prop} : Ret (P.fail e : P α) Q := by
  intro s a s' h; simp [P.fail] at h

theorem ret_syntaxError {Q : α → Prop} : Ret (syntaxError : P α) Q := ret_fail
theorem ret_eofError {Q : α → Prop} : Ret (eofError : P α) Q := ret_fail

theorem ret_crash {e : String} {Q : α → Prop} : Ret (P.crash e : P α) Q := by
  intro s a s' h; simp [P.crash] at h

theorem ret_hang {Q : α → Prop} : Ret (P.hang : P α) Q := by
  intro s a s' h; simp [P.hang] at h

theorem ret_bind {p : P α} {f : α → P β} {Q1 : α → Prop} {Q : β → Prop} (hp : Ret p Q1)
    (hf : ∀ a, Q1 a → Ret (f a) Q) : Ret (p >>= f) Q := by
  intro s b s' h
  rw [P.bind_apply] at h
  cases h1 : p s with
  | ok a s1 => rw [h1] at h; exact hf a (hp s a s1 h1) s1 b s' h
  | err e s1 => rw [h1] at h; cases h
  | panic e => rw [h1] at h; cases h
  | hang => rw [h1] at h; cases h

/-- Nothing is known about the result of the first call. -/
theorem ret_bind' {p : P α} {f : α → P β} {Q : β → Prop} (hf : ∀ a, Ret (f a) Q) : Ret (p >>= f) Q :=
  ret_bind (ret_true p) (fun a _ => hf a)

theorem ret_ite {c : Prop} [Decidable c] {p q : P α} {Q : α → Prop} (h1 : c → Ret p Q) (h2 : ¬ c → Ret q Q) :
    Ret (if c then p else q) Q := by
  split_ifs with h
  · exact h1 h
  · exact h2 h

/-- The rule for loops, with an invariant of the loop state. -/
theorem ret_loop {body : σ → P (σ ⊕ α)} {x : σ} {I : σ → Prop} {Q : α → Prop} (h0 : I x)
    (hb : ∀ x, I x → Ret (body x) (fun r => match r with | .inl y => I y | .inr a => Q a)) :
    Ret (P.loop body x) Q := by
  have key : ∀ (k : Nat) (x : σ), I x → Ret (P.loopN body k x) Q := by
    intro k
    induction k with
    | zero => intro x _; exact ret_hang
    | succ k ih =>
      intro x hx
      unfold P.loopN
      refine ret_bind (hb x hx) ?_
      intro r hr
      cases r with
      | inl y => exact ih y hr
      | inr a => exact ret_pure hr
  intro s a s' h
  exact key _ x h0 s a s' h

theorem ret_recursion {f : Nat → P α} {Q : α → Prop} (h : ∀ n, Ret (f n) Q) : Ret (P.recursion f) Q :=
  fun s a s' h1 => h _ s a s' h1

end Sadl

namespace Sadl

/-- Every definition of the schema satisfies the predicate for its kind. -/
structure SchemaAll (PT : TypeDef → Prop) (PH : HttpDef → Prop) (PO : OperationDef → Prop) (PE : ExampleDef → Prop)
    (s : Schema) : Prop where
  types : ∀ x ∈ s.types, PT x
  http : ∀ x ∈ s.http, PH x
  operations : ∀ x ∈ s.operations, PO x
  examples : ∀ x ∈ s.examples, PE x

variable {PT : TypeDef → Prop} {PH : HttpDef → Prop} {PO : OperationDef → Prop} {PE : ExampleDef → Prop}

theorem forall_append_one {α : Type} {Q : α → Prop} {l : List α} {x : α} (h1 : ∀ y ∈ l, Q y) (h2 : Q x) :
    ∀ y ∈ l ++ [x], Q y := by
  intro y hy
  rcases List.mem_append.1 hy with hy | hy
  · exact h1 y hy
  · simp only [List.mem_singleton] at hy; rw [hy]; exact h2

theorem mergeInclude_all {f : String} {sch sch' : Schema} {inc : Model}
    (aT : ∀ x a, PT x → PT { x with annotations := a }) (aH : ∀ x a, PH x → PH { x with annotations := a })
    (aO : ∀ x a, PO x → PO { x with annotations := a })
    (h1 : SchemaAll PT PH PO PE sch) (h2 : SchemaAll PT PH PO PE inc.schema)
    (h : mergeInclude f sch inc = .ok sch') : SchemaAll PT PH PO PE sch' := by
  unfold mergeInclude at h
  cases hn : newModel sch with
  | err e => rw [hn] at h; cases h
  | panic e => rw [hn] at h; cases h
  | ok m =>
    rw [hn] at h
    simp only at h
    split_ifs at h
    injection h with h
    subst h
    constructor
    · intro x hx
      rcases List.mem_append.1 hx with hx | hx
      · exact h1.types x hx
      · obtain ⟨y, hy, rfl⟩ := List.mem_map.1 hx; exact aT _ _ (h2.types y hy)
    · intro x hx
      rcases List.mem_append.1 hx with hx | hx
      · exact h1.http x hx
      · obtain ⟨y, hy, rfl⟩ := List.mem_map.1 hx; exact aH _ _ (h2.http y hy)
    · intro x hx
      rcases List.mem_append.1 hx with hx | hx
      · exact h1.operations x hx
      · obtain ⟨y, hy, rfl⟩ := List.mem_map.1 hx; exact aO _ _ (h2.operations y hy)
    · exact h1.examples

/-- What every directive establishes holds of all definitions of a parsed schema. -/
theorem parseSchema_all {lib : PLib} {incl : String → IncRes} {init sch : Schema} {toks : List Token} {s : TState}
    (aT : ∀ x a, PT x → PT { x with annotations := a }) (aH : ∀ x a, PH x → PH { x with annotations := a })
    (aO : ∀ x a, PO x → PO { x with annotations := a })
    (hT : ∀ c, Ret (parseTypeDirective lib c) PT) (hH : ∀ c, Ret (parseHttpDirective lib c) PH)
    (hO : ∀ c, Ret (parseOperationDirective lib c) PO) (hE : ∀ c, Ret (parseExampleDirective lib c) PE)
    (hI : ∀ f m, incl f = some (.ok m) → SchemaAll PT PH PO PE m.schema)
    (h0 : SchemaAll PT PH PO PE init) (h : parseSchema lib incl init toks = .ok sch s) :
    SchemaAll PT PH PO PE sch := by
  have key : Ret (P.loop (topStep lib incl) (init, "")) (SchemaAll PT PH PO PE) := by
    refine ret_loop (I := fun st => SchemaAll PT PH PO PE st.1) h0 ?_
    intro st hst
    unfold topStep
    refine ret_bind' ?_
    intro t?
    cases t? with
    | none => exact ret_pure hst
    | some t =>
      dsimp only
      split
      · refine ret_bind (Q1 := SchemaAll PT PH PO PE) ?_ (fun a ha => ret_pure ha)
        unfold directive
        dsimp only
        split
        · exact ret_bind' (fun x => ret_pure ⟨hst.types, hst.http, hst.operations, hst.examples⟩)
        · exact ret_bind' (fun x => ret_pure ⟨hst.types, hst.http, hst.operations, hst.examples⟩)
        · exact ret_bind' (fun x => ret_pure ⟨hst.types, hst.http, hst.operations, hst.examples⟩)
        · exact ret_bind (hT _) (fun x hx => ret_pure ⟨forall_append_one hst.types hx, hst.http, hst.operations, hst.examples⟩)
        · exact ret_bind (hE _) (fun x hx => ret_pure ⟨hst.types, hst.http, hst.operations, forall_append_one hst.examples hx⟩)
        · exact ret_bind' (fun x => ret_pure ⟨hst.types, hst.http, hst.operations, hst.examples⟩)
        · exact ret_bind (hO _) (fun x hx => ret_pure ⟨hst.types, hst.http, forall_append_one hst.operations hx, hst.examples⟩)
        · exact ret_bind (hH _) (fun x hx => ret_pure ⟨hst.types, forall_append_one hst.http hx, hst.operations, hst.examples⟩)
        · unfold parseIncludeDirective
          refine ret_bind' (fun f => ?_)
          split
          · exact ret_hang
          · exact ret_fail
          · exact ret_crash
          · next inc hinc =>
            split
            · next sch' hm =>
              refine ret_pure (mergeInclude_all aT aH aO ?_ (hI _ _ hinc) hm)
              exact ⟨hst.types, hst.http, hst.operations, hst.examples⟩
            · exact ret_fail
            · exact ret_crash
        · refine ret_ite (fun _ => ?_) (fun _ => ?_)
          · exact ret_bind' (fun x => ret_pure ⟨hst.types, hst.http, hst.operations, hst.examples⟩)
          · exact ret_pure hst
      · exact ret_pure hst
      · exact ret_pure hst
      · exact ret_pure hst
      · exact ret_fail
  exact key _ _ _ h

/-- The schema of a parsed model. -/
theorem parseNoValidate_ok {lib : PLib} {incl : String → IncRes} {init : Schema} {toks : List Token} {m : Model}
    (h : parseNoValidate lib incl init toks = some (.ok m)) :
    ∃ s, parseSchema lib incl init toks = .ok m.schema s ∧ newModel m.schema = .ok m := by
  unfold parseNoValidate at h
  cases hp : parseSchema lib incl init toks with
  | ok sch s =>
    rw [hp] at h
    simp only [Option.some.injEq] at h
    have : m.schema = sch := by
      obtain ⟨_, _, _, rfl⟩ := (newModel_ok_iff sch m).1 h
      rfl
    exact ⟨s, by rw [this], by rw [this]; exact h⟩
  | err e s => rw [hp] at h; cases h
  | panic e => rw [hp] at h; cases h
  | hang => rw [hp] at h; cases h

/-- What a file defines, with all the files it includes. -/
theorem parseFileN_all {lib : PLib} {files : String → Option (List Token)}
    (aT : ∀ x a, PT x → PT { x with annotations := a }) (aH : ∀ x a, PH x → PH { x with annotations := a })
    (aO : ∀ x a, PO x → PO { x with annotations := a })
    (hT : ∀ c, Ret (parseTypeDirective lib c) PT) (hH : ∀ c, Ret (parseHttpDirective lib c) PH)
    (hO : ∀ c, Ret (parseOperationDirective lib c) PO) (hE : ∀ c, Ret (parseExampleDirective lib c) PE)
    (n : Nat) : ∀ (f : String) (m : Model), parseFileN lib files n f = some (.ok m) →
      SchemaAll PT PH PO PE m.schema := by
  induction n with
  | zero => intro f m h; cases h
  | succ n ih =>
    intro f m h
    unfold parseFileN at h
    cases hf : files f with
    | none => rw [hf] at h; simp at h
    | some toks =>
      rw [hf] at h
      obtain ⟨s, hs, _⟩ := parseNoValidate_ok h
      exact parseSchema_all aT aH aO hT hH hO hE ih
        ⟨by simp [initialSchema], by simp [initialSchema], by simp [initialSchema], by simp [initialSchema]⟩ hs

end Sadl
