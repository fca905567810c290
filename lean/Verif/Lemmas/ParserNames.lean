import Verif.Lemmas.ParserReal
import Verif.Lemmas.ParserHttp
/-
Postconditions that depend on the tokens of the source: `RetT ok p Q` says that every value
returned by `p` satisfies `Q`, if all tokens satisfy `ok`.
-/
namespace Sadl
open Spec
variable {α β σ : Type} {ok : Token → Prop}

def RetT (ok : Token → Prop) (p : P α) (Q : α → Prop) : Prop := ∀ s a s', AllTok ok s → p s = .ok a s' → Q a

theorem rett_of_ret {p : P α} {Q : α → Prop} (h : Ret p Q) : RetT ok p Q := fun s a s' _ h1 => h s a s' h1

theorem rett_pure {a : α} {Q : α → Prop} (h : Q a) : RetT ok (pure a : P α) Q := rett_of_ret (ret_pure h)

theorem rett_mono {p : P α} {Q Q' : α → Prop} (h : RetT ok p Q) (hq : ∀ a, Q a → Q' a) : RetT ok p Q' :=
  fun s a s' hs h1 => hq a (h s a s' hs h1)

theorem rett_bind {p : P α} {f : α → P β} {Q1 : α → Prop} {Q : β → Prop} (hk : Safe True ok p) (hp : RetT ok p Q1)
    (hf : ∀ a, Q1 a → RetT ok (f a) Q) : RetT ok (p >>= f) Q := by
  intro s b s' hs h
  rw [P.bind_apply] at h
  have h2 := hk s hs
  cases h1 : p s with
  | ok a s1 => rw [h1] at h h2; exact hf a (hp s a s1 hs h1) s1 b s' h2 h
  | err e s1 => rw [h1] at h; cases h
  | panic e => rw [h1] at h; cases h
  | hang => rw [h1] at h; cases h

theorem rett_bind' {p : P α} {f : α → P β} {Q : β → Prop} (hk : Safe True ok p) (hf : ∀ a, RetT ok (f a) Q) :
    RetT ok (p >>= f) Q := rett_bind hk (rett_of_ret (ret_true p)) (fun a _ => hf a)

theorem rett_ite {c : Prop} [Decidable c] {p q : P α} {Q : α → Prop} (h1 : c → RetT ok p Q) (h2 : ¬ c → RetT ok q Q) :
    RetT ok (if c then p else q) Q := by
  split_ifs with h
  · exact h1 h
  · exact h2 h

theorem rett_loop {body : σ → P (σ ⊕ α)} {x : σ} {I : σ → Prop} {Q : α → Prop} (hk : ∀ x, Safe True ok (body x)) (h0 : I x)
    (hb : ∀ x, I x → RetT ok (body x) (fun r => match r with | .inl y => I y | .inr a => Q a)) :
    RetT ok (P.loop body x) Q := by
  have key : ∀ (k : Nat) (x : σ), I x → RetT ok (P.loopN body k x) Q := by
    intro k
    induction k with
    | zero => intro x _; exact rett_of_ret ret_hang
    | succ k ih =>
      intro x hx
      unfold P.loopN
      refine rett_bind (hk x) (hb x hx) ?_
      intro r hr
      cases r with
      | inl y => exact ih y hr
      | inr a => exact rett_pure hr
  intro s a s' hs h
  exact key _ x h0 s a s' hs h

/-- Reading an identifier returns the text of a symbol. -/
theorem rett_expectIdentifier {Q : String → Prop} (h : ∀ t : Token, ok t → t.type = .symbol → Q t.text) :
    RetT ok expectIdentifier Q := by
  intro s a s' hs h1
  obtain ⟨t?, s1, h2, h3, h4⟩ := getToken_ok hs
  unfold expectIdentifier nextToken at h1
  rw [P.bind_apply, P.bind_apply, h2] at h1
  cases t? with
  | none => cases h1
  | some t =>
    simp only at h1
    change (if t.type = .symbol then (pure t.text : P String) else P.fail "Expected symbol") s1 = .ok a s' at h1
    split_ifs at h1 with ht
    · injection (show PRes.ok t.text s1 = .ok a s' from h1) with h5 _
      rw [← h5]; exact h t (h4 t (by simp)) ht
    · cases h1

theorem parseSchema_allT {PT : TypeDef → Prop} {PH : HttpDef → Prop} {PO : OperationDef → Prop} {PE : ExampleDef → Prop}
    {lib : PLib} {incl : String → IncRes} {init sch : Schema} {toks : List Token} {s : TState}
    (aT : ∀ x a, PT x → PT { x with annotations := a }) (aH : ∀ x a, PH x → PH { x with annotations := a })
    (aO : ∀ x a, PO x → PO { x with annotations := a })
    (hT : ∀ c, RetT ok (parseTypeDirective lib c) PT) (hH : ∀ c, RetT ok (parseHttpDirective lib c) PH)
    (hO : ∀ c, RetT ok (parseOperationDirective lib c) PO) (hE : ∀ c, RetT ok (parseExampleDirective lib c) PE)
    (hI : ∀ f m, incl f = some (.ok m) → SchemaAll PT PH PO PE m.schema)
    (h0 : SchemaAll PT PH PO PE init) (ht : ∀ t ∈ toks, ok t) (h : parseSchema lib incl init toks = .ok sch s) :
    SchemaAll PT PH PO PE sch := by
  have key : RetT ok (P.loop (topStep lib incl) (init, "")) (SchemaAll PT PH PO PE) := by
    refine rett_loop (I := fun st => SchemaAll PT PH PO PE st.1)
      (fun st => safe_topStep lib (fun _ _ _ => trivial) (fun _ _ _ _ => trivial) st) h0 ?_
    intro st hst
    unfold topStep
    refine rett_bind' safe_getToken ?_
    intro t?
    cases t? with
    | none => exact rett_pure hst
    | some t =>
      dsimp only
      split
      · have hsd : Safe True ok (directive lib incl st.1 st.2 t.text) := by
          unfold directive
          dsimp only
          split
          · exact safe_bind safe_expectText (fun _ => safe_pure _)
          · exact safe_bind safe_parseNamespaceDirective (fun _ => safe_pure _)
          · exact safe_bind safe_parseVersionDirective (fun _ => safe_pure _)
          · exact safe_bind (safe_parseTypeDirective _ _) (fun _ => safe_pure _)
          · exact safe_bind (safe_parseExampleDirective _ _) (fun _ => safe_pure _)
          · exact safe_bind safe_parseBaseDirective (fun _ => safe_pure _)
          · exact safe_bind (keeps_parseOperationDirective _ _) (fun _ => safe_pure _)
          · exact safe_bind (safe_parseHttpDirective _ _) (fun _ => safe_pure _)
          · exact safe_include (fun _ _ _ => trivial) _
          · refine safe_ite (safe_bind safe_parseStringToEndOfLine (fun _ => safe_pure _)) (safe_pure _)
        refine rett_bind (Q1 := SchemaAll PT PH PO PE) hsd ?_ (fun a ha => rett_pure ha)
        unfold directive
        dsimp only
        split
        · exact rett_bind' safe_expectText (fun x => rett_pure ⟨hst.types, hst.http, hst.operations, hst.examples⟩)
        · exact rett_bind' safe_parseNamespaceDirective (fun x => rett_pure ⟨hst.types, hst.http, hst.operations, hst.examples⟩)
        · exact rett_bind' safe_parseVersionDirective (fun x => rett_pure ⟨hst.types, hst.http, hst.operations, hst.examples⟩)
        · exact rett_bind (safe_parseTypeDirective _ _) (hT _) (fun x hx => rett_pure ⟨forall_append_one hst.types hx, hst.http, hst.operations, hst.examples⟩)
        · exact rett_bind (safe_parseExampleDirective _ _) (hE _) (fun x hx => rett_pure ⟨hst.types, hst.http, hst.operations, forall_append_one hst.examples hx⟩)
        · exact rett_bind' safe_parseBaseDirective (fun x => rett_pure ⟨hst.types, hst.http, hst.operations, hst.examples⟩)
        · exact rett_bind (keeps_parseOperationDirective _ _) (hO _) (fun x hx => rett_pure ⟨hst.types, hst.http, forall_append_one hst.operations hx, hst.examples⟩)
        · exact rett_bind (safe_parseHttpDirective _ _) (hH _) (fun x hx => rett_pure ⟨hst.types, forall_append_one hst.http hx, hst.operations, hst.examples⟩)
        · unfold parseIncludeDirective
          refine rett_of_ret ?_
          refine ret_bind' (fun f => ?_)
          split
          · exact ret_hang
          · exact ret_fail
          · exact ret_crash
          · next inc hinc =>
            split
            · next sch' hm =>
              refine ret_pure (mergeInclude_all aT aH aO ?_ (hI _ _ hinc) hm)
              exact ⟨hst.types, hst.http, hst.operations, hst.examples⟩
            · exact ret_fail
            · exact ret_crash
        · refine rett_of_ret ?_
          refine ret_ite (fun _ => ?_) (fun _ => ?_)
          · exact ret_bind' (fun x => ret_pure ⟨hst.types, hst.http, hst.operations, hst.examples⟩)
          · exact ret_pure hst
      · exact rett_pure hst
      · exact rett_pure hst
      · exact rett_pure hst
      · exact rett_of_ret ret_fail
  exact key _ _ _ ⟨ht, by simp, by simp, by simp⟩ h

/-- The lexer never delivers an empty symbol. -/
def NonEmptySymbol (t : Token) : Prop := t.type = .symbol → t.text ≠ ""

def NamedHttp (h : HttpDef) : Prop :=
  (∀ p ∈ h.inputs, p.field.name ≠ "") ∧ ∀ e, h.expected = some e → ∀ p ∈ e.outputs, p.field.name ≠ ""

theorem mkParam_name (path ename c : String) (ts : TypeSpec) (o : Options) : (mkParam path ename c ts o).field.name = ename := by
  unfold mkParam
  dsimp only
  split <;> rfl

theorem ret_parseHttpParam_name (lib : PLib) (path ename c : String) :
    Ret (parseHttpParam lib path ename c) (fun p => p.field.name = ename) := by
  unfold parseHttpParam
  exact ret_bind' (fun a => ret_bind' (fun o => ret_bind' (fun r => ret_pure (mkParam_name _ _ _ _ _))))

theorem rett_parseHttpExpectedSpec_named (lib : PLib) (op : HttpDef) (c : String) (h : NamedHttp op) :
    RetT NonEmptySymbol (parseHttpExpectedSpec lib op c) NamedHttp := by
  unfold parseHttpExpectedSpec
  split
  · exact rett_of_ret ret_fail
  · refine rett_bind' (safe_expectInt _) (fun st => rett_bind' (safe_parseOptions _ _) (fun o => rett_bind' safe_nextToken (fun t => ?_)))
    refine rett_bind (Q1 := fun e => ∀ p ∈ e.outputs, p.field.name ≠ "") ?_ ?_ (fun e he => ?_)
    · refine safe_ite (safe_bind (safe_parseTrailingComment _) (fun c => safe_loop (fun e => ?_))) (safe_ite (safe_pure _) (safe_bind safe_unget (fun _ => safe_pure _)))
      unfold expectStep
      safe_go
    · refine rett_ite (fun _ => ?_) (fun _ => rett_ite (fun _ => ?_) (fun _ => ?_))
      · refine rett_bind' (safe_parseTrailingComment _) (fun c => ?_)
        refine rett_loop (I := fun e : HttpExpectedSpec => ∀ p ∈ e.outputs, p.field.name ≠ "") (fun e => ?_) (by simp) (fun e he => ?_)
        · unfold expectStep; safe_go
        · unfold expectStep
          refine rett_bind' (safe_isBlockDone _) (fun r => rett_ite (fun _ => rett_pure he) (fun _ => ?_))
          refine rett_bind safe_expectIdentifier (rett_expectIdentifier (Q := fun x => x ≠ "") (fun t h1 h2 => h1 h2)) (fun en hen => ?_)
          refine rett_ite (fun _ => rett_of_ret ret_syntaxError) (fun _ => ?_)
          refine rett_bind (safe_parseHttpParam _ _ _ _) (rett_of_ret (ret_parseHttpParam_name lib _ en _)) (fun p hp => rett_pure ?_)
          exact forall_append_one he (by rw [hp]; exact hen)
      · exact rett_pure (by simp)
      · exact rett_bind' safe_unget (fun _ => rett_pure (by simp))
    · refine rett_bind' (safe_endOfStatement' _) (fun c => rett_pure ⟨h.1, ?_⟩)
      intro e' he'
      injection he' with he'
      subst he'
      exact he

theorem rett_parseHttpDirective_named (lib : PLib) (c : String) :
    RetT NonEmptySymbol (parseHttpDirective lib c) NamedHttp := by
  unfold parseHttpDirective
  refine rett_bind' safe_expectIdentifier (fun sym => ?_)
  dsimp only
  refine rett_ite (fun _ => rett_of_ret ret_fail) (fun _ => ?_)
  refine rett_bind' safe_expectString (fun path => rett_bind' (safe_parseOptions _ _) (fun o => rett_bind' safe_nextToken (fun t => ?_)))
  refine rett_ite (fun _ => ?_) (fun _ => rett_of_ret ret_syntaxError)
  refine rett_bind' (safe_parseTrailingComment _) (fun c' => ?_)
  have hstep : ∀ op, Safe True NonEmptySymbol (httpStep lib op) := by
    intro op; unfold httpStep; safe_go
  refine rett_bind (Q1 := NamedHttp) (safe_loop hstep) ?_ (fun op hop => ?_)
  · refine rett_loop (I := NamedHttp) hstep (by simp [NamedHttp]) (fun op hop => ?_)
    unfold httpStep
    refine rett_bind' (safe_isBlockDone _) (fun r => rett_ite (fun _ => rett_pure hop) (fun _ => ?_))
    refine rett_bind (Q1 := NamedHttp) (safe_parseHttpSpec _ _ _) ?_ (fun op' h' => rett_pure h')
    unfold parseHttpSpec
    refine rett_bind safe_expectIdentifier (rett_expectIdentifier (Q := fun x => x ≠ "") (fun t h1 h2 => h1 h2)) (fun en hen => ?_)
    refine rett_ite (fun _ => rett_parseHttpExpectedSpec_named lib op _ hop) (fun _ => ?_)
    refine rett_ite (fun _ => ?_) (fun _ => ?_)
    · unfold parseHttpExceptionSpec
      refine rett_of_ret ?_
      refine ret_bind' (fun _ => ret_bind' (fun _ => ret_bind' (fun _ => ret_bind' (fun etype => ?_))))
      refine ret_ite (fun _ => ret_fail) (fun _ => ?_)
      exact ret_bind' (fun _ => ret_bind' (fun _ => ret_pure hop))
    · refine rett_bind (safe_parseHttpParam _ _ _ _) (rett_of_ret (ret_parseHttpParam_name lib _ en _)) (fun p hp => rett_pure ⟨?_, hop.2⟩)
      exact forall_append_one hop.1 (by rw [hp]; exact hen)
  · refine rett_bind' (safe_endOfStatement _) (fun r => rett_pure ?_)
    have hin : (ensureActionName { op with comment := r.1 }).inputs = op.inputs ∧
        (ensureActionName { op with comment := r.1 }).expected = op.expected := by
      unfold ensureActionName ensureResourceName
      dsimp only
      split_ifs <;> exact ⟨rfl, rfl⟩
    constructor
    · intro p hp
      simp only [ensureRequiredParams, hin.1, List.mem_map] at hp
      obtain ⟨q, hq, rfl⟩ := hp
      unfold requireInput
      split_ifs <;> exact hop.1 q hq
    · intro e he p hp
      simp only [ensureRequiredParams, hin.2, Option.map_eq_some_iff] at he
      obtain ⟨e0, he0, rfl⟩ := he
      split_ifs at hp with hs
      · simp only [List.mem_map] at hp
        obtain ⟨q, hq, rfl⟩ := hp
        unfold requireOutput
        split_ifs <;> exact hop.2 e0 he0 q hq
      · exact hop.2 e0 he0 p hp

theorem namedParams_of_source {lib : PLib} {incl : String → IncRes} {init : Schema} {toks : List Token} {m : Model}
    (hI : ∀ f m, incl f = some (.ok m) → NamedParams m.schema) (h0 : NamedParams init) (ht : ∀ t ∈ toks, NonEmptySymbol t)
    (h : parseNoValidate lib incl init toks = some (.ok m)) : NamedParams m.schema := by
  obtain ⟨s, hs, _⟩ := parseNoValidate_ok h
  have := parseSchema_allT (ok := NonEmptySymbol) (PT := fun _ => True) (PH := NamedHttp) (PO := fun _ => True)
    (PE := fun _ => True)
    (fun _ _ _ => trivial) (fun _ _ hx => hx) (fun _ _ _ => trivial)
    (fun _ => rett_of_ret (ret_true _)) (rett_parseHttpDirective_named lib) (fun _ => rett_of_ret (ret_true _)) (fun _ => rett_of_ret (ret_true _))
    (fun f m hf => ⟨fun _ _ => trivial, hI f m hf, fun _ _ => trivial, fun _ _ => trivial⟩)
    ⟨fun _ _ => trivial, h0, fun _ _ => trivial, fun _ _ => trivial⟩ ht hs
  exact this.http

theorem namedParams_of_file {lib : PLib} {files : String → Option (List Token)}
    (hf : ∀ f toks, files f = some toks → ∀ t ∈ toks, NonEmptySymbol t) (n : Nat) : ∀ (f : String) (m : Model),
    parseFileN lib files n f = some (.ok m) → NamedParams m.schema := by
  induction n with
  | zero => intro f m h; cases h
  | succ n ih =>
    intro f m h
    unfold parseFileN at h
    cases hft : files f with
    | none => rw [hft] at h; simp at h
    | some toks =>
      rw [hft] at h
      exact namedParams_of_source ih (by simp [NamedParams, initialSchema]) (hf f toks hft) h

end Sadl
