import Verif.Lemmas.UnparseTypedef
/-
Printed operations are read back.
-/
namespace Sadl.Props
open Sadl Sadl.Spec

theorem run_attempt {α : Type} {p : P α} {s : TState} {Q : α → TState → Prop} (h : Run p s Q) :
    Run (P.attempt p) s (fun r s' => ∃ a, r = some a ∧ Q a s') := by
  obtain ⟨a, s', h1, h2⟩ := h
  refine ⟨some a, s', ?_, a, rfl, h2⟩
  unfold P.attempt; rw [h1]

theorem not_long (pl : PrintLib) (name : String) (ts : TypeSpec) (o : List Token) : (pl.wide "" name ts o && decide ("" ≠ "")) = false := by
  simp

theorem endLine_empty (pl : PrintLib) : endLineToks pl "" = [tNl] := rfl

def InputOk (f : StructFieldDef) : Prop := ∃ n r t, IsName n ∧ IsName t ∧ f = { name := n, required := r, ts := { type := t } }
def OutputOk (o : OperationOutput) : Prop := ∃ n t, IsName n ∧ IsName t ∧ o = { name := n, ts := { type := t } }

/-- One round of a loop that reads `ts` and goes on with `y`. -/
theorem loop_step {α σ : Type} {body : σ → P (σ ⊕ α)} {x y : σ} {s : TState} {ts ts' : List Token} {Q : α → TState → Prop} (h : At s ts)
    (hs : Run (body x) s (fun r s' => r = .inl y ∧ At s' ts')) (hl : ts'.length < ts.length)
    (hr : ∀ s', At s' ts' → Run (P.loop body y) s' Q) : Run (P.loop body x) s Q := by
  refine run_loop_again h (run_mono hs ?_)
  rintro _ s' ⟨rfl, h'⟩
  exact ⟨y, ts', rfl, h', hl, hr s' h'⟩

theorem loop_last {α σ : Type} {body : σ → P (σ ⊕ α)} {x : σ} {a : α} {s : TState} {ts' : List Token} {Q : α → TState → Prop}
    (hs : Run (body x) s (fun r s' => r = .inr a ∧ At s' ts')) (hr : ∀ s', At s' ts' → Q a s') : Run (P.loop body x) s Q := by
  refine run_loop_done (run_mono hs ?_)
  rintro _ s' ⟨rfl, h'⟩
  exact ⟨a, rfl, hr s' h'⟩

theorem inputs_close {st : List StructFieldDef × Bool} {s : TState} {rest : List Token} (hA : At s (tPunct .closeBrace :: rest)) :
    Run (inputsStep st) s (fun r s' => r = .inr st.1 ∧ At s' rest) := by
  unfold inputsStep
  refine run_bind (run_get hA (fun s1 h1 => ?_))
  simp only [tPunct, if_true]
  exact run_pure ⟨rfl, h1.at'⟩

theorem inputs_nl {st : List StructFieldDef × Bool} {s : TState} {rest : List Token} (hA : At s (tNl :: rest)) :
    Run (inputsStep st) s (fun r s' => r = .inl (st.1, true) ∧ At s' rest) := by
  unfold inputsStep
  refine run_bind (run_get hA (fun s1 h1 => ?_))
  simp only [tNl, reduceCtorEq, if_false, if_true]
  exact run_pure ⟨rfl, h1.at'⟩

theorem inputs_one {st : List StructFieldDef × Bool} {n t : String} {req : Bool} {s : TState} {rest : List Token}
    (hA : At s (tSym n :: tSym t :: (optToks (if req then [[tSym "required"]] else []) ++ tNl :: rest))) :
    Run (inputsStep st) s (fun r s' => r = .inl (st.1 ++ [{ name := n, required := req, ts := { type := t } }], false) ∧ At s' (tNl :: rest)) := by
  unfold inputsStep
  refine run_bind (run_get hA (fun s1 h1 => ?_))
  simp only [tSym, reduceCtorEq, if_false, ne_eq, not_true]
  refine run_bind (run_must h1.at' (fun s2 h2 => ?_))
  simp only [tSym, not_true, if_false]
  cases req with
  | false =>
    have h2' : At s2 (tNl :: rest) := h2.at'
    refine run_bind (run_must h2' (fun s3 h3 => ?_))
    simp only [tNl, reduceCtorEq, not_false_eq_true, if_true]
    refine run_bind (run_bind (run_unget h3 (fun s4 h4 => run_pure ?_)))
    exact run_pure ⟨rfl, h4⟩
  | true =>
    have h2' : At s2 (⟨.openParen, ""⟩ :: ⟨.symbol, "required"⟩ :: ⟨.closeParen, ""⟩ :: tNl :: rest) := h2.at'
    refine run_bind (run_must h2' (fun s3 h3 => ?_))
    simp only [not_true, if_false]
    have hl : Run (P.loop inputOptionStep false) s3 (fun r s' => r = true ∧ At s' (tNl :: rest)) := by
      refine loop_step (y := true) h3.at' (ts' := ⟨.closeParen, ""⟩ :: tNl :: rest) ?_ (Nat.lt_succ_self _) (fun s4 h4 => ?_)
      · unfold inputOptionStep
        refine run_bind (run_must h3.at' (fun s4 h4 => ?_))
        simp only [reduceCtorEq, if_false, if_true]
        exact run_pure ⟨rfl, h4.at'⟩
      · refine loop_last (a := true) (ts' := tNl :: rest) ?_ (fun s5 h5 => ⟨rfl, h5⟩)
        unfold inputOptionStep
        refine run_bind (run_must h4 (fun s5 h5 => ?_))
        simp only [if_true]
        exact run_pure ⟨rfl, h5.at'⟩
    refine run_bind (run_mono hl ?_)
    rintro _ s4 ⟨rfl, h4⟩
    exact run_pure ⟨rfl, h4⟩

theorem inputToks_eq {pl : PrintLib} {n t : String} (hn : IsName n) (ht : IsName t) (req : Bool) (tail : List Token) :
    inputToks pl { name := n, required := req, ts := { type := t } } ++ tail =
      tSym n :: tSym t :: (optToks (if req then [[tSym "required"]] else []) ++ tNl :: tail) := by
  simp only [inputToks, inputOptToks, bare_name hn, bare_name ht, not_long, endLine_empty, Bool.false_eq_true, if_false]
  simp [endLine_empty]

theorem run_inputs {pl : PrintLib} (fs : List StructFieldDef) : (∀ f ∈ fs, InputOk f) → ∀ (acc : List StructFieldDef) (flag : Bool) (s : TState)
    (rest : List Token), At s ((fs.map (inputToks pl)).flatten ++ tPunct .closeBrace :: rest) →
    Run (P.loop inputsStep (acc, flag)) s (fun r s' => r = acc ++ fs ∧ At s' rest) := by
  induction fs with
  | nil =>
    intro _ acc flag s rest hA
    exact loop_last (inputs_close hA) (fun s' h' => ⟨by simp, h'⟩)
  | cons f fs ih =>
    intro h acc flag s rest hA
    obtain ⟨n, req, t, hn, ht, rfl⟩ := h f (by simp)
    rw [List.map_cons, List.flatten_cons, List.append_assoc, inputToks_eq hn ht] at hA
    refine loop_step hA (inputs_one hA) (by simp; omega) (fun s1 h1 => ?_)
    refine loop_step h1 (inputs_nl h1) (Nat.lt_succ_self _) (fun s2 h2 => ?_)
    refine run_mono (ih (fun x hx => h x (by simp [hx])) _ true s2 rest h2) ?_
    rintro _ s5 ⟨rfl, h5⟩
    exact ⟨by simp, h5⟩

theorem outputs_close {st : List OperationOutput × Bool} {s : TState} {rest : List Token} (hA : At s (tPunct .closeBrace :: rest)) :
    Run (outputsStep st) s (fun r s' => r = .inr st.1 ∧ At s' rest) := by
  unfold outputsStep
  refine run_bind (run_get hA (fun s1 h1 => ?_))
  simp only [tPunct, if_true]
  exact run_pure ⟨rfl, h1.at'⟩

theorem outputs_nl {st : List OperationOutput × Bool} {s : TState} {rest : List Token} (hA : At s (tNl :: rest)) :
    Run (outputsStep st) s (fun r s' => r = .inl (st.1, true) ∧ At s' rest) := by
  unfold outputsStep
  refine run_bind (run_get hA (fun s1 h1 => ?_))
  simp only [tNl, reduceCtorEq, if_false, if_true]
  exact run_pure ⟨rfl, h1.at'⟩

theorem outputs_one {st : List OperationOutput × Bool} {n t : String} {s : TState} {rest : List Token} (hA : At s (tSym n :: tSym t :: rest)) :
    Run (outputsStep st) s (fun r s' => r = .inl (st.1 ++ [{ name := n, ts := { type := t } }], false) ∧ At s' rest) := by
  unfold outputsStep
  refine run_bind (run_get hA (fun s1 h1 => ?_))
  simp only [tSym, reduceCtorEq, if_false, ne_eq, not_true]
  refine run_bind (run_must h1.at' (fun s2 h2 => ?_))
  simp only [tSym, not_true, if_false]
  exact run_pure ⟨rfl, h2.at'⟩

theorem outputToks_eq {pl : PrintLib} {n t : String} (hn : IsName n) (ht : IsName t) (tail : List Token) :
    outputToks pl [] { name := n, ts := { type := t } } ++ tail = tSym n :: tSym t :: tNl :: tail := by
  simp only [outputToks, bare_name hn, bare_name ht, not_long, endLine_empty, Bool.false_eq_true, if_false]
  simp [endLine_empty]

theorem run_outputs {pl : PrintLib} (fs : List OperationOutput) : (∀ f ∈ fs, OutputOk f) → ∀ (acc : List OperationOutput) (flag : Bool) (s : TState)
    (rest : List Token), At s ((fs.map (outputToks pl [])).flatten ++ tPunct .closeBrace :: rest) →
    Run (P.loop outputsStep (acc, flag)) s (fun r s' => r = acc ++ fs ∧ At s' rest) := by
  induction fs with
  | nil =>
    intro _ acc flag s rest hA
    exact loop_last (outputs_close hA) (fun s' h' => ⟨by simp, h'⟩)
  | cons f fs ih =>
    intro h acc flag s rest hA
    obtain ⟨n, t, hn, ht, rfl⟩ := h f (by simp)
    rw [List.map_cons, List.flatten_cons, List.append_assoc, outputToks_eq hn ht] at hA
    refine loop_step hA (outputs_one hA) (by simp) (fun s1 h1 => ?_)
    refine loop_step h1 (outputs_nl h1) (Nat.lt_succ_self _) (fun s2 h2 => ?_)
    refine run_mono (ih (fun x hx => h x (by simp [hx])) _ true s2 rest h2) ?_
    rintro _ s5 ⟨rfl, h5⟩
    exact ⟨by simp, h5⟩

theorem exceptions_close {st : List String × Bool} {s : TState} {rest : List Token} (hA : At s (tPunct .closeBrace :: rest)) :
    Run (exceptionsStep st) s (fun r s' => r = .inr st.1 ∧ At s' rest) := by
  unfold exceptionsStep
  refine run_bind (run_get hA (fun s1 h1 => ?_))
  simp only [tPunct, if_true]
  exact run_pure ⟨rfl, h1.at'⟩

theorem exceptions_nl {st : List String × Bool} {s : TState} {rest : List Token} (hA : At s (tNl :: rest)) :
    Run (exceptionsStep st) s (fun r s' => r = .inl (st.1, true) ∧ At s' rest) := by
  unfold exceptionsStep
  refine run_bind (run_get hA (fun s1 h1 => ?_))
  simp only [tNl, reduceCtorEq, if_false, if_true]
  exact run_pure ⟨rfl, h1.at'⟩

theorem exceptions_one {st : List String × Bool} {n : String} {s : TState} {rest : List Token} (hA : At s (tSym n :: rest)) :
    Run (exceptionsStep st) s (fun r s' => r = .inl (st.1 ++ [n], false) ∧ At s' rest) := by
  unfold exceptionsStep
  refine run_bind (run_get hA (fun s1 h1 => ?_))
  simp only [tSym, reduceCtorEq, if_false, ne_eq, not_true]
  exact run_pure ⟨rfl, h1.at'⟩

theorem run_exceptions {pl : PrintLib} (xs : List String) : (∀ x ∈ xs, IsName x) → ∀ (acc : List String) (flag : Bool) (s : TState)
    (rest : List Token), At s ((xs.map (fun e => bareToks pl e ++ [tNl])).flatten ++ tPunct .closeBrace :: rest) →
    Run (P.loop exceptionsStep (acc, flag)) s (fun r s' => r = acc ++ xs ∧ At s' rest) := by
  induction xs with
  | nil =>
    intro _ acc flag s rest hA
    exact loop_last (exceptions_close hA) (fun s' h' => ⟨by simp, h'⟩)
  | cons x xs ih =>
    intro h acc flag s rest hA
    have hA' : At s (tSym x :: tNl :: ((xs.map (fun e => bareToks pl e ++ [tNl])).flatten ++ tPunct .closeBrace :: rest)) := by
      simpa [bare_name (h x (by simp))] using hA
    refine loop_step hA' (exceptions_one hA') (Nat.lt_succ_self _) (fun s1 h1 => ?_)
    refine loop_step h1 (exceptions_nl h1) (Nat.lt_succ_self _) (fun s2 h2 => ?_)
    refine run_mono (ih (fun x hx => h x (by simp [hx])) _ true s2 rest h2) ?_
    rintro _ s5 ⟨rfl, h5⟩
    exact ⟨by simp, h5⟩

/-- A newline between the blocks. -/
theorem op_newline {op : OperationDef} {s : TState} {rest : List Token} {Q : OperationDef → TState → Prop} (hA : At s (tNl :: rest))
    (h : ∀ s', At s' rest → Run (P.loop operationStep op) s' Q) : Run (P.loop operationStep op) s Q := by
  refine run_loop_again hA ?_
  unfold operationStep
  refine run_bind (run_next hA (fun s1 h1 => ?_))
  simp only [tNl, reduceCtorEq, if_false]
  exact run_pure ⟨_, _, rfl, h1.at', Nat.lt_succ_self _, h s1 h1.at'⟩

/-- parser.go:380-392, as in `operationStep`. -/
def opBlock (op : OperationDef) (word : String) : P (OperationDef ⊕ OperationDef) :=
  match word with
  | "inputs" => do let x ← parseOperationInputs; pure (.inl { op with inputs := x })
  | "outputs" => do let x ← parseOperationOutputs; pure (.inl { op with outputs := x })
  | "exceptions" => do let x ← parseOperationExceptions; pure (.inl { op with exceptions := x })
  | _ => P.fail "Expected 'inputs', 'outputs', or 'exceptions'"

theorem op_block {op op' : OperationDef} {word : String} {lines : List (List Token)} {s : TState} {rest : List Token} {Q : OperationDef → TState → Prop}
    (hA : At s (blockToks word lines ++ rest)) (he : lines = [] → op' = op)
    (hstep : ∀ (s1 : TState) (r : List Token), At s1 (tPunct .openBrace :: tNl :: (lines.flatten ++ tPunct .closeBrace :: r)) →
      Run (opBlock op word) s1 (fun x s' => x = .inl op' ∧ At s' r))
    (h : ∀ s', At s' rest → Run (P.loop operationStep op') s' Q) : Run (P.loop operationStep op) s Q := by
  unfold blockToks at hA
  by_cases hl : lines = []
  · rw [if_pos hl] at hA
    rw [he hl] at h
    exact h s hA
  · rw [if_neg hl] at hA
    have hA' : At s (tSym word :: tPunct .openBrace :: tNl :: (lines.flatten ++ tPunct .closeBrace :: tNl :: rest)) := by simpa using hA
    refine run_loop_again hA' ?_
    unfold operationStep
    refine run_bind (run_next hA' (fun s1 h1 => ?_))
    simp only [tSym, reduceCtorEq, if_false, if_true]
    refine run_mono (hstep s1 (tNl :: rest) h1.at') ?_
    rintro _ s2 ⟨rfl, h2⟩
    exact ⟨_, _, rfl, h2, by simp; omega, op_newline h2 h⟩

theorem leftover_nil {pl : PrintLib} {op : OperationDef} (h : (∀ f ∈ op.inputs.getLast?, f.required = false) ∧ (op.inputs = [] → op.annotations = [])) :
    leftoverToks pl op = [] := by
  unfold leftoverToks
  cases hl : op.inputs.getLast? with
  | none =>
    have : op.inputs = [] := by simpa using hl
    simp [h.2 this, annotationsToks, annoOpts, optToks]
  | some f =>
    have := h.1 f (by simp [hl])
    simp [inputOptToks, this, optToks]

/-- A printed operation. -/
theorem run_operation {lib : PLib} {pl : PrintLib} {op : OperationDef} (h : OperationOk op) {s : TState} {rest : List Token} {r0 : List Token}
    (hr : operationToks pl op = tSym "operation" :: r0) (hA : At s (r0 ++ rest)) :
    Run (parseOperationDirective lib op.comment) s (fun r s' => r = op ∧ At s' (tNl :: rest)) := by
  obtain ⟨name, comment, annos, ins, outs, excs⟩ := op
  obtain ⟨h1, h2, h3, h4, h5, h6, h7⟩ := h
  simp only at h1 h2 h3 h4 h5 h6 h7
  have e : r0 ++ rest = tSym name :: (annotationsToks pl annos ++ (tPunct .openBrace :: tNl ::
      (blockToks "inputs" (ins.map (inputToks pl)) ++ (blockToks "outputs" (outs.map (outputToks pl [])) ++
      (blockToks "exceptions" (excs.map (fun e => bareToks pl e ++ [tNl])) ++ (tPunct .closeBrace :: tNl :: rest)))))) := by
    have e1 : outs.map (outputToks pl (leftoverToks pl ⟨name, comment, annos, ins, outs, excs⟩)) = outs.map (outputToks pl []) := by
      by_cases ho : outs = []
      · subst ho; rfl
      · rw [leftover_nil (h7 ho)]
    unfold operationToks at hr
    rw [e1, bare_name h1] at hr
    simp only [List.cons_append, List.nil_append, List.cons.injEq, true_and] at hr
    rw [← hr]
    simp
  rw [e] at hA
  unfold parseOperationDirective
  refine run_bind (run_identifier hA (fun s1 a1 => ?_))
  refine run_bind (run_mono (run_attempt (run_options (annotations_list (acc := ["http"]) h3) (fun _ => by simp [tPunct]) a1)) ?_)
  rintro _ s2 ⟨_, rfl, rfl, a2⟩
  refine run_bind (run_expect a2 rfl (fun s3 a3 => ?_))
  refine run_bind (run_mono (Q := fun o s' => o = { name := name, comment := comment, inputs := ins, outputs := outs, exceptions := excs } ∧ At s' (tNl :: rest)) ?_ ?_)
  · refine op_newline a3.at' (fun s4 a4 => ?_)
    refine op_block (op' := { name := name, comment := comment, inputs := ins }) a4 (fun hl => by simp at hl; subst hl; rfl) ?_ (fun s5 a5 => ?_)
    · intro s' r hs'
      refine run_bind ?_
      unfold parseOperationInputs
      refine run_bind (run_must hs' (fun s6 a6 => ?_))
      simp only [tPunct, ne_eq, not_true, if_false]
      refine loop_step a6.at' (inputs_nl a6.at') (Nat.lt_succ_self _) (fun s7 a7 => ?_)
      refine run_mono (run_inputs ins h4 [] true s7 r a7) ?_
      rintro _ s8 ⟨rfl, a8⟩
      exact run_pure ⟨rfl, a8⟩
    refine op_block (op' := { name := name, comment := comment, inputs := ins, outputs := outs }) a5 (fun hl => by simp at hl; subst hl; rfl) ?_ (fun s6 a6 => ?_)
    · intro s' r hs'
      refine run_bind ?_
      unfold parseOperationOutputs
      refine run_bind (run_must hs' (fun s6 a6 => ?_))
      simp only [tPunct, ne_eq, not_true, if_false]
      refine loop_step a6.at' (outputs_nl a6.at') (Nat.lt_succ_self _) (fun s7 a7 => ?_)
      refine run_mono (run_outputs outs h5 [] true s7 r a7) ?_
      rintro _ s8 ⟨rfl, a8⟩
      exact run_pure ⟨rfl, a8⟩
    refine op_block (op' := { name := name, comment := comment, inputs := ins, outputs := outs, exceptions := excs }) a6 (fun hl => by simp at hl; subst hl; rfl) ?_
      (fun s7 a7 => ?_)
    · intro s' r hs'
      refine run_bind ?_
      unfold parseOperationExceptions
      refine run_bind (run_must hs' (fun s6 a6 => ?_))
      simp only [tPunct, ne_eq, not_true, if_false]
      refine loop_step a6.at' (exceptions_nl a6.at') (Nat.lt_succ_self _) (fun s7 a7 => ?_)
      refine run_mono (run_exceptions excs h6 [] true s7 r a7) ?_
      rintro _ s8 ⟨rfl, a8⟩
      exact run_pure ⟨rfl, a8⟩
    refine run_loop_done ?_
    unfold operationStep
    refine run_bind (run_next a7 (fun s8 a8 => ?_))
    simp only [tPunct, if_true]
    exact run_pure ⟨_, rfl, rfl, a8.at'⟩
  · rintro _ s4 ⟨rfl, a4⟩
    exact run_pure ⟨rfl, a4⟩

end Sadl.Props
