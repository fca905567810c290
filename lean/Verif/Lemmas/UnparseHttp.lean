import Verif.Lemmas.UnparseOp
/-
Printed HTTP actions are read back.
-/
namespace Sadl.Props
open Sadl Sadl.Spec

/-! ### Comments before a line -/

theorem gather_nls {q : List Token} (h : Nls q) (c : String) : gather c q = c := by
  induction q with
  | nil => rfl
  | cons t r ih =>
    have ht : t = tNl := h t (by simp)
    subst ht
    have := ih (fun x hx => h x (by simp [hx]))
    unfold gather at this ⊢
    simpa [tNl] using this

theorem nls_comments {q : List Token} (h : Nls q) : AllComments q := by
  intro t ht; rw [h t ht]; exact .inr rfl

theorem allComments_append {a b : List Token} (ha : AllComments a) (hb : AllComments b) : AllComments (a ++ b) := by
  intro t ht
  rcases List.mem_append.1 ht with h | h
  · exact ha t h
  · exact hb t h

theorem innerComment_gather {pl : PrintLib} {c : String} (h : IsWords c) :
    AllComments (innerCommentToks pl c) ∧ gather "" (innerCommentToks pl c) = c := by
  unfold innerCommentToks
  by_cases hc : c = ""
  · subst hc; rw [if_pos rfl]; exact ⟨by intro t ht; simp at ht, rfl⟩
  · rw [if_neg hc]
    have e : "    " = String.ofList (List.replicate 4 ' ') := by decide
    rw [e]
    exact commentToks_gather 4 (by decide) h hc false

theorem blockComment_gather {pl : PrintLib} {c : String} (h : IsWords c) :
    AllComments (blockCommentToks pl c) ∧ gather "" (blockCommentToks pl c) = c := by
  unfold blockCommentToks
  by_cases hc : c = ""
  · subst hc; rw [if_pos rfl]; exact ⟨by intro t ht; simp at ht, rfl⟩
  · rw [if_neg hc]
    have e : "" = String.ofList (List.replicate 0 ' ') := by decide
    have := commentToks_gather (pl := pl) 0 (by decide) h hc true
    rwa [← e] at this

theorem block_pre {pre : List Token} (hp : AllComments pre) : ∀ {c : String} {s : TState} {rest : List Token} {Q : Bool × String → TState → Prop},
    At s (pre ++ rest) → (∀ s', At s' rest → Run (P.loop blockStep (gather c pre)) s' Q) → Run (P.loop blockStep c) s Q := by
  induction pre with
  | nil => intro c s rest Q hA h; exact h s hA
  | cons t r ih =>
    intro c s rest Q hA h
    have hr : AllComments r := fun x hx => hp x (by simp [hx])
    have hA' : At s (t :: (r ++ rest)) := hA
    refine loop_step hA' (y := gather c [t]) (ts' := r ++ rest) ?_ (Nat.lt_succ_self _) (fun s1 h1 => ?_)
    · unfold blockStep
      refine run_bind (run_get hA' (fun s1 h1 => ?_))
      rcases hp t (by simp) with ht | ht
      · simp only [ht, reduceCtorEq, if_false, if_true]
        exact run_pure ⟨by simp [gather, ht], h1.at'⟩
      · simp only [ht, reduceCtorEq, if_false, if_true]
        exact run_pure ⟨by simp [gather, ht], h1.at'⟩
    · refine ih hr h1 (fun s2 h2 => ?_)
      rw [← gather_append]
      exact h s2 h2

theorem run_block_go {pre : List Token} (hp : AllComments pre) {c : String} {t : Token} {s : TState} {rest : List Token}
    (hA : At s (pre ++ t :: rest)) (ht : t.type = .symbol) :
    Run (isBlockDone c) s (fun r s' => r = (false, gather c pre) ∧ At s' (t :: rest)) := by
  refine block_pre hp hA (fun s1 h1 => ?_)
  refine loop_last (a := (false, gather c pre)) (ts' := t :: rest) ?_ (fun s' h' => ⟨rfl, h'⟩)
  unfold blockStep
  refine run_bind (run_get h1 (fun s2 h2 => ?_))
  simp only [ht, reduceCtorEq, if_false]
  exact run_bind (run_unget h2 (fun s3 h3 => run_pure ⟨rfl, h3⟩))

theorem run_block_close {pre : List Token} (hp : AllComments pre) {c : String} {s : TState} {rest : List Token}
    (hA : At s (pre ++ tPunct .closeBrace :: rest)) :
    Run (isBlockDone c) s (fun r s' => r = (true, gather c pre) ∧ At s' rest) := by
  refine block_pre hp hA (fun s1 h1 => ?_)
  refine loop_last (a := (true, gather c pre)) (ts' := rest) ?_ (fun s' h' => ⟨rfl, h'⟩)
  unfold blockStep
  refine run_bind (run_get h1 (fun s2 h2 => ?_))
  simp only [tPunct, if_true]
  exact run_pure ⟨rfl, h2.at'⟩

/-! ### Parameters -/

theorem paramType_flat {lib : PLib} {pl : PrintLib} {ts : TypeSpec} (h : ParamTypeOk ts) (N : Nat) (recur : P Elems) :
    ∃ core params, Flat lib pl (typeSpecElementsStep lib recur) N ts core params [] ∧ ts.pattern = "" ∧ ts.values = none ∧ ts.minSize = none ∧
      ts.maxSize = none ∧ ts.min = none ∧ ts.max = none := by
  cases h with
  | @named t hn ht =>
    by_cases hs : t ∈ specialTypes
    · have : t = "String" ∨ t ∈ ["Int8", "Int16", "Int32", "Int64", "Float32", "Float64", "Decimal"] := by
        simp [specialTypes] at hs ht ⊢; tauto
      rcases this with rfl | hnum
      · exact ⟨_, _, flat_string plain_empty (by simp [SizeOk]) (by simp [SizeOk]) (by simp) N recur, rfl, rfl, rfl, rfl, rfl, rfl⟩
      · exact ⟨_, _, flat_number hnum (by simp) (by simp) N recur, rfl, rfl, rfl, rfl, rfl, rfl⟩
    · exact ⟨_, _, flat_named hn hs N recur, rfl, rfl, rfl, rfl, rfl, rfl⟩
  | unitValue => exact ⟨_, _, flat_unitValue N recur, rfl, rfl, rfl, rfl, rfl, rfl⟩
  | array h1 => exact ⟨_, _, flat_array h1 (by simp [SizeOk]) (by simp [SizeOk]) N recur, rfl, rfl, rfl, rfl, rfl, rfl⟩
  | map h0 h1 => exact ⟨_, _, flat_map h0 h1 (by simp [SizeOk]) (by simp [SizeOk]) N recur, rfl, rfl, rfl, rfl, rfl, rfl⟩

theorem chain_default {lib : PLib} {pl : PrintLib} {acc : List String} {o : Options} {v : Value} (hv : ValueOk lib pl v) (hm : "default" ∈ acc)
    (ho : o.default = .null) :
    OptChain lib acc (defaultOpts pl v) o { o with default := v } := by
  by_cases hn : v = .null
  · subst hn
    have : { o with default := Value.null } = o := by cases o; simp_all
    rw [this]; exact .nil
  · have e : defaultOpts pl v =
        [tSym "default" :: tPunct .equals :: jsonToks pl false v] := by
      cases v <;> first | rfl | exact absurd rfl hn
    rw [e]
    exact chain_opt (by decide) hm (.default (json_lit false hv))

theorem chain_header {lib : PLib} {acc : List String} {o : Options} {x : String} (hx : IsPlain x) (hm : "header" ∈ acc) (ho : o.header = "") :
    OptChain lib acc (if x = "" then [] else [[tSym "header", tPunct .equals, quotedTok x]]) o { o with header := x } := by
  by_cases h : x = ""
  · subst h
    have : { o with header := "" } = o := by cases o; simp_all
    rw [this, if_pos rfl]; exact .nil
  · rw [if_neg h, quoted_plain hx]
    exact chain_opt (by decide) hm .header

/-- A parameter as it is before the required parameters are marked. -/
def unmarked (p : HttpParamSpec) : HttpParamSpec := { p with field := { p.field with required := false } }

theorem run_param {lib : PLib} {pl : PrintLib} {path : String} {req : HttpParamSpec → Bool} {p : HttpParamSpec} (h : ParamOk lib pl path req p)
    {c1 c2 : String} (hc : (c1 = p.field.comment ∧ c2 = "") ∨ (c1 = "" ∧ c2 = p.field.comment)) {s : TState} {rest : List Token}
    (hA : At s (specToks pl p.field.ts [] ++ (optToks (paramOpts pl p) ++ (trail c2 ++ tNl :: rest)))) :
    Run (parseHttpParam lib path p.field.name c1) s (fun r s' => r = unmarked p ∧ At s' rest) := by
  obtain ⟨hdr, qry, pth, ⟨name, comment, annos, required, dflt, ts⟩⟩ := p
  obtain ⟨-, -, h3, h4, h5, h6, h7, h8, -⟩ := h
  simp only at h3 h4 h5 h6 h7 h8 hc hA ⊢
  subst h4
  have hline := words_line h3
  unfold parseHttpParam parseTypeSpec parseTypeSpecWith
  obtain ⟨core, params, hf, e1, e2, e3, e4, e5, e6⟩ := paramType_flat (lib := lib) (pl := pl) h5 s.size (typeSpecElementsN lib s.size)
  rw [hf.toks, List.nil_append, show optToks [] = [] from rfl, List.append_nil] at hA
  obtain ⟨t, r, e, ht1, ht2⟩ := after_type (paramOpts pl ⟨hdr, qry, pth, ⟨name, comment, [], required, dflt, ts⟩⟩) c2 rest
  rw [e] at hA
  refine run_bind (run_bind (run_mono (run_elements_at rfl (hf.read s t r hA (by rw [hA.size]) ht1 ht2)) ?_))
  rintro _ s1 ⟨rfl, a1⟩
  refine run_bind ⟨_, s1, spec_apply hf.spec s1, run_pure ?_⟩
  simp only
  rw [← e] at a1
  have hts : ({ type := ts.type, items := ts.items, keys := ts.keys, value := ts.value, unit := ts.unit } : TypeSpec) = ts := by
    have := hf.eq
    rw [e1, e2, e3, e4, e5, e6] at this
    rw [this]
  have hchain : OptChain lib ["header", "default", "required"] (paramOpts pl ⟨hdr, qry, pth, ⟨name, comment, [], required, dflt, ts⟩⟩) {}
      { required := required, default := dflt, header := hdr } := by
    unfold paramOpts
    exact OptChain.append (OptChain.append (chain_required required (fun _ => by simp) rfl) (chain_default h6 (by simp) rfl)) (chain_header h7 (by simp) rfl)
  obtain ⟨t', r', e', ht'⟩ := trail_head c2 rest
  refine run_bind (run_mono (run_options hchain.list (fun _ => by rw [e']; simpa using ht'.1) a1) ?_)
  rintro _ s2 ⟨rfl, a2⟩
  refine run_bind (run_mono (run_endOfStatement a2) ?_)
  rintro _ s3 ⟨rfl, a3⟩
  refine run_pure ⟨?_, a3.at'⟩
  have hcom : (if c2 = "" then mergeComment c1 "" else mergeComment (mergeComment c1 "") (" " ++ c2)) = comment := by
    rcases hc with ⟨rfl, rfl⟩ | ⟨rfl, rfl⟩
    · rw [if_pos rfl, merge_empty hline]
    · by_cases hz : c2 = ""
      · rw [if_pos hz, hz]; decide
      · rw [if_neg hz, show mergeComment "" "" = "" by decide, merge_first hline hz]
  rw [hts]
  simp only [hcom]
  unfold mkParam unmarked
  simp only
  generalize parameterSource path name hdr = src at h8
  cases src <;> (obtain ⟨h81, h82, h83⟩ := h8; subst h81 h82 h83; rfl)

/-- The lines of a parameter: its comment, if it is long, and the parameter. -/
theorem param_split {lib : PLib} {pl : PrintLib} {path : String} {req : HttpParamSpec → Bool} {p : HttpParamSpec} (h : ParamOk lib pl path req p) :
    ∃ pre c1 c2, AllComments pre ∧ gather "" pre = c1 ∧ ((c1 = p.field.comment ∧ c2 = "") ∨ (c1 = "" ∧ c2 = p.field.comment)) ∧
      ∀ rest, paramToks pl p ++ rest = pre ++ tSym p.field.name :: (specToks pl p.field.ts [] ++ (optToks (paramOpts pl p) ++ (trail c2 ++ tNl :: rest))) := by
  have hl := words_line h.comment
  unfold paramToks
  simp only [bare_name h.name]
  by_cases hlong : (pl.wide p.field.comment p.field.name p.field.ts (optToks (paramOpts pl p)) && decide (p.field.comment ≠ "")) = true
  · have hne : p.field.comment ≠ "" := by simp at hlong; exact hlong.2
    have e : "   " = String.ofList (List.replicate 3 ' ') := by decide
    obtain ⟨g1, g2⟩ := commentToks_gather (pl := pl) 3 (by decide) h.comment hne false
    rw [← e] at g1 g2
    refine ⟨_, _, "", g1, g2, .inl ⟨rfl, rfl⟩, fun rest => ?_⟩
    simp only [hlong, if_true, endLine_empty]
    simp [trail]
  · refine ⟨[], "", p.field.comment, (by intro t ht; simp at ht), rfl, .inr ⟨rfl, rfl⟩, fun rest => ?_⟩
    simp only [hlong, if_false]
    simp [endLine_eq hl]

/-- The parameters at the start of an action. -/
theorem run_http_inputs {lib : PLib} {pl : PrintLib} {path : String} {req : HttpParamSpec → Bool} (ps : List HttpParamSpec) :
    (∀ p ∈ ps, ParamOk lib pl path req p) → ∀ (op : HttpDef) (q : List Token) (s : TState) (rest : List Token) (Q : HttpDef → TState → Prop),
    op.path = path → Nls q → At s (q ++ (ps.flatMap (paramToks pl) ++ rest)) →
    (∀ s' q', Nls q' → At s' (q' ++ rest) → Run (P.loop (httpStep lib) { op with inputs := op.inputs ++ ps.map unmarked }) s' Q) →
    Run (P.loop (httpStep lib) op) s Q := by
  induction ps with
  | nil =>
    intro _ op q s rest Q _ hq hA h
    have := h s q hq (by simpa using hA)
    simpa using this
  | cons p r ih =>
    intro hp op q s rest Q hpath hq hA h
    obtain ⟨pre, c1, c2, g1, g2, g3, g4⟩ := param_split (hp p (by simp))
    have hA' : At s ((q ++ pre) ++ tSym p.field.name :: (specToks pl p.field.ts [] ++ (optToks (paramOpts pl p) ++ (trail c2 ++ tNl ::
        (r.flatMap (paramToks pl) ++ rest))))) := by
      rw [List.flatMap_cons, List.append_assoc, g4] at hA
      simpa using hA
    refine loop_step (y := { op with inputs := op.inputs ++ [unmarked p] }) hA' (ts' := r.flatMap (paramToks pl) ++ rest) ?_ ?_ (fun s1 h1 => ?_)
    · unfold httpStep
      refine run_bind (run_mono (run_block_go (allComments_append (nls_comments hq) g1) hA' rfl) ?_)
      rintro _ s1 ⟨rfl, a1⟩
      simp only [Bool.false_eq_true, if_false]
      rw [gather_append, gather_nls hq, g2]
      refine run_bind ?_
      unfold parseHttpSpec
      refine run_bind (run_identifier a1 (fun s2 a2 => ?_))
      have hk := (hp p (by simp)).keyword
      simp only [hk.1, hk.2, if_false]
      rw [hpath]
      refine run_bind (run_mono (run_param (hp p (by simp)) g3 a2) ?_)
      rintro _ s3 ⟨rfl, a3⟩
      exact run_pure (run_pure ⟨rfl, a3⟩)
    · simp; omega
    · refine ih (fun x hx => hp x (by simp [hx])) { op with inputs := op.inputs ++ [unmarked p] } [] s1 rest Q hpath nls_nil h1 (fun s2 q2 hq2 a2 => ?_)
      have := h s2 q2 hq2 a2
      simpa using this

/-- The outputs of `expect`. -/
theorem run_expect_outputs {lib : PLib} {pl : PrintLib} {path : String} {req : HttpParamSpec → Bool} (ps : List HttpParamSpec) :
    (∀ p ∈ ps, ParamOk lib pl path req p) → ∀ (e : HttpExpectedSpec) (q : List Token) (s : TState) (rest : List Token), IsLine e.comment →
    Nls q → At s (q ++ (ps.flatMap (paramToks pl) ++ tPunct .closeBrace :: rest)) →
    Run (P.loop (expectStep lib path) e) s (fun r s' => r = { e with outputs := e.outputs ++ ps.map unmarked } ∧ At s' rest) := by
  induction ps with
  | nil =>
    intro _ e q s rest he hq hA
    refine loop_last (a := e) (ts' := rest) ?_ (fun s' h' => ⟨by simp, h'⟩)
    unfold expectStep
    refine run_bind (run_mono (run_block_close (nls_comments hq) hA) ?_)
    rintro _ s1 ⟨rfl, a1⟩
    simp only [if_true]
    rw [gather_nls hq]
    refine run_pure ⟨?_, a1⟩
    rw [merge_empty he]
  | cons p r ih =>
    intro hp e q s rest he hq hA
    obtain ⟨pre, c1, c2, g1, g2, g3, g4⟩ := param_split (hp p (by simp))
    have hA' : At s ((q ++ pre) ++ tSym p.field.name :: (specToks pl p.field.ts [] ++ (optToks (paramOpts pl p) ++ (trail c2 ++ tNl ::
        (r.flatMap (paramToks pl) ++ tPunct .closeBrace :: rest))))) := by
      rw [List.flatMap_cons, List.append_assoc, g4] at hA
      simpa using hA
    refine loop_step (y := { e with outputs := e.outputs ++ [unmarked p] }) hA' (ts' := r.flatMap (paramToks pl) ++ tPunct .closeBrace :: rest) ?_ ?_
      (fun s1 h1 => ?_)
    · unfold expectStep
      refine run_bind (run_mono (run_block_go (allComments_append (nls_comments hq) g1) hA' rfl) ?_)
      rintro _ s1 ⟨rfl, a1⟩
      simp only [Bool.false_eq_true, if_false]
      rw [gather_append, gather_nls hq, g2]
      refine run_bind (run_identifier a1 (fun s2 a2 => ?_))
      have hk := (hp p (by simp)).keyword
      simp only [hk.1, hk.2, or_self, if_false]
      refine run_bind (run_mono (run_param (hp p (by simp)) g3 a2) ?_)
      rintro _ s3 ⟨rfl, a3⟩
      exact run_pure ⟨rfl, a3⟩
    · simp; omega
    · refine run_mono (ih (fun x hx => hp x (by simp [hx])) { e with outputs := e.outputs ++ [unmarked p] } [] s1 rest he nls_nil h1) ?_
      rintro _ s2 ⟨rfl, a2⟩
      exact ⟨by simp, a2⟩

/-- The `expect` clause. -/
theorem run_expectation {lib : PLib} {pl : PrintLib} {e : HttpExpectedSpec} {op : HttpDef} {req : HttpParamSpec → Bool}
    (h1 : StatusOk e.status) (h2 : IsWords e.comment) (h3 : e.annotations = []) (h4 : ∀ p ∈ e.outputs, ParamOk lib pl op.path req p) (hn : op.expected = none)
    {q : List Token} (hq : Nls q) {s : TState} {rest : List Token}
    (hA : At s (q ++ (innerCommentToks pl e.comment ++ tSym "expect" :: (intToks pl e.status ++ tPunct .openBrace :: tNl ::
      (e.outputs.flatMap (paramToks pl) ++ tPunct .closeBrace :: tNl :: rest))))) :
    Run (httpStep lib op) s (fun r s' => r = .inl { op with expected := some { e with outputs := e.outputs.map unmarked } } ∧ At s' rest) := by
  obtain ⟨outs, status, comment, annos⟩ := e
  simp only at h1 h2 h3 h4 hA ⊢
  subst h3
  obtain ⟨g1, g2⟩ := innerComment_gather (pl := pl) h2
  rw [intToks_nonneg h1.1] at hA
  have hA' : At s ((q ++ innerCommentToks pl comment) ++ tSym "expect" :: tNum (intText status.toNat) :: tPunct .openBrace :: tNl ::
      (outs.flatMap (paramToks pl) ++ tPunct .closeBrace :: tNl :: rest)) := by simpa using hA
  unfold httpStep
  refine run_bind (run_mono (run_block_go (allComments_append (nls_comments hq) g1) hA' rfl) ?_)
  rintro _ s1 ⟨rfl, a1⟩
  simp only [Bool.false_eq_true, if_false]
  rw [gather_append, gather_nls hq, g2]
  refine run_bind ?_
  unfold parseHttpSpec
  refine run_bind (run_identifier a1 (fun s2 a2 => ?_))
  simp only [if_true]
  unfold parseHttpExpectedSpec
  rw [hn]
  simp only
  refine run_bind (run_int a2 (parseInt_status h1) (fun s3 a3 => ?_))
  have a3' : At s3 (optToks [] ++ tPunct .openBrace :: tNl :: (outs.flatMap (paramToks pl) ++ tPunct .closeBrace :: tNl :: rest)) := a3
  refine run_bind (run_mono (run_options (OptChain.nil (lib := lib) (acc := []) (o := {})).list (fun _ => by simp [tPunct]) a3') ?_)
  rintro _ s4 ⟨rfl, a4⟩
  refine run_bind (run_next a4 (fun s5 a5 => ?_))
  simp only [tPunct, if_true]
  have hl := words_line h2
  have a5' : At s5 (trail "" ++ tNl :: (outs.flatMap (paramToks pl) ++ tPunct .closeBrace :: tNl :: rest)) := a5.at'
  refine run_bind (run_bind (run_mono (run_trailingComment a5' comment) ?_))
  rintro c6 s6 ⟨hc6, a6⟩
  rw [if_pos rfl] at hc6
  rw [hc6]
  have a6' : At s6 ([tNl] ++ (outs.flatMap (paramToks pl) ++ tPunct .closeBrace :: tNl :: rest)) := a6
  refine run_mono (run_expect_outputs outs h4 { status := status, comment := comment } [tNl] s6 (tNl :: rest) hl (by simp [Nls]) a6') ?_
  rintro _ s7 ⟨rfl, a7⟩
  refine run_bind (run_mono (run_end! a7) ?_)
  rintro _ s8 ⟨rfl, a8⟩
  exact run_pure (run_pure ⟨by simp, a8⟩)

/-- One exception. -/
theorem run_except {lib : PLib} {pl : PrintLib} {x : HttpExceptionSpec} {op : HttpDef} (h1 : IsName x.type) (h2 : StatusOk x.status)
    (h3 : IsWords x.comment) (h4 : x.annotations = []) (hn : op.exceptions.any (fun exc => exc.type == x.type) = false) {q : List Token} (hq : Nls q) {s : TState}
    {rest : List Token} (hA : At s (q ++ (exceptToks pl x ++ rest))) :
    Run (httpStep lib op) s (fun r s' => r = .inl { op with exceptions := op.exceptions ++ [x] } ∧ At s' rest) := by
  obtain ⟨type, status, comment, annos⟩ := x
  simp only at h1 h2 h3 h4 hn hA ⊢
  subst h4
  obtain ⟨g1, g2⟩ := innerComment_gather (pl := pl) h3
  have hst : (if status = 0 then [] else intToks pl status) = if status = 0 then [] else [tNum (intText status.toNat)] := by
    rw [intToks_nonneg h2.1]
  have hA' : At s ((q ++ innerCommentToks pl comment) ++ tSym "except" :: ((if status = 0 then [] else [tNum (intText status.toNat)]) ++
      tSym type :: tNl :: rest)) := by
    unfold exceptToks at hA
    simp only [bare_name h1, hst] at hA
    simpa using hA
  unfold httpStep
  refine run_bind (run_mono (run_block_go (allComments_append (nls_comments hq) g1) hA' rfl) ?_)
  rintro _ s1 ⟨rfl, a1⟩
  simp only [Bool.false_eq_true, if_false]
  rw [gather_append, gather_nls hq, g2]
  refine run_bind ?_
  unfold parseHttpSpec
  refine run_bind (run_identifier a1 (fun s2 a2 => ?_))
  simp only [String.reduceEq, if_false, if_true]
  unfold parseHttpExceptionSpec
  have tail : ∀ (s3 : TState) (st : Int), At s3 (tSym type :: tNl :: rest) → Run (α := HttpDef) (do
      let etype ← expectIdentifier
      if op.exceptions.any (fun exc => exc.type == etype) then P.fail "Duplicate HTTP action exception type"
      else do
        let options ← parseOptions lib []
        let c ← endOfStatement! comment
        pure { op with exceptions := op.exceptions ++ [{ type := etype, status := st, annotations := options.annotations, comment := c }] }) s3
      (fun (r : HttpDef) s' => r = { op with exceptions := op.exceptions ++ [{ type := type, status := st, comment := comment }] } ∧ At s' rest) := by
    intro s3 st a3
    refine run_bind (run_identifier a3 (fun s4 a4 => ?_))
    rw [hn]
    simp only [Bool.false_eq_true, if_false]
    have a4' : At s4 (optToks [] ++ tNl :: rest) := a4
    refine run_bind (run_mono (run_options (OptChain.nil (lib := lib) (acc := []) (o := {})).list (fun _ => by simp [tNl]) a4') ?_)
    rintro _ s5 ⟨rfl, a5⟩
    refine run_bind (run_mono (run_end! a5) ?_)
    rintro _ s6 ⟨rfl, a6⟩
    exact run_pure ⟨rfl, a6⟩
  by_cases hz : status = 0
  · subst hz
    have a2' : At s2 (tSym type :: tNl :: rest) := by simpa using a2
    refine run_bind (run_next a2' (fun s3 a3 => ?_))
    refine run_bind (run_unget a3 (fun s4 a4 => ?_))
    simp only [tSym, reduceCtorEq, if_false]
    refine run_bind (run_pure ?_)
    refine run_mono (tail s4 0 a4) ?_
    rintro _ s5 ⟨rfl, a5⟩
    exact run_pure ⟨rfl, a5⟩
  · have a2' : At s2 (tNum (intText status.toNat) :: tSym type :: tNl :: rest) := by simpa [hz] using a2
    refine run_bind (run_next a2' (fun s3 a3 => ?_))
    refine run_bind (run_unget a3 (fun s4 a4 => ?_))
    simp only [tNum, if_true]
    refine run_bind (run_int a4 (parseInt_status h2) (fun s5 a5 => ?_))
    refine run_mono (tail s5 status a5) ?_
    rintro _ s6 ⟨rfl, a6⟩
    exact run_pure ⟨rfl, a6⟩

theorem run_excepts {lib : PLib} {pl : PrintLib} (xs : List HttpExceptionSpec) :
    (∀ x ∈ xs, IsName x.type ∧ StatusOk x.status ∧ IsWords x.comment ∧ x.annotations = []) → ∀ (op : HttpDef) (q : List Token) (s : TState) (rest : List Token),
    ((op.exceptions ++ xs).map HttpExceptionSpec.type).Nodup → Nls q →
    At s (q ++ (xs.flatMap (exceptToks pl) ++ tPunct .closeBrace :: rest)) →
    Run (P.loop (httpStep lib) op) s (fun r s' => r = { op with exceptions := op.exceptions ++ xs } ∧ At s' rest) := by
  induction xs with
  | nil =>
    intro _ op q s rest _ hq hA
    refine loop_last (a := op) (ts' := rest) ?_ (fun s' h' => ⟨by simp, h'⟩)
    unfold httpStep
    refine run_bind (run_mono (run_block_close (nls_comments hq) hA) ?_)
    rintro _ s1 ⟨rfl, a1⟩
    simp only [if_true]
    exact run_pure ⟨rfl, a1⟩
  | cons x r ih =>
    intro hx op q s rest hn hq hA
    obtain ⟨x1, x2, x3, x4⟩ := hx x (by simp)
    have hA' : At s (q ++ (exceptToks pl x ++ (r.flatMap (exceptToks pl) ++ tPunct .closeBrace :: rest))) := by simpa using hA
    have hany : op.exceptions.any (fun exc => exc.type == x.type) = false := by
      rw [List.any_eq_false]
      intro y hy
      simp only [beq_iff_eq]
      intro e
      rw [List.map_append, List.nodup_append] at hn
      exact hn.2.2 y.type (List.mem_map_of_mem hy) x.type (by simp) e
    refine loop_step hA' (run_except x1 x2 x3 x4 hany hq hA') ?_ (fun s1 a1 => ?_)
    · unfold exceptToks; simp; omega
    · refine run_mono (ih (fun y hy => hx y (by simp [hy])) { op with exceptions := op.exceptions ++ [x] } [] s1 rest (by simpa using hn) nls_nil a1) ?_
      rintro _ s2 ⟨rfl, a2⟩
      exact ⟨by simp, a2⟩

/-! ### The whole action -/

theorem chain_operation {lib : PLib} {acc : List String} {o : Options} {x : String} (hm : "operation" ∈ acc) :
    OptChain lib acc [[tSym "operation", tPunct .equals, tSym x]] o { o with action := x } :=
  chain_opt (by decide) hm .operation

theorem required_inputs {lib : PLib} {pl : PrintLib} {path : String} {ps : List HttpParamSpec}
    (h : ∀ p ∈ ps, ParamOk lib pl path (fun p => decide (p.header ≠ "")) p) : (ps.map unmarked).map requireInput = ps := by
  rw [List.map_map]
  conv_rhs => rw [← List.map_id ps]
  apply List.map_congr_left
  intro p hp
  obtain ⟨-, -, -, -, -, -, -, h8, h9⟩ := h p hp
  obtain ⟨hdr, qry, pth, ⟨name, comment, annos, required, dflt, ts⟩⟩ := p
  simp only at h8 h9
  simp only [Function.comp, unmarked, requireInput, id]
  rw [h9]
  by_cases hh : hdr = ""
  · simp [hh]
  · have hs : parameterSource path name hdr = .header hdr := by unfold parameterSource; rw [if_pos hh]
    rw [hs] at h8
    simp [hh, h8.2.1]

theorem required_outputs {lib : PLib} {pl : PrintLib} {path : String} {e : HttpExpectedSpec}
    (h : ∀ p ∈ e.outputs, ParamOk lib pl path (fun p => decide (p.header = "" ∧ e.status ≠ 204 ∧ e.status ≠ 304)) p) :
    (if e.status ≠ 204 ∧ e.status ≠ 304 then { e with outputs := (e.outputs.map unmarked).map requireOutput }
      else { e with outputs := e.outputs.map unmarked }) = e := by
  have key : ∀ (f : HttpParamSpec → HttpParamSpec), (∀ p ∈ e.outputs, f (unmarked p) = p) → (e.outputs.map unmarked).map f = e.outputs := by
    intro f hf
    rw [List.map_map]
    conv_rhs => rw [← List.map_id e.outputs]
    exact List.map_congr_left hf
  by_cases hst : e.status ≠ 204 ∧ e.status ≠ 304
  · rw [if_pos hst, key]
    intro p hp
    have h9 := (h p hp).required
    obtain ⟨hdr, qry, pth, ⟨name, comment, annos, required, dflt, ts⟩⟩ := p
    simp only [hst, ne_eq, not_false_eq_true, and_true] at h9
    subst h9
    by_cases hh : hdr = ""
    · simp [unmarked, requireOutput, hh]
    · simp [unmarked, requireOutput, hh]
  · rw [if_neg hst]
    have := key id (by
      intro p hp
      have h9 := (h p hp).required
      obtain ⟨hdr, qry, pth, ⟨name, comment, annos, required, dflt, ts⟩⟩ := p
      have : required = false := by
        simp only at h9
        rw [h9]; simp only [decide_eq_false_iff_not]; tauto
      subst this; rfl)
    rw [List.map_id] at this
    rw [this]

/-- A printed HTTP action. -/
theorem run_http {lib : PLib} {pl : PrintLib} {h : HttpDef} (hk : HttpDefOk lib pl h) {s : TState} {rest r0 : List Token}
    (hr : httpToks pl h = tSym "http" :: r0) (hA : At s (r0 ++ rest)) :
    Run (parseHttpDirective lib h.comment) s (fun r s' => r = h ∧ At s' rest) := by
  obtain ⟨name, resource, comment, annos, method, path, inputs, expected, excs⟩ := h
  obtain ⟨k1, k2, k3, k4, k5, k6, ⟨e, rfl, k7, k8, k9, k10⟩, k11, k12⟩ := hk
  simp only at k1 k2 k3 k4 k5 k6 k7 k8 k9 k10 k11 k12 ⊢
  have hline := words_line k3
  have hm : IsName method ∧ upperS method = method := by
    simp only [List.mem_cons, List.not_mem_nil, or_false] at k1
    rcases k1 with rfl | rfl | rfl | rfl | rfl | rfl | rfl <;> (constructor <;> first | decide | (unfold IsName; decide))
  generalize hhd : (⟨name, resource, comment, annos, method, path, inputs, some e, excs⟩ : HttpDef) = hd at *
  have hq0 : Nls [] := nls_nil
  have hq1 : Nls [tNl] := by simp [Nls]
  obtain ⟨q, hq, eq⟩ : ∃ q, Nls q ∧ r0 ++ rest = tSym method :: tStr path :: (optToks (httpOpts pl hd) ++ (tPunct .openBrace :: tNl ::
      (inputs.flatMap (paramToks pl) ++ tNl :: (innerCommentToks pl e.comment ++ tSym "expect" :: (intToks pl e.status ++ tPunct .openBrace :: tNl ::
      (e.outputs.flatMap (paramToks pl) ++ tPunct .closeBrace :: tNl :: (q ++ (excs.flatMap (exceptToks pl) ++ tPunct .closeBrace :: tNl :: rest)))))))) := by
    have hex : expectedOf hd = e := by rw [← hhd]; rfl
    have hmth : hd.method = method := by rw [← hhd]
    have hpth : hd.path = path := by rw [← hhd]
    have hins : hd.inputs = inputs := by rw [← hhd]
    have hexc : hd.exceptions = excs := by rw [← hhd]
    unfold httpToks at hr
    rw [hex, hmth, hpth, hins, hexc, bare_name hm.1, quoted_plain k2] at hr
    simp only [List.cons_append, List.nil_append, List.cons.injEq, true_and] at hr
    rw [← hr]
    by_cases hx : excs = []
    · subst hx
      refine ⟨[], nls_nil, ?_⟩
      simp
    · refine ⟨[tNl], hq1, ?_⟩
      have : excs.isEmpty = false := by simpa using hx
      simp [this]
  rw [eq] at hA
  unfold parseHttpDirective
  refine run_bind (run_identifier hA (fun s1 a1 => ?_))
  rw [hm.2]
  have hmm : ¬ (method ∉ httpMethods) := not_not.2 k1
  simp only [hmm, if_false]
  refine run_bind (run_string a1 (fun s2 a2 => ?_))
  -- the options
  obtain ⟨act, hact, hopts⟩ : ∃ act, ((act = name ∧ IsName name ∧ resource = "") ∨
      (act = "" ∧ ((resource = resourceName path ∧ resource ≠ "" ∧ name = actionName hd) ∨ (name = "" ∧ resource = "" ∧ resourceName path = "")))) ∧
      OptChain lib ["action", "operation", "resource"] (httpOpts pl hd) {} { action := act, annotations := annos } := by
    have hnm : hd.name = name := by rw [← hhd]
    have han : hd.annotations = annos := by rw [← hhd]
    unfold httpOpts
    rw [hnm, han]
    rcases k5 with ⟨n1, n2, n3⟩ | ⟨n1, n2, n3⟩ | ⟨n1, n2, n3⟩
    · have hne : name ≠ "" := by rintro rfl; exact absurd n1 (by unfold IsName; decide)
      refine ⟨name, .inl ⟨rfl, n1, n2⟩, ?_⟩
      rw [if_pos ⟨hne, n3⟩, bare_name n1]
      exact OptChain.append (chain_operation (by simp)) (chain_annos k4 rfl)
    · refine ⟨"", .inr ⟨rfl, .inl ⟨n1, n2, n3⟩⟩, ?_⟩
      rw [if_neg (by simp [n3])]
      exact OptChain.append .nil (chain_annos k4 rfl)
    · refine ⟨"", .inr ⟨rfl, .inr ⟨n1, n2, n3⟩⟩, ?_⟩
      rw [if_neg (by simp [n1])]
      exact OptChain.append .nil (chain_annos k4 rfl)
  refine run_bind (run_mono (run_options hopts.list (fun _ => by simp [tPunct]) a2) ?_)
  rintro _ s3 ⟨rfl, a3⟩
  simp only
  refine run_bind (run_next a3 (fun s4 a4 => ?_))
  simp only [tPunct, if_true]
  set body : List Token := inputs.flatMap (paramToks pl) ++ tNl :: (innerCommentToks pl e.comment ++ tSym "expect" :: (intToks pl e.status ++ tPunct .openBrace :: tNl ::
      (e.outputs.flatMap (paramToks pl) ++ tPunct .closeBrace :: tNl :: (q ++ (excs.flatMap (exceptToks pl) ++ tPunct .closeBrace :: tNl :: rest))))) with hbody
  have a4' : At s4 (trail "" ++ tNl :: body) := a4.at'
  refine run_bind (run_mono (run_trailingComment a4' comment) ?_)
  rintro c5 s5 ⟨hc5, a5⟩
  rw [if_pos rfl] at hc5
  rw [hc5]
  set op0 : HttpDef := { method := method, path := path, name := act, annotations := annos, comment := comment } with hop0
  refine run_bind (run_mono (Q := fun r s' => r = { op0 with inputs := inputs.map unmarked, expected := some { e with outputs := e.outputs.map unmarked }, exceptions := excs } ∧ At s' (tNl :: rest)) ?_ ?_)
  · have a5' : At s5 ([tNl] ++ (inputs.flatMap (paramToks pl) ++ (tNl :: (innerCommentToks pl e.comment ++ tSym "expect" :: (intToks pl e.status ++ tPunct .openBrace :: tNl ::
      (e.outputs.flatMap (paramToks pl) ++ tPunct .closeBrace :: tNl :: (q ++ (excs.flatMap (exceptToks pl) ++ tPunct .closeBrace :: tNl :: rest)))))))) := a5
    refine run_http_inputs inputs k6 op0 [tNl] s5 _ _ rfl hq1 a5' (fun s6 q6 hq6 a6 => ?_)
    have a6' : At s6 ((q6 ++ [tNl]) ++ (innerCommentToks pl e.comment ++ tSym "expect" :: (intToks pl e.status ++ tPunct .openBrace :: tNl ::
      (e.outputs.flatMap (paramToks pl) ++ tPunct .closeBrace :: tNl :: (q ++ (excs.flatMap (exceptToks pl) ++ tPunct .closeBrace :: tNl :: rest)))))) := by
      simpa using a6
    have hq6' : Nls (q6 ++ [tNl]) := by
      intro t ht
      rcases List.mem_append.1 ht with ht | ht
      · exact hq6 t ht
      · simpa using ht
    refine loop_step a6' (run_expectation (op := { op0 with inputs := op0.inputs ++ inputs.map unmarked }) k7 k8 k9 k10 rfl hq6' a6') (by simp; omega) (fun s7 a7 => ?_)
    refine run_mono (run_excepts excs k11 _ q s7 (tNl :: rest) (by simpa [hop0] using k12) hq a7) ?_
    rintro _ s8 ⟨rfl, a8⟩
    exact ⟨by simp [hop0], a8⟩
  · rintro _ s6 ⟨rfl, a6⟩
    have a6' : At s6 (trail "" ++ tNl :: rest) := a6
    refine run_bind (run_mono (run_endOfStatement a6') ?_)
    rintro _ s7 ⟨rfl, a7⟩
    refine run_pure ⟨?_, a7.at'⟩
    rw [if_pos rfl, ← hhd]
    have hreq : ∀ n r, ensureRequiredParams ⟨n, r, comment, annos, method, path, inputs.map unmarked, some { e with outputs := e.outputs.map unmarked }, excs⟩ =
        ⟨n, r, comment, annos, method, path, inputs, some e, excs⟩ := by
      intro n r
      unfold ensureRequiredParams
      have := required_outputs k10
      simp only [required_inputs k6, Option.map_some]
      congr 2
    have hname : ensureActionName ⟨act, "", comment, annos, method, path, inputs.map unmarked, some { e with outputs := e.outputs.map unmarked }, excs⟩ =
        ⟨name, resource, comment, annos, method, path, inputs.map unmarked, some { e with outputs := e.outputs.map unmarked }, excs⟩ := by
      unfold ensureActionName ensureResourceName
      rcases hact with ⟨rfl, n1, rfl⟩ | ⟨rfl, ⟨n1, n2, n3⟩ | ⟨n1, n2, n3⟩⟩
      · have hne : act ≠ "" := by rintro rfl; exact absurd n1 (by unfold IsName; decide)
        rw [if_neg hne]
      · have han : actionName hd = lowerS method ++ capitalize resource := by rw [← hhd]; rfl
        rw [if_pos rfl, if_pos rfl, if_neg (by simpa [← n1] using n2), n3, han]
        simp only [actionName, ← n1]
      · simp only [if_true, n3, n1, n2]
    rw [← hreq name resource, ← hname]

end Sadl.Props
