import Verif.Lemmas.UnparseHttp
/-
The printed source is read back: examples, the header, and the whole.
-/
namespace Sadl.Props
open Sadl Sadl.Spec

/-! ### Dotted names -/

/-- The parts of a dotted name, joined. -/
def dotted : List String → String
  | [] => ""
  | [p] => p
  | p :: q :: r => p ++ "." ++ dotted (q :: r)

theorem dotted_split (l : List (List Char)) : dotted (l.map String.ofList) = String.ofList (joinWith '.' l) := by
  induction l with
  | nil => rfl
  | cons p r ih =>
    cases r with
    | nil => rfl
    | cons q t =>
      have : joinWith '.' (p :: q :: t) = p ++ '.' :: joinWith '.' (q :: t) := by simp [joinWith]
      rw [List.map_cons, List.map_cons, dotted, ← List.map_cons, ih, this]
      apply String.toList_injective
      simp

theorem dotted_toks {pl : PrintLib} {s : String} (h : IsDotted s) : ∃ ps, ps ≠ [] ∧ dottedToks pl s = (ps.map tSym).intersperse (tPunct .dot) ∧ dotted ps = s := by
  refine ⟨(splitAll '.' s.toList).map String.ofList, by simpa using splitAll_ne_nil _ _, ?_, ?_⟩
  · unfold dottedToks
    have : (splitAll '.' s.toList).all (fun p => isSymbolText (String.ofList p)) = true := by
      rw [List.all_eq_true]; exact h
    simp only [this, if_true, List.map_map]
    rfl
  · rw [dotted_split, joinWith_splitAll, String.ofList_toList]

theorem run_compound (ps : List String) : ps ≠ [] → ∀ (acc : String) (s : TState) (t : Token) (rest : List Token), t.type ≠ .dot →
    At s ((ps.map tSym).intersperse (tPunct .dot) ++ t :: rest) →
    Run (P.loop compoundStep acc) s (fun r s' => r = acc ++ dotted ps ∧ At s' (t :: rest)) := by
  induction ps with
  | nil => intro h; exact absurd rfl h
  | cons p r ih =>
    intro _ acc s t rest ht hA
    cases r with
    | nil =>
      have hA' : At s (tSym p :: t :: rest) := by simpa using hA
      refine loop_last (a := acc ++ p) (ts' := t :: rest) ?_ (fun s' h' => ⟨rfl, h'⟩)
      unfold compoundStep
      refine run_bind (run_identifier hA' (fun s1 a1 => ?_))
      refine run_bind (run_get a1 (fun s2 a2 => ?_))
      simp only [ht, ne_eq, not_false_eq_true, if_true]
      exact run_bind (run_unget a2 (fun s3 a3 => run_pure ⟨rfl, a3⟩))
    | cons q r =>
      have hA' : At s (tSym p :: tPunct .dot :: (((q :: r).map tSym).intersperse (tPunct .dot) ++ t :: rest)) := by
        simpa [List.intersperse] using hA
      refine loop_step (y := acc ++ p ++ ".") hA' (ts' := ((q :: r).map tSym).intersperse (tPunct .dot) ++ t :: rest) ?_ (by simp; omega) (fun s1 a1 => ?_)
      · unfold compoundStep
        refine run_bind (run_identifier hA' (fun s1 a1 => ?_))
        refine run_bind (run_get a1 (fun s2 a2 => ?_))
        simp only [tPunct, ne_eq, not_true, if_false]
        exact run_pure ⟨rfl, a2.at'⟩
      · refine run_mono (ih (by simp) (acc ++ p ++ ".") s1 t rest ht a1) ?_
        rintro _ s2 ⟨rfl, a2⟩
        refine ⟨?_, a2⟩
        rw [dotted]
        apply String.toList_injective; simp

theorem run_namespace_loop (ps : List String) : ∀ (acc : String) (s : TState) (rest : List Token),
    At s (ps.flatMap (fun p => [tPunct .dot, tSym p]) ++ tNl :: rest) →
    Run (P.loop namespaceStep acc) s (fun r s' => r = dotted (acc :: ps) ∧ At s' (tNl :: rest)) := by
  induction ps with
  | nil =>
    intro acc s rest hA
    refine loop_last (a := acc) (ts' := tNl :: rest) ?_ (fun s' h' => ⟨rfl, h'⟩)
    unfold namespaceStep
    refine run_bind (run_get hA (fun s2 a2 => ?_))
    simp only [tNl, ne_eq, reduceCtorEq, not_false_eq_true, if_true]
    exact run_bind (run_unget a2 (fun s3 a3 => run_pure ⟨rfl, a3⟩))
  | cons p r ih =>
    intro acc s rest hA
    have hA' : At s (tPunct .dot :: tSym p :: (r.flatMap (fun p => [tPunct .dot, tSym p]) ++ tNl :: rest)) := by simpa using hA
    refine loop_step (y := acc ++ "." ++ p) hA' (ts' := r.flatMap (fun p => [tPunct .dot, tSym p]) ++ tNl :: rest) ?_ (by simp; omega) (fun s1 a1 => ?_)
    · unfold namespaceStep
      refine run_bind (run_get hA' (fun s1 a1 => ?_))
      simp only [tPunct, ne_eq, not_true, if_false]
      unfold expectText
      refine run_bind (run_bind (run_next a1.at' (fun s2 a2 => ?_)))
      simp only [tSym, true_or, if_true]
      exact run_pure (run_pure ⟨rfl, a2.at'⟩)
    · refine run_mono (ih _ s1 rest a1) ?_
      rintro _ s2 ⟨rfl, a2⟩
      refine ⟨?_, a2⟩
      cases r with
      | nil => rfl
      | cons q t =>
        simp only [dotted]
        apply String.toList_injective; simp

theorem intersperse_flatMap (p : String) (r : List String) :
    ((p :: r).map tSym).intersperse (tPunct .dot) = tSym p :: r.flatMap (fun p => [tPunct .dot, tSym p]) := by
  induction r generalizing p with
  | nil => rfl
  | cons q t ih =>
    have := ih q
    rw [List.map_cons] at this
    rw [List.map_cons, List.map_cons, List.intersperse, this]
    · simp
    · simp

theorem run_namespace {pl : PrintLib} {ns : String} (h : IsDotted ns) {s : TState} {rest : List Token}
    (hA : At s (dottedToks pl ns ++ tNl :: rest)) : Run parseNamespaceDirective s (fun r s' => r = ns ∧ At s' (tNl :: rest)) := by
  obtain ⟨ps, hne, e, hj⟩ := dotted_toks (pl := pl) h
  cases ps with
  | nil => exact absurd rfl hne
  | cons p r =>
    rw [e, intersperse_flatMap] at hA
    unfold parseNamespaceDirective expectText
    refine run_bind (run_bind (run_next hA (fun s1 a1 => ?_)))
    simp only [tSym, true_or, if_true]
    refine run_pure ?_
    refine run_mono (run_namespace_loop r p s1 rest a1.at') ?_
    rintro _ s2 ⟨rfl, a2⟩
    exact ⟨hj, a2⟩

/-! ### Examples -/

theorem run_example {lib : PLib} {pl : PrintLib} {ed : ExampleDef} (h : ExampleDefOk lib pl ed) {s : TState} {rest : List Token}
    (hA : At s (dottedToks pl ed.target ++ tPunct .openParen :: tSym "name" :: tPunct .equals :: tSym ed.name :: tPunct .closeParen ::
      (jsonToks pl true ed.example ++ rest))) :
    Run (parseExampleDirective lib ed.comment) s (fun r s' => r = ed ∧ At s' rest) := by
  obtain ⟨target, name, value, comment, annos⟩ := ed
  obtain ⟨h1, h2, h3, h4, h5⟩ := h
  simp only at h1 h2 h3 h4 h5 hA ⊢
  subst h4
  obtain ⟨ps, hne, e, hj⟩ := dotted_toks (pl := pl) h1
  unfold parseExampleDirective expectCompoundIdentifier
  rw [e] at hA
  refine run_bind (run_mono (run_compound ps hne "" s (tPunct .openParen) _ (by simp [tPunct]) hA) ?_)
  rintro _ s1 ⟨rfl, a1⟩
  have hchain : OptChain lib ["name"] [[tSym "name", tPunct .equals, tSym name]] {} { name := name } :=
    chain_opt (by decide) (by decide) .name
  have a1' : At s1 (optToks [[tSym "name", tPunct .equals, tSym name]] ++ (jsonToks pl true value ++ rest)) := a1
  refine run_bind (run_mono (run_options hchain.list (fun h => by simp [optToks] at h) a1') ?_)
  rintro _ s2 ⟨rfl, a2⟩
  refine run_bind (run_mono (run_literalValue (json_lit true h5) a2) ?_)
  rintro _ s3 ⟨rfl, a3⟩
  exact run_pure ⟨by simp [hj], a3⟩

/-! ### The loop over the directives -/

theorem top_pre {lib : PLib} {incl : String → IncRes} {pre : List Token} (hp : AllComments pre) :
    ∀ {sch : Schema} {c : String} {s : TState} {rest : List Token} {Q : Schema → TState → Prop},
    At s (pre ++ rest) → (∀ s', At s' rest → Run (P.loop (topStep lib incl) (sch, gather c pre)) s' Q) →
    Run (P.loop (topStep lib incl) (sch, c)) s Q := by
  induction pre with
  | nil => intro sch c s rest Q hA h; exact h s hA
  | cons t r ih =>
    intro sch c s rest Q hA h
    have hr : AllComments r := fun x hx => hp x (by simp [hx])
    have hA' : At s (t :: (r ++ rest)) := hA
    refine loop_step hA' (y := (sch, gather c [t])) (ts' := r ++ rest) ?_ (Nat.lt_succ_self _) (fun s1 h1 => ?_)
    · unfold topStep
      refine run_bind (run_get hA' (fun s1 h1 => ?_))
      rcases hp t (by simp) with ht | ht
      · simp only [ht]
        exact run_pure ⟨by simp [gather, ht], h1.at'⟩
      · simp only [ht]
        exact run_pure ⟨by simp [gather, ht], h1.at'⟩
    · refine ih hr h1 (fun s2 h2 => ?_)
      rw [← gather_append]
      exact h s2 h2

theorem top_nls {lib : PLib} {incl : String → IncRes} {q : List Token} (hq : Nls q) {sch : Schema} {c : String} {s : TState} {rest : List Token}
    {Q : Schema → TState → Prop} (hA : At s (q ++ rest)) (h : ∀ s', At s' rest → Run (P.loop (topStep lib incl) (sch, c)) s' Q) :
    Run (P.loop (topStep lib incl) (sch, c)) s Q := by
  refine top_pre (nls_comments hq) hA ?_
  rw [gather_nls hq]
  exact h

theorem top_dir {lib : PLib} {incl : String → IncRes} {sch sch' : Schema} {c word : String} {s : TState} {r r' : List Token} {Q : Schema → TState → Prop}
    (hA : At s (tSym word :: r)) (hl : r'.length ≤ r.length)
    (hd : ∀ s1, At s1 r → Run (directive lib incl sch c word) s1 (fun x s' => x = sch' ∧ At s' r'))
    (h : ∀ s', At s' r' → Run (P.loop (topStep lib incl) (sch', "")) s' Q) : Run (P.loop (topStep lib incl) (sch, c)) s Q := by
  refine loop_step hA (y := (sch', "")) (ts' := r') ?_ (by simp; omega) h
  unfold topStep
  refine run_bind (run_get hA (fun s1 a1 => ?_))
  simp only [tSym]
  refine run_bind (run_mono (hd s1 a1.at') ?_)
  rintro _ s2 ⟨rfl, a2⟩
  exact run_pure ⟨rfl, a2⟩

/-! ### The definitions -/

theorem top_types {lib : PLib} {pl : PrintLib} {incl : String → IncRes} (tds : List TypeDef) : (∀ td ∈ tds, TypeDefOk lib pl td) → ∀ (sch : Schema) (q : List Token)
    (s : TState) (rest : List Token) (Q : Schema → TState → Prop), Nls q →
    At s (q ++ (tds.flatMap (fun td => tNl :: blockCommentToks pl td.comment ++ typedefToks pl td) ++ rest)) →
    (∀ s' q', Nls q' → At s' (q' ++ rest) → Run (P.loop (topStep lib incl) ({ sch with types := sch.types ++ tds }, "")) s' Q) →
    Run (P.loop (topStep lib incl) (sch, "")) s Q := by
  induction tds with
  | nil => intro _ sch q s rest Q hq hA h; exact by simpa using h s q hq (by simpa using hA)
  | cons td r ih =>
    intro hk sch q s rest Q hq hA h
    have hok := hk td (by simp)
    obtain ⟨g1, g2⟩ := blockComment_gather (pl := pl) hok.comment
    set tail : List Token := r.flatMap (fun td => tNl :: blockCommentToks pl td.comment ++ typedefToks pl td) ++ rest with htail
    have hA' : At s ((q ++ [tNl]) ++ (blockCommentToks pl td.comment ++ tSym "type" :: tSym td.name :: (specToks pl td.ts [] ++ tNl :: tail))) := by
      have e : typedefToks pl td = tSym "type" :: tSym td.name :: (specToks pl td.ts [] ++ [tNl]) := by
        unfold typedefToks; rw [bare_name hok.name]; simp
      rw [List.flatMap_cons, e] at hA
      simpa [htail] using hA
    have hq' : Nls (q ++ [tNl]) := by
      intro t ht
      rcases List.mem_append.1 ht with ht | ht
      · exact hq t ht
      · simpa using ht
    refine top_nls hq' hA' (fun s1 a1 => ?_)
    refine top_pre g1 a1 (fun s2 a2 => ?_)
    rw [g2]
    -- the directive
    have hrun : ∀ s3, At s3 (tSym td.name :: (specToks pl td.ts [] ++ tNl :: tail)) →
        Run (directive lib incl sch td.comment "type") s3 (fun x s' => x = { sch with types := sch.types ++ [td] } ∧ ∃ post, Nls post ∧ post.length ≤ 2 ∧ At s' (post ++ tail)) := by
      intro s3 a3
      unfold directive
      simp only
      refine run_bind (run_mono (run_typedef hok a3) ?_)
      rintro _ s4 ⟨rfl, a4⟩
      exact run_pure ⟨rfl, a4⟩
    have hlen : ∀ post : List Token, post.length ≤ 2 → (post ++ tail).length < (tSym "type" :: tSym td.name :: (specToks pl td.ts [] ++ tNl :: tail)).length := by
      intro post hp; simp; omega
    refine run_loop_again a2 ?_
    unfold topStep
    refine run_bind (run_get a2 (fun s3 a3 => ?_))
    simp only [tSym]
    have a3' := a3.at'
    refine run_bind (run_mono (hrun s3 a3') ?_)
    rintro _ s4 ⟨rfl, post, hpost, hl, a4⟩
    refine run_pure ⟨_, _, rfl, a4, hlen post hl, ?_⟩
    refine ih (fun x hx => hk x (by simp [hx])) { sch with types := sch.types ++ [td] } post s4 rest Q hpost a4 (fun s5 q5 hq5 a5 => ?_)
    have := h s5 q5 hq5 a5
    simpa using this

theorem nls_snoc {q : List Token} (h : Nls q) : Nls (q ++ [tNl]) := by
  intro t ht
  rcases List.mem_append.1 ht with ht | ht
  · exact h t ht
  · simpa using ht

/-- A definition after the types: blank line, comment, directive. -/
theorem top_def {lib : PLib} {pl : PrintLib} {incl : String → IncRes} {sch sch' : Schema} {q q' : List Token} {c word : String} {body tail : List Token} {s : TState}
    {Q : Schema → TState → Prop} (hc : IsWords c) (hq : Nls q) (hA : At s (q ++ (tNl :: blockCommentToks pl c ++ tSym word :: (body ++ tail))))
    (hl : q'.length ≤ body.length)
    (hd : ∀ s1, At s1 (body ++ tail) → Run (directive lib incl sch c word) s1 (fun x s' => x = sch' ∧ At s' (q' ++ tail)))
    (h : ∀ s', At s' (q' ++ tail) → Run (P.loop (topStep lib incl) (sch', "")) s' Q) : Run (P.loop (topStep lib incl) (sch, "")) s Q := by
  obtain ⟨g1, g2⟩ := blockComment_gather (pl := pl) hc
  have hA' : At s ((q ++ [tNl]) ++ (blockCommentToks pl c ++ tSym word :: (body ++ tail))) := by simpa using hA
  refine top_nls (nls_snoc hq) hA' (fun s1 a1 => ?_)
  refine top_pre g1 a1 (fun s2 a2 => ?_)
  rw [g2]
  exact top_dir a2 (by simp; omega) hd h

theorem top_operations {lib : PLib} {pl : PrintLib} {incl : String → IncRes} (ops : List OperationDef) : (∀ op ∈ ops, OperationOk op) →
    ∀ (sch : Schema) (q : List Token) (s : TState) (rest : List Token) (Q : Schema → TState → Prop), Nls q →
    At s (q ++ (ops.flatMap (fun op => tNl :: blockCommentToks pl op.comment ++ operationToks pl op) ++ rest)) →
    (∀ s' q', Nls q' → At s' (q' ++ rest) → Run (P.loop (topStep lib incl) ({ sch with operations := sch.operations ++ ops }, "")) s' Q) →
    Run (P.loop (topStep lib incl) (sch, "")) s Q := by
  induction ops with
  | nil => intro _ sch q s rest Q hq hA h; exact by simpa using h s q hq (by simpa using hA)
  | cons op r ih =>
    intro hk sch q s rest Q hq hA h
    have hok := hk op (by simp)
    obtain ⟨body, e⟩ : ∃ body, operationToks pl op = tSym "operation" :: body := ⟨_, rfl⟩
    rw [List.flatMap_cons, e] at hA
    have hne : [tNl].length ≤ body.length := by
      have : body = (operationToks pl op).tail := by rw [e]; rfl
      rw [this]; unfold operationToks; simp; omega
    refine top_def (sch' := { sch with operations := sch.operations ++ [op] }) (q' := [tNl]) (body := body) (pl := pl) hok.comment hq (by simpa using hA) hne (fun s1 a1 => ?_) (fun s1 a1 => ?_)
    · unfold directive
      simp only
      refine run_bind (run_mono (run_operation hok e a1) ?_)
      rintro _ s2 ⟨rfl, a2⟩
      exact run_pure ⟨rfl, a2⟩
    · refine ih (fun x hx => hk x (by simp [hx])) _ [tNl] s1 rest Q (by simp [Nls]) a1 (fun s5 q5 hq5 a5 => ?_)
      have := h s5 q5 hq5 a5
      simpa using this

theorem top_http {lib : PLib} {pl : PrintLib} {incl : String → IncRes} (hs : List HttpDef) : (∀ h ∈ hs, HttpDefOk lib pl h) →
    ∀ (sch : Schema) (q : List Token) (s : TState) (rest : List Token) (Q : Schema → TState → Prop), Nls q →
    At s (q ++ (hs.flatMap (fun h => tNl :: blockCommentToks pl h.comment ++ httpToks pl h) ++ rest)) →
    (∀ s' q', Nls q' → At s' (q' ++ rest) → Run (P.loop (topStep lib incl) ({ sch with http := sch.http ++ hs }, "")) s' Q) →
    Run (P.loop (topStep lib incl) (sch, "")) s Q := by
  induction hs with
  | nil => intro _ sch q s rest Q hq hA h; exact by simpa using h s q hq (by simpa using hA)
  | cons op r ih =>
    intro hk sch q s rest Q hq hA h
    have hok := hk op (by simp)
    obtain ⟨body, e⟩ : ∃ body, httpToks pl op = tSym "http" :: body := ⟨_, rfl⟩
    rw [List.flatMap_cons, e] at hA
    refine top_def (sch' := { sch with http := sch.http ++ [op] }) (q' := []) (body := body) (pl := pl) hok.comment hq (by simpa using hA) (by simp) (fun s1 a1 => ?_) (fun s1 a1 => ?_)
    · unfold directive
      simp only
      refine run_bind (run_mono (run_http hok e a1) ?_)
      rintro _ s2 ⟨rfl, a2⟩
      exact run_pure ⟨rfl, a2⟩
    · refine ih (fun x hx => hk x (by simp [hx])) _ [] s1 rest Q (by simp [Nls]) a1 (fun s5 q5 hq5 a5 => ?_)
      have := h s5 q5 hq5 a5
      simpa using this

theorem top_examples {lib : PLib} {pl : PrintLib} {incl : String → IncRes} (eds : List ExampleDef) : (∀ ed ∈ eds, ExampleDefOk lib pl ed) →
    ∀ (sch : Schema) (q : List Token) (s : TState) (rest : List Token) (Q : Schema → TState → Prop), Nls q →
    At s (q ++ (eds.flatMap (fun ed => tNl :: blockCommentToks pl ed.comment ++ exampleToks pl ed) ++ rest)) →
    (∀ s' q', Nls q' → At s' (q' ++ rest) → Run (P.loop (topStep lib incl) ({ sch with examples := sch.examples ++ eds }, "")) s' Q) →
    Run (P.loop (topStep lib incl) (sch, "")) s Q := by
  induction eds with
  | nil => intro _ sch q s rest Q hq hA h; exact by simpa using h s q hq (by simpa using hA)
  | cons ed r ih =>
    intro hk sch q s rest Q hq hA h
    have hok := hk ed (by simp)
    have e : exampleToks pl ed = tSym "example" :: (dottedToks pl ed.target ++ tPunct .openParen :: tSym "name" :: tPunct .equals :: tSym ed.name :: tPunct .closeParen ::
        (jsonToks pl true ed.example ++ [tNl, tNl])) := by
      unfold exampleToks; rw [bare_name hok.name]; simp
    rw [List.flatMap_cons, e] at hA
    refine top_def (sch' := { sch with examples := sch.examples ++ [ed] }) (q' := [tNl, tNl]) (pl := pl)
      (body := dottedToks pl ed.target ++ tPunct .openParen :: tSym "name" :: tPunct .equals :: tSym ed.name :: tPunct .closeParen ::
        (jsonToks pl true ed.example ++ [tNl, tNl])) hok.comment hq (by simpa using hA) (by simp; omega) (fun s1 a1 => ?_) (fun s1 a1 => ?_)
    · unfold directive
      simp only
      refine run_bind (run_mono (run_example hok (by simpa using a1)) ?_)
      rintro _ s2 ⟨rfl, a2⟩
      exact run_pure ⟨rfl, a2⟩
    · refine ih (fun x hx => hk x (by simp [hx])) _ [tNl, tNl] s1 rest Q (by simp [Nls]) a1 (fun s5 q5 hq5 a5 => ?_)
      have := h s5 q5 hq5 a5
      simpa using this

/-! ### The header -/

/-- The state while the header is read: the comment waits for the first header line. -/
def headState (C : String) (started : Bool) (m : Schema) : Schema × String :=
  ({ m with comment := if started then C else "" }, if started then "" else C)

theorem head_merge {C : String} (h : IsWords C) (b : Bool) : mergeComment (if b then C else "") (if b then "" else C) = C := by
  cases b
  · exact merge_empty' (words_line h)
  · exact merge_empty (words_line h)

/-- One line of the header. -/
theorem top_head {lib : PLib} {incl : String → IncRes} {C word : String} {b : Bool} {m m' : Schema} {body tail : List Token} {s : TState}
    {Q : Schema → TState → Prop} (hA : At s (tSym word :: (body ++ tNl :: tail)))
    (hd : ∀ s1, At s1 (body ++ tNl :: tail) → Run (directive lib incl (headState C b m).1 (headState C b m).2 word) s1
      (fun x s' => x = { m' with comment := C } ∧ (At s' (tNl :: tail))))
    (h : ∀ s', At s' tail → Run (P.loop (topStep lib incl) (headState C true m')) s' Q) : Run (P.loop (topStep lib incl) (headState C b m)) s Q := by
  refine top_dir (r' := tNl :: tail) hA (by simp) hd (fun s1 a1 => ?_)
  exact top_nls (q := [tNl]) (by simp [Nls]) a1 h

theorem run_text {s : TState} {w : String} {rest : List Token} (hA : At s (tSym w :: rest)) : Run expectText s (fun r s' => r = w ∧ At s' rest) := by
  unfold expectText
  refine run_bind (run_next hA (fun s2 a2 => ?_))
  simp only [tSym, true_or, if_true]
  exact run_pure ⟨rfl, a2.at'⟩

theorem top_namespace {lib : PLib} {pl : PrintLib} {incl : String → IncRes} {C ns : String} {b : Bool} {m : Schema} {tail : List Token} {s : TState}
    {Q : Schema → TState → Prop} (hC : IsWords C) (hn : ns = "" ∨ IsDotted ns)
    (hA : At s ((if ns = "" then [] else tSym "namespace" :: dottedToks pl ns ++ [tNl]) ++ tail))
    (h : ∀ s' b', (b = true ∨ ns ≠ "" → b' = true) → At s' tail →
      Run (P.loop (topStep lib incl) (headState C b' { m with «namespace» := if ns = "" then m.namespace else ns })) s' Q) :
    Run (P.loop (topStep lib incl) (headState C b m)) s Q := by
  by_cases he : ns = ""
  · simp only [he, if_true, List.nil_append] at hA h
    exact h s b (by simp) hA
  · simp only [he, if_false] at hA h
    have hd := hn.resolve_left he
    refine top_head (body := dottedToks pl ns) (tail := tail) (by simpa using hA) (fun s1 a1 => ?_) (fun s1 a1 => h s1 true (by simp) a1)
    unfold directive headState
    simp only [head_merge hC]
    refine run_bind (run_mono (run_namespace hd a1) ?_)
    rintro _ s2 ⟨rfl, a2⟩
    exact run_pure ⟨rfl, a2⟩

theorem top_name {lib : PLib} {pl : PrintLib} {incl : String → IncRes} {C n : String} {b : Bool} {m : Schema} {tail : List Token} {s : TState}
    {Q : Schema → TState → Prop} (hC : IsWords C) (hn : n = "" ∨ IsName n)
    (hA : At s ((if n = "" then [] else tSym "name" :: bareToks pl n ++ [tNl]) ++ tail))
    (h : ∀ s' b', (b = true ∨ n ≠ "" → b' = true) → At s' tail →
      Run (P.loop (topStep lib incl) (headState C b' { m with name := if n = "" then m.name else n })) s' Q) :
    Run (P.loop (topStep lib incl) (headState C b m)) s Q := by
  by_cases he : n = ""
  · simp only [he, if_true, List.nil_append] at hA h
    exact h s b (by simp) hA
  · simp only [he, if_false] at hA h
    have hd := hn.resolve_left he
    rw [bare_name hd] at hA
    refine top_head (body := [tSym n]) (tail := tail) (by simpa using hA) (fun s1 a1 => ?_) (fun s1 a1 => h s1 true (by simp) a1)
    unfold directive headState
    simp only [head_merge hC]
    refine run_bind (run_mono (run_text a1) ?_)
    rintro _ s2 ⟨rfl, a2⟩
    exact run_pure ⟨rfl, a2⟩

theorem top_base {lib : PLib} {incl : String → IncRes} {C n : String} {b : Bool} {m : Schema} {tail : List Token} {s : TState}
    {Q : Schema → TState → Prop} (hC : IsWords C) (hn : IsPlain n ∧ (n ≠ "" → hasPrefix n "/" = true))
    (hA : At s ((if n = "" then [] else [tSym "base", quotedTok n, tNl]) ++ tail))
    (h : ∀ s' b', (b = true ∨ n ≠ "" → b' = true) → At s' tail →
      Run (P.loop (topStep lib incl) (headState C b' { m with base := if n = "" then m.base else n })) s' Q) :
    Run (P.loop (topStep lib incl) (headState C b m)) s Q := by
  by_cases he : n = ""
  · simp only [he, if_true, List.nil_append] at hA h
    exact h s b (by simp) hA
  · simp only [he, if_false] at hA h
    rw [quoted_plain hn.1] at hA
    refine top_head (body := [tStr n]) (tail := tail) (by simpa using hA) (fun s1 a1 => ?_) (fun s1 a1 => h s1 true (by simp) a1)
    unfold directive headState
    simp only [head_merge hC]
    unfold parseBaseDirective
    refine run_bind (run_bind (run_string a1 (fun s2 a2 => ?_)))
    simp only [hn.2 he, Bool.true_eq_false, and_false, if_false]
    exact run_pure (run_pure ⟨rfl, a2⟩)

theorem top_version {lib : PLib} {pl : PrintLib} {incl : String → IncRes} {C n : String} {b : Bool} {m : Schema} {tail : List Token} {s : TState}
    {Q : Schema → TState → Prop} (hC : IsWords C) (hn : ∀ c ∈ n.toList, c ≠ '"' ∧ c ≠ '\\' ∧ c ≠ '\n')
    (hA : At s ((if n = "" then [] else tSym "version" :: rawQuotedToks pl n ++ [tNl]) ++ tail))
    (h : ∀ s' b', (b = true ∨ n ≠ "" → b' = true) → At s' tail →
      Run (P.loop (topStep lib incl) (headState C b' { m with version := if n = "" then m.version else n })) s' Q) :
    Run (P.loop (topStep lib incl) (headState C b m)) s Q := by
  by_cases he : n = ""
  · simp only [he, if_true, List.nil_append] at hA h
    exact h s b (by simp) hA
  · simp only [he, if_false] at hA h
    have e : rawQuotedToks pl n = [tStr n] := by
      unfold rawQuotedToks
      refine if_pos ?_
      rw [List.all_eq_true]
      intro c hc
      simpa [and_assoc] using hn c hc
    rw [e] at hA
    refine top_head (body := [tStr n]) (tail := tail) (by simpa using hA) (fun s1 a1 => ?_) (fun s1 a1 => h s1 true (by simp) a1)
    unfold directive headState
    simp only [head_merge hC]
    unfold parseVersionDirective
    refine run_bind (run_bind (run_next a1 (fun s2 a2 => ?_)))
    simp only [tStr, or_true, if_true]
    exact run_pure (run_pure ⟨rfl, a2.at'⟩)

theorem run_toEol {s : TState} {v : String} (hv : IsPlain v) {rest : List Token} (hA : At s ((if v = "" then [] else [quotedTok v]) ++ tNl :: rest)) :
    Run parseStringToEndOfLine s (fun r s' => r = (v, "") ∧ At s' rest) := by
  unfold parseStringToEndOfLine
  by_cases he : v = ""
  · simp only [he, if_true, List.nil_append] at hA ⊢
    refine run_bind (run_get hA (fun s1 a1 => ?_))
    simp only [tNl, reduceCtorEq, if_false]
    refine run_bind (run_pure ?_)
    simp only [reduceCtorEq, if_false]
    refine run_bind (run_pure ?_)
    simp only [reduceCtorEq, if_false]
    refine run_bind (run_pure ?_)
    simp only [ne_eq, not_true, if_false]
    exact run_pure ⟨rfl, a1.at'⟩
  · simp only [he, if_false] at hA
    rw [quoted_plain hv] at hA
    have hA' : At s (tStr v :: tNl :: rest) := hA
    refine run_bind (run_get hA' (fun s1 a1 => ?_))
    simp only [tStr, reduceCtorEq, if_false]
    refine run_bind (run_pure ?_)
    simp only [if_true]
    refine run_bind (run_bind (run_get a1.at' (fun s2 a2 => ?_)))
    refine run_pure ?_
    simp only [tNl, reduceCtorEq, if_false]
    refine run_bind (run_pure ?_)
    simp only [ne_eq, not_true, if_false]
    exact run_pure ⟨rfl, a2.at'⟩

theorem directive_anno {lib : PLib} {incl : String → IncRes} {sch : Schema} {c w : String} (h : hasPrefix w "x_" = true) :
    directive lib incl sch c w = (do
      let vc ← parseStringToEndOfLine
      pure { sch with annotations := mset sch.annotations w vc.1, comment := mergeComment (mergeComment sch.comment c) vc.2 }) := by
  have hne : ∀ k : String, hasPrefix k "x_" = false → w ≠ k := by
    rintro k hk rfl; rw [h] at hk; exact absurd hk (by simp)
  unfold directive
  split
  case h_10 => simp only [h, if_true]
  all_goals exact absurd rfl (hne _ (by decide))

theorem top_annos {lib : PLib} {pl : PrintLib} {incl : String → IncRes} {C : String} (hC : IsWords C) (annos : GoMap String) :
    annos.Distinct → (∀ kv ∈ annos, IsName kv.1 ∧ hasPrefix kv.1 "x_" = true ∧ IsPlain kv.2) →
    ∀ (b : Bool) (m : Schema) (s : TState) (tail : List Token) (Q : Schema → TState → Prop), (∀ kv ∈ annos, kv.1 ∉ m.annotations.map Prod.fst) →
    At s (annos.flatMap (fun kv => bareToks pl kv.1 ++ (if kv.2 = "" then [] else [quotedTok kv.2]) ++ [tNl]) ++ tail) →
    (∀ s' b', (b = true ∨ annos ≠ [] → b' = true) → At s' tail →
      Run (P.loop (topStep lib incl) (headState C b' { m with annotations := m.annotations ++ annos })) s' Q) →
    Run (P.loop (topStep lib incl) (headState C b m)) s Q := by
  induction annos with
  | nil =>
    intro _ _ b m s tail Q _ hA h
    have := h s b (by simp) (by simpa using hA)
    simpa using this
  | cons kv r ih =>
    intro hd hk b m s tail Q hf hA h
    obtain ⟨k1, k2, k3⟩ := hk kv (by simp)
    rw [List.flatMap_cons, bare_name k1] at hA
    set rtoks : List Token := r.flatMap (fun kv => bareToks pl kv.1 ++ (if kv.2 = "" then [] else [quotedTok kv.2]) ++ [tNl]) with hr
    have hA' : At s (tSym kv.1 :: ((if kv.2 = "" then [] else [quotedTok kv.2]) ++ tNl :: (rtoks ++ tail))) := by simpa using hA
    have hd' : kv.1 ∉ r.map Prod.fst ∧ (r.map Prod.fst).Nodup := by
      have : (((kv :: r).map Prod.fst)).Nodup := hd
      simpa using this
    refine top_dir (sch' := (headState C true { m with annotations := m.annotations ++ [kv] }).1) (r' := rtoks ++ tail) hA' (by simp; omega) (fun s1 a1 => ?_) (fun s1 a1 => ?_)
    · rw [directive_anno k2]
      refine run_bind (run_mono (run_toEol k3 a1) ?_)
      rintro _ s2 ⟨rfl, a2⟩
      refine run_pure ⟨?_, a2⟩
      unfold headState
      simp only [head_merge hC, if_true, merge_empty (words_line hC)]
      rw [mset_of_not_mem (hf kv (by simp))]
    · refine ih hd'.2 (fun x hx => hk x (by simp [hx])) true { m with annotations := m.annotations ++ [kv] } s1 tail Q ?_ a1 (fun s2 b2 hb2 a2 => ?_)
      · intro x hx
        have h1 := hf x (by simp [hx])
        have h2 : x.1 ≠ kv.1 := fun e => hd'.1 (e ▸ List.mem_map_of_mem hx)
        simp only [List.map_append, List.map_cons, List.map_nil, List.mem_append, List.mem_singleton]
        tauto
      · have := h s2 b2 (fun _ => hb2 (.inl rfl)) a2
        simpa using this

theorem top_headerAnnos {lib : PLib} {pl : PrintLib} {incl : String → IncRes} {C : String} (hC : IsWords C) {annos : GoMap String}
    (hd : annos.Distinct) (hk : ∀ kv ∈ annos, IsName kv.1 ∧ hasPrefix kv.1 "x_" = true ∧ IsPlain kv.2)
    {b : Bool} {m : Schema} {s : TState} {tail : List Token} {Q : Schema → TState → Prop} (hm : m.annotations = [])
    (hA : At s (headerAnnoToks pl annos ++ tail))
    (h : ∀ s' b', (b = true ∨ annos ≠ [] → b' = true) → At s' tail →
      Run (P.loop (topStep lib incl) (headState C b' { m with annotations := annos })) s' Q) :
    Run (P.loop (topStep lib incl) (headState C b m)) s Q := by
  unfold headerAnnoToks at hA
  have h' := h
  by_cases he : annos = []
  · subst he
    simp only [if_true, List.nil_append] at hA
    have := h s b (by simp) hA
    rw [← hm] at this
    exact this
  · simp only [he, if_false] at hA
    refine top_nls (q := [tNl]) (by simp [Nls]) (by simpa using hA) (fun s1 a1 => ?_)
    refine top_annos (pl := pl) hC annos hd hk b m s1 tail Q (by simp [hm]) (by simpa using a1) (fun s2 b2 hb2 a2 => ?_)
    have := h s2 b2 hb2 a2
    simpa [hm] using this

/-- The model that is read back: where the header is silent, the name and the namespace are
those given to the parser. -/
def readBack (n ns : String) (m : Schema) : Schema :=
  { m with sadl := "development version", name := if m.name = "" then n else m.name,
           «namespace» := if m.namespace = "" then ns else m.namespace }

theorem top_all {lib : PLib} {pl : PrintLib} {incl : String → IncRes} {m : Schema} (h : Printable lib pl m) (n ns : String) {s : TState}
    (hA : At s (decompile pl m)) : Run (P.loop (topStep lib incl) (initialSchema n ns, "")) s (fun r _ => r = readBack n ns m) := by
  unfold decompile headerToks at hA
  simp only [List.append_assoc] at hA
  obtain ⟨g1, g2⟩ := blockComment_gather (pl := pl) h.comment
  refine top_pre g1 hA (fun s1 a1 => ?_)
  rw [g2]
  have e0 : ((initialSchema n ns, m.comment) : Schema × String) = headState m.comment false (initialSchema n ns) := rfl
  rw [e0]
  refine top_namespace h.comment h.namespace a1 (fun s2 b2 hb2 a2 => ?_)
  refine top_name h.comment h.name a2 (fun s3 b3 hb3 a3 => ?_)
  refine top_base h.comment h.base a3 (fun s4 b4 hb4 a4 => ?_)
  refine top_version h.comment h.version a4 (fun s5 b5 hb5 a5 => ?_)
  refine top_headerAnnos h.comment h.annotations.1 h.annotations.2 (by rfl) a5 (fun s6 b6 hb6 a6 => ?_)
  have e1 : ∀ M : Schema, headState m.comment b6 M = ({ M with comment := m.comment }, "") := by
    intro M
    unfold headState
    by_cases hc : m.comment = ""
    · cases b6 <;> simp [hc]
    · have hb : b6 = true := by
        rcases h.header hc with h1 | h1 | h1 | h1 | h1
        · exact hb6 (.inl (hb5 (.inl (hb4 (.inl (hb3 (.inl (hb2 (.inr h1)))))))))
        · exact hb6 (.inl (hb5 (.inl (hb4 (.inl (hb3 (.inr h1)))))))
        · exact hb6 (.inl (hb5 (.inl (hb4 (.inr h1)))))
        · exact hb6 (.inl (hb5 (.inr h1)))
        · exact hb6 (.inr h1)
      simp [hb]
  rw [e1]
  refine top_types m.types h.types _ [] s6 _ _ nls_nil a6 (fun s7 q7 hq7 a7 => ?_)
  refine top_operations m.operations h.operations _ q7 s7 _ _ hq7 a7 (fun s8 q8 hq8 a8 => ?_)
  refine top_http m.http h.http _ q8 s8 _ _ hq8 a8 (fun s9 q9 hq9 a9 => ?_)
  refine top_examples m.examples h.examples _ q9 s9 [] _ hq9 (by simpa using a9) (fun s10 q10 hq10 a10 => ?_)
  refine top_nls hq10 a10 (fun s11 a11 => ?_)
  refine run_loop_done ?_
  unfold topStep
  refine run_bind (run_get_end a11 (fun s12 a12 => ?_))
  refine run_pure ⟨_, rfl, ?_⟩
  unfold readBack initialSchema
  by_cases hv : m.version = "" <;> by_cases hb : m.base = "" <;> simp [hv, hb]

end Sadl.Props
