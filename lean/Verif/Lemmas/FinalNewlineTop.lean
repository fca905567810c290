import Verif.Lemmas.FinalNewline
/-
The rest of the parser on a source and on the same source with one more newline.
-/
namespace Sadl
namespace FinalNl

variable {α β σ : Type}

theorem sim_loopNI {I : TState → TState → Prop} {body body' : σ → P (σ ⊕ α)} {B : α → TState → TState → Prop}
    (h : ∀ x, Sim I (body x) (body' x) (fun r s s' => match r with | .inl _ => I s s' | .inr a => B a s s')) :
    ∀ k m x, k ≤ m → Sim I (P.loopN body k x) (P.loopN body' m x) B := by
  intro k
  induction k with
  | zero => exact fun m x _ => Sim.hang
  | succ k ih =>
    intro m x hm
    obtain ⟨m, rfl⟩ : ∃ m', m = m' + 1 := ⟨m - 1, by omega⟩
    unfold P.loopN
    refine Sim.bind (h x) fun r => ?_
    cases r with
    | inl x' => exact ih m x' (by omega)
    | inr a => exact Sim.pure fun s s' h => h

/-- A function that does not look at the tokens. -/
def Const (p : P α) : Prop := (∃ a, p = Pure.pure a) ∨ ∀ s a s1, p s ≠ .ok a s1

theorem Sim.const {A : TState → TState → Prop} {p : P α} (h : Const p) : Sim A p p (fun _ => A) := by
  rcases h with ⟨a, rfl⟩ | h
  · exact Sim.pure fun _ _ h => h
  · exact fun s s' _ a s1 hp => absurd hp (h s a s1)

theorem const_arrayParams (l : List String) : Const (arrayParams l) := by
  unfold arrayParams
  split
  · exact .inl ⟨_, rfl⟩
  · exact .inl ⟨_, rfl⟩
  · exact .inr fun s a s1 h => by cases h
theorem const_mapParams (l : List String) : Const (mapParams l) := by
  unfold mapParams
  split
  · exact .inl ⟨_, rfl⟩
  · exact .inl ⟨_, rfl⟩
  · exact .inr fun s a s1 h => by cases h
theorem const_unitValueParams (l : List String) : Const (unitValueParams l) := by
  unfold unitValueParams
  split
  · exact .inl ⟨_, rfl⟩
  · exact .inl ⟨_, rfl⟩
  · exact .inr fun s a s1 h => by cases h

theorem const_bind {p : P α} {f : α → P β} (h : Const p) (h' : ∀ a, Const (f a)) : Const (p >>= f) := by
  rcases h with ⟨a, rfl⟩ | h
  · exact h' a
  · refine .inr fun s b s1 hb => ?_
    change P.bind p f s = _ at hb
    unfold P.bind at hb
    cases e : p s with
    | ok a s2 => exact h s a s2 e
    | err _ _ => rw [e] at hb; cases hb
    | panic _ => rw [e] at hb; cases hb
    | hang => rw [e] at hb; cases hb

theorem const_spec (e : Elems) : Const (specOfElems e) := by
  unfold specOfElems
  split
  · exact const_bind (const_arrayParams _) fun _ => .inl ⟨_, rfl⟩
  · exact const_bind (const_arrayParams _) fun _ => .inl ⟨_, rfl⟩
  · exact const_bind (const_mapParams _) fun _ => .inl ⟨_, rfl⟩
  · exact const_bind (const_unitValueParams _) fun _ => .inl ⟨_, rfl⟩
  · split
    · exact .inr fun s a s1 h => by cases h
    · exact .inl ⟨_, rfl⟩

theorem bind_pure_some {p : P α} {f : α → β} {s s1 : TState} {o : Option β} (h : (p >>= fun r => (pure (some (f r)) : P (Option β))) s = .ok o s1) :
    ∃ b, o = some b := by
  change P.bind p _ s = _ at h
  unfold P.bind at h
  cases e : p s with
  | ok a s2 => rw [e] at h; cases h; exact ⟨_, rfl⟩
  | err _ _ => rw [e] at h; cases h
  | panic _ => rw [e] at h; cases h
  | hang => rw [e] at h; cases h

/-- It fails when nothing is left to read. -/
def Dead (p : P α) : Prop := ∀ s, Exh s → ∀ a s1, p s ≠ .ok a s1

theorem Dead.bind {p : P α} {f : α → P β} (h : Dead p) : Dead (p >>= f) := by
  intro s hs a s1 e
  change P.bind p f s = _ at e
  unfold P.bind at e
  cases e' : p s with
  | ok x s2 => exact h s hs x s2 e'
  | err _ _ => rw [e'] at e; cases e
  | panic _ => rw [e'] at e; cases e
  | hang => rw [e'] at e; cases e

theorem get_exh {s : TState} (h : Exh s) : getToken s = .ok none { s with toks := [], prevLast := s.last } := by
  unfold getToken
  simp only [h.2, h.1, scan]

theorem dead_next : Dead nextToken := by
  intro s hs a s1 e
  change P.bind getToken _ s = _ at e
  unfold P.bind at e
  rw [get_exh hs] at e
  cases e
theorem dead_must : Dead mustToken := by
  intro s hs a s1 e
  change P.bind getToken _ s = _ at e
  unfold P.bind at e
  rw [get_exh hs] at e
  cases e
theorem dead_identifier : Dead expectIdentifier := Dead.bind dead_next

section
variable {n t : Token}

/-- A closing brace was just read, by both. -/
def Br (n t : Token) (s s' : TState) : Prop := ∃ tok, tok.type = .closeBrace ∧ Rd n t tok s s'

variable (hn : n.type = .newline) (ht : t.type ≠ .blockComment)
include hn ht

/-! ### Types -/

theorem sim_paramsStep (e : Option Nat) (x : List String) : Sim (St n t) (paramsStep e x) (paramsStep e x) (fun _ => St n t) := by
  unfold paramsStep
  refine sim_next hn ht fun tok => Sim.ite (fun _ => Sim.ite (fun _ => ?_) fun _ => ?_) fun _ => ?_
  · cases e with
    | none => exact Sim.pure fun _ _ h => Rd.st h
    | some k => exact Sim.ite (fun _ => Sim.syn) fun _ => Sim.pure fun _ _ h => Rd.st h
  · exact Sim.ite (fun _ => Sim.syn) fun _ => Sim.pure fun _ _ h => Rd.st h
  · exact Sim.pure fun _ _ h => Rd.st h

theorem sim_enumSkip (c : String) : Sim (St n t) (P.loop enumSkipStep c) (P.loop enumSkipStep c)
    (fun r s s' => match r with | none => Br n t s s' | some _ => St n t s s') := by
  refine sim_loop' (fun c => ?_) c
  unfold enumSkipStep
  refine sim_next hn ht fun tok => Sim.ite (fun h => Sim.pure fun _ _ h' => ⟨tok, h, h'⟩) fun _ => Sim.ite (fun _ => Sim.pure fun _ _ h => Rd.st h) fun _ => ?_
  exact Sim.ite (fun _ => Sim.pure fun _ _ h => Rd.st h) fun _ => Sim.ite (fun _ => Sim.pure fun _ _ h => Rd.st h) fun _ => Sim.fail

theorem sim_enumElement (lib : PLib) : Sim (St n t) (parseEnumElementDef lib) (parseEnumElementDef lib)
    (fun r s s' => match r with | none => Br n t s s' | some _ => St n t s s') := by
  unfold parseEnumElementDef
  refine Sim.bind (sim_enumSkip hn ht "") fun r => ?_
  cases r with
  | none => exact Sim.pure fun _ _ h => h
  | some x => exact Sim.bind (sim_options hn ht lib []) fun o => Sim.bind (sim_trailing hn ht _) fun c => Sim.pure fun _ _ h => h

theorem sim_elements (lib : PLib) (x : List EnumElementDef) :
    Sim (St n t) (P.loop (elementsStep lib) x) (P.loop (elementsStep lib) x) (fun _ => Br n t) := by
  refine sim_loop' (fun x => ?_) x
  unfold elementsStep
  refine Sim.bind (sim_enumElement hn ht lib) fun r => ?_
  cases r with
  | none => exact Sim.pure fun _ _ h => h
  | some f => exact Sim.pure fun _ _ h => h

theorem sim_fieldSkip (c : String) : Sim (St n t) (P.loop fieldSkipStep c) (P.loop fieldSkipStep c)
    (fun r s s' => match r with | none => Br n t s s' | some _ => St n t s s') := by
  refine sim_loop' (fun c => ?_) c
  unfold fieldSkipStep
  refine sim_next hn ht fun tok => Sim.ite (fun h => Sim.pure fun _ _ h' => ⟨tok, h, h'⟩) fun _ => Sim.ite (fun _ => Sim.pure fun _ _ h => Rd.st h) fun _ => ?_
  exact Sim.ite (fun _ => Sim.pure fun _ _ h => Rd.st h) fun _ => Sim.bind sim_unget fun _ => Sim.pure fun _ _ h => h

theorem sim_typeSpecWith {r r' : P Elems} (hr : Sim (St n t) r r' (fun _ => St2 n t)) (c : String) :
    Sim (St n t) (parseTypeSpecWith r c) (parseTypeSpecWith r' c) (fun _ => St2 n t) := by
  unfold parseTypeSpecWith
  exact Sim.bind hr fun e => Sim.bind (Sim.const (const_spec e)) fun ts => Sim.pure fun _ _ h => h

theorem sim_field (lib : PLib) {r r' : P Elems} (hr : Sim (St n t) r r' (fun _ => St2 n t)) :
    Sim (St n t) (parseStructFieldDef lib r) (parseStructFieldDef lib r') (fun o s s' => match o with | none => Br n t s s' | some _ => St n t s s') := by
  unfold parseStructFieldDef
  refine Sim.bind (sim_fieldSkip hn ht "") fun o => ?_
  cases o with
  | none => exact Sim.pure fun _ _ h => h
  | some c =>
    refine Sim.bind (sim_expectIdentifier hn ht) fun fname => Sim.bind (sim_typeSpecWith hn ht hr c) fun x => ?_
    obtain ⟨ts, fo, fc⟩ := x
    refine Sim.bind (sim_options2 hn ht lib _) fun o => ?_
    dsimp only
    intro s s' hs a s1 h
    obtain ⟨s1', h1, h2⟩ := sim_end2 hn ht _ (fun c' => some { name := (applyFieldOptions { name := fname, comment := mergeComment c fc, ts := ts } o).name, comment := c', annotations := addAnnotations (applyFieldOptions { name := fname, comment := mergeComment c fc, ts := ts } o).annotations fo.annotations, required := (applyFieldOptions { name := fname, comment := mergeComment c fc, ts := ts } o).required, default := (applyFieldOptions { name := fname, comment := mergeComment c fc, ts := ts } o).default, ts := (applyFieldOptions { name := fname, comment := mergeComment c fc, ts := ts } o).ts }) s s' hs a s1 h
    obtain ⟨f, rfl⟩ := bind_pure_some h
    exact ⟨s1', h1, h2⟩

theorem sim_fields (lib : PLib) {r r' : P Elems} (hr : Sim (St n t) r r' (fun _ => St2 n t)) (x : List StructFieldDef) :
    Sim (St n t) (P.loop (fieldsStep lib r) x) (P.loop (fieldsStep lib r') x) (fun _ => Br n t) := by
  refine sim_loop' (fun x => ?_) x
  unfold fieldsStep
  refine Sim.bind (sim_field hn ht lib hr) fun r => ?_
  cases r with
  | none => exact Sim.pure fun _ _ h => h
  | some f => exact Sim.pure fun _ _ h => h

theorem sim_optNewline : Sim (St n t) optNewline optNewline (fun _ => St n t) := by
  unfold optNewline
  refine sim_get hn ht (fun tok => ?_) ?_ ?_
  · exact Sim.ite (fun _ => sim_unget) fun _ => Sim.pure fun _ _ h => Rd.st h
  · intro s s' a s1 _ _ h; cases h
  · intro s s' a s1 _ _ _ h; cases h

/-- What was read when a statement that ends with a brace is over. -/
def Over (n t : Token) (s s' : TState) : Prop :=
  (∃ tok, Rd n t tok s s') ∨ (Exh s ∧ (∃ l, s.last = some l ∧ (l.type = .closeBrace ∨ l.type = .semicolon)) ∧ Exh s' ∧ s'.last = some n)

def Mid (n t : Token) (s s' : TState) : Prop :=
  ∃ tok, Rd n t tok s s' ∧ (tok.type = .closeBrace ∨ tok.type = .semicolon ∨ tok.type = .lineComment)

theorem sim_endMid (hc : t.type ≠ .lineComment) (c : String) : Sim (Mid n t) (endStep c) (endStep c)
    (fun r s s' => match r with | .inl _ => Mid n t s s' | .inr _ => Over n t s s') := by
  rintro s s' ⟨tok, hr, hk⟩ a s1 h
  change P.bind getToken _ s = _ at h
  change ∃ s1', P.bind getToken _ s' = _ ∧ _
  unfold P.bind at h ⊢
  rcases get_cases hn ht hr.st with ⟨tok', u, u', e1, e2, hr'⟩ | ⟨u, e1, hu, hl, hl', e2⟩
  · rw [e1] at h
    rw [e2]
    dsimp only at h ⊢
    by_cases h1 : tok'.type = .semicolon
    · rw [if_pos h1] at h ⊢
      cases h
      exact ⟨u', rfl, tok', hr', .inr (.inl h1)⟩
    by_cases h2 : tok'.type = .lineComment
    · rw [if_neg h1, if_pos h2] at h ⊢
      cases h
      exact ⟨u', rfl, tok', hr', .inr (.inr h2)⟩
    by_cases h3 : tok'.type = .newline
    · rw [if_neg h1, if_neg h2, if_pos h3] at h ⊢
      cases h
      exact ⟨u', rfl, .inl ⟨tok', hr'⟩⟩
    · rw [if_neg h1, if_neg h2, if_neg h3] at h ⊢
      cases h
      exact ⟨u', rfl, .inl ⟨tok', hr'⟩⟩
  · rw [e1] at h
    have ht' := hl' hr.1
    rw [hr.2.2] at ht'
    cases ht'
    cases h
    rcases e2 with ⟨u', e2, hu'⟩ | ⟨u', e2, hu', hn'⟩
    · exfalso
      have := hr.1.1
      subst this
      unfold getToken at e2
      simp only [hr.2.1] at e2
      cases hs : scan s.toks with
      | mk o r =>
        cases o with
        | some x => rw [(scan_append hn s.toks).1 x r hs] at e2; cases e2
        | none => rw [((scan_append hn s.toks).2 r hs).2] at e2; cases e2
    · rw [e2]
      dsimp only
      rw [if_neg (newline_ne hn ht (by decide)), if_neg (newline_ne hn ht (by decide)), if_pos hn]
      refine ⟨u', rfl, .inr ⟨hu, ⟨_, hl.trans hr.2.2, ?_⟩, hu', hn'⟩⟩
      rcases hk with h | h | h
      · exact .inl h
      · exact .inr h
      · exact absurd h hc

theorem sim_braceEnd (hc : t.type ≠ .lineComment) (c : String) (f : String → α) :
    Sim (Br n t) (endOfStatement c >>= fun r => ungetToken >>= fun _ => (pure (f r.1) : P α)) (endOfStatement c >>= fun r => ungetToken >>= fun _ => pure (f r.1))
      (fun _ => St2 n t) := by
  have k : Sim (Br n t) (endOfStatement c) (endOfStatement c) (fun _ => Over n t) := by
    rintro s s' ⟨tok, hk, hr⟩
    exact sim_loopNI (I := Mid n t) (B := fun _ => Over n t) (fun c => (sim_endMid hn ht hc c).mono (fun _ _ h => h) (fun r s s' h => by cases r <;> exact h)) _ _ c (Nat.succ_le_succ hr.st.size) s s' ⟨tok, hr, .inl hk⟩
  refine Sim.bind k fun r => ?_
  rintro s s' (⟨tok, hr⟩ | ⟨he, ⟨l, hl, hk⟩, he', hl'⟩) a s1 h
  · have k' : Sim (Rd n t tok) (ungetToken >>= fun _ => (pure (f r.1) : P α)) (ungetToken >>= fun _ => pure (f r.1)) (fun _ => St2 n t) :=
      Sim.bind sim_unget fun _ => Sim.pure fun _ _ h => .inl h
    exact k' s s' hr a s1 h
  · cases h
    exact ⟨_, rfl, .inr ⟨he.1, ⟨l, hl, hk⟩, he'.1, hl'⟩⟩

theorem sim_braces (hc : t.type ≠ .lineComment) (lib : PLib) {r r' : P Elems} (hr : Sim (St n t) r r' (fun _ => St2 n t)) (name : String) (o : Options) :
    Sim (St n t) (parseBraces lib r name o) (parseBraces lib r' name o) (fun _ => St2 n t) := by
  unfold parseBraces
  refine Sim.bind (sim_trailing hn ht _) fun c => Sim.ite (fun _ => ?_) fun _ => ?_
  · exact Sim.bind (sim_optNewline hn ht) fun _ => Sim.bind (sim_fields hn ht lib hr _) fun fs => sim_braceEnd hn ht hc c _
  · exact Sim.bind (sim_optNewline hn ht) fun _ => Sim.bind (sim_elements hn ht lib _) fun fs => sim_braceEnd hn ht hc c _

theorem sim_elemsStep (hc : t.type ≠ .lineComment) (lib : PLib) {r r' : P Elems} (hr : Sim (St n t) r r' (fun _ => St2 n t)) :
    Sim (St n t) (typeSpecElementsStep lib r) (typeSpecElementsStep lib r') (fun _ => St2 n t) := by
  unfold typeSpecElementsStep
  refine Sim.bind (sim_expectIdentifier hn ht) fun name => sim_get hn ht (fun tok => ?_) ?_ ?_
  · dsimp only
    refine Sim.ite (fun _ => ?_) fun _ => Sim.ite (fun _ => Sim.ite (fun _ => ?_) fun _ => Sim.ofRd (sim_braces hn ht hc lib hr _ _)) fun _ => ?_
    · cases genericArity name with
      | none => exact Sim.syn
      | some x => exact Sim.ofRd (Sim.bind (sim_loop (sim_paramsStep hn ht x.2) _) fun _ => Sim.pure fun _ _ h => .inl h)
    · refine Sim.bind sim_unget fun _ => Sim.bind (sim_options hn ht lib _) fun o => sim_next hn ht fun tok => ?_
      exact Sim.ite (fun _ => Sim.ofRd (sim_braces hn ht hc lib hr _ _)) fun _ => Sim.bind sim_unget fun _ => Sim.pure fun _ _ h => .inl h
    · exact Sim.bind sim_unget fun _ => Sim.pure fun _ _ h => .inl h
  · intro s s' a s1 he he' h
    cases h
    exact ⟨_, rfl, .inl (Exh.fin hn ht he he')⟩
  · intro s s' a s1 he he' hl h
    cases h
    dsimp only
    rw [if_neg (newline_ne hn ht (by decide))]
    by_cases hs : name = "Struct" ∨ name = "Enum" ∨ name = "Union"
    · rw [if_pos hs, if_pos (newline_ne hn ht (by decide))]
      refine ⟨{ s' with ungotten := some n, last := s'.prevLast }, ?_, .inl (.inr ⟨he, he'.1, .inr rfl⟩)⟩
      have np : n.type ≠ .openParen := newline_ne hn ht (by decide)
      have nb : n.type ≠ .openBrace := newline_ne hn ht (by decide)
      simp only [bind, pure, P.bind, P.pure, ungetToken, parseOptions, getToken, nextToken, hl, np, nb, if_false]
    · rw [if_neg hs]
      obtain ⟨s1', h1, h2⟩ := unget_at_end (t := t) (a := ({ type := name } : Elems)) he he' hl
      exact ⟨s1', h1, .inl h2⟩

theorem sim_elemsN (hc : t.type ≠ .lineComment) (lib : PLib) : ∀ k m, k ≤ m →
    Sim (St n t) (typeSpecElementsN lib k) (typeSpecElementsN lib m) (fun _ => St2 n t) := by
  intro k
  induction k with
  | zero => exact fun m _ => Sim.hang
  | succ k ih =>
    intro m hm
    obtain ⟨m, rfl⟩ : ∃ m', m = m' + 1 := ⟨m - 1, by omega⟩
    unfold typeSpecElementsN
    exact sim_elemsStep hn ht hc lib (ih m (by omega))

theorem sim_elems (hc : t.type ≠ .lineComment) (lib : PLib) : Sim (St n t) (parseTypeSpecElements lib) (parseTypeSpecElements lib) (fun _ => St2 n t) := by
  intro s s' hs
  exact sim_elemsN hn ht hc lib _ _ (Nat.succ_le_succ hs.size) s s' hs

theorem sim_typeSpec (hc : t.type ≠ .lineComment) (lib : PLib) (c : String) : Sim (St n t) (parseTypeSpec lib c) (parseTypeSpec lib c) (fun _ => St2 n t) :=
  sim_typeSpecWith hn ht (sim_elems hn ht hc lib) c

theorem sim_typeOptions (lib : PLib) (td : TypeDef) (acc : List String) : Sim (St2 n t) (parseTypeOptions lib td acc) (parseTypeOptions lib td acc) (fun _ => St2 n t) := by
  unfold parseTypeOptions
  exact Sim.bind (sim_options2 hn ht lib acc) fun _ => Sim.pure fun _ _ h => h

theorem sim_simpleDef (lib : PLib) (td : TypeDef) (acc : List String) : Sim (St2 n t) (parseSimpleDef lib td acc) (parseSimpleDef lib td acc) (fun _ => St2 n t) := by
  unfold parseSimpleDef
  exact Sim.bind (sim_typeOptions hn ht lib td acc) fun _ => Sim.bind (sim_end! hn ht _) fun _ => Sim.pure fun _ _ h => .inl h

theorem sim_stringDef (lib : PLib) (td : TypeDef) : Sim (St2 n t) (parseStringDef lib td) (parseStringDef lib td) (fun _ => St2 n t) := by
  unfold parseStringDef
  exact Sim.bind (sim_simpleDef hn ht lib td _) fun _ => Sim.pure fun _ _ h => h

theorem sim_unitDef (lib : PLib) (td : TypeDef) (ps : List String) : Sim (St2 n t) (parseUnitValueDef lib td ps) (parseUnitValueDef lib td ps) (fun _ => St2 n t) := by
  unfold parseUnitValueDef
  exact Sim.bind (sim_typeOptions hn ht lib td _) fun _ => Sim.bind (Sim.const (const_unitValueParams ps)) fun _ => Sim.bind (sim_end! hn ht _) fun _ => Sim.pure fun _ _ h => .inl h

theorem sim_arrayDef (lib : PLib) (td : TypeDef) (ps : List String) : Sim (St2 n t) (parseArrayDef lib td ps) (parseArrayDef lib td ps) (fun _ => St2 n t) := by
  unfold parseArrayDef
  exact Sim.bind (Sim.const (const_arrayParams ps)) fun _ => sim_simpleDef hn ht lib _ _

theorem sim_mapDef (lib : PLib) (td : TypeDef) (ps : List String) : Sim (St2 n t) (parseMapDef lib td ps) (parseMapDef lib td ps) (fun _ => St2 n t) := by
  unfold parseMapDef
  exact Sim.bind (Sim.const (const_mapParams ps)) fun _ => sim_simpleDef hn ht lib _ _

theorem sim_structDef (lib : PLib) (td : TypeDef) (e : Elems) : Sim (St2 n t) (parseStructDef lib td e) (parseStructDef lib td e) (fun _ => St2 n t) := by
  unfold parseStructDef
  exact Sim.bind (sim_typeOptions hn ht lib td _) fun _ => Sim.pure fun _ _ h => h

theorem sim_unionDef (lib : PLib) (td : TypeDef) (e : Elems) : Sim (St2 n t) (parseUnionDef lib td e) (parseUnionDef lib td e) (fun _ => St2 n t) := by
  unfold parseUnionDef
  refine Sim.bind (sim_typeOptions hn ht lib td _) fun _ => Sim.ite (fun _ => Sim.syn) fun _ => ?_
  exact Sim.bind (sim_end! hn ht _) fun _ => Sim.pure fun _ _ h => .inl h

theorem sim_typeDirective (hc : t.type ≠ .lineComment) (lib : PLib) (c : String) : Sim (St n t) (parseTypeDirective lib c) (parseTypeDirective lib c) (fun _ => St2 n t) := by
  unfold parseTypeDirective
  refine Sim.bind (sim_expectIdentifier hn ht) fun name => Sim.bind (sim_elems hn ht hc lib) fun e => ?_
  dsimp only
  generalize e.type = ty
  split <;> first
    | exact sim_simpleDef hn ht lib _ _ | exact sim_stringDef hn ht lib _ | exact sim_unitDef hn ht lib _ _ | exact sim_arrayDef hn ht lib _ _
    | exact sim_mapDef hn ht lib _ _ | exact sim_structDef hn ht lib _ _ | exact Sim.pure fun _ _ h => h | exact sim_unionDef hn ht lib _ _ | exact Sim.fail

/-! ### HTTP actions -/

theorem sim_blockN : ∀ k m c s s' a s1, k ≤ m → St n t s s' → P.loopN blockStep k c s = .ok a s1 →
    (∃ s1', P.loopN blockStep m c s' = .ok a s1' ∧ St n t s1 s1') ∨ (a.1 = false ∧ Exh s1) := by
  intro k
  induction k with
  | zero => intro m c s s' a s1 _ _ h; cases h
  | succ k ih =>
    intro m c s s' a s1 hm hs h
    obtain ⟨m, rfl⟩ : ∃ m', m = m' + 1 := ⟨m - 1, by omega⟩
    unfold P.loopN at h ⊢
    change P.bind (P.bind getToken _) _ s = _ at h
    change (∃ s1', P.bind (P.bind getToken _) _ s' = _ ∧ _) ∨ _
    unfold P.bind at h ⊢
    rcases get_cases hn ht hs with ⟨tok, u, u', e1, e2, hr⟩ | ⟨u, e1, hu, _⟩
    · rw [e1] at h
      rw [e2]
      dsimp only at h ⊢
      by_cases h1 : tok.type = .closeBrace
      · rw [if_pos h1] at h ⊢
        cases h
        exact .inl ⟨u', rfl, hr.st⟩
      rw [if_neg h1] at h ⊢
      by_cases h2 : tok.type = .lineComment
      · rw [if_pos h2] at h ⊢
        exact ih m _ u u' a s1 (by omega) hr.st h
      rw [if_neg h2] at h ⊢
      by_cases h3 : tok.type = .newline
      · rw [if_pos h3] at h ⊢
        exact ih m _ u u' a s1 (by omega) hr.st h
      rw [if_neg h3] at h ⊢
      obtain ⟨v', hv, hv'⟩ := sim_unget u u' hr () _ rfl
      cases h
      cases hv
      exact .inl ⟨_, rfl, hv'⟩
    · rw [e1] at h
      cases h
      exact .inr ⟨rfl, hu⟩

theorem sim_block {F F' : Bool × String → P α} {B : α → TState → TState → Prop} (c : String)
    (h1 : ∀ r, Sim (St n t) (F r) (F' r) B) (h2 : ∀ r, r.1 = false → Dead (F r)) :
    Sim (St n t) (isBlockDone c >>= F) (isBlockDone c >>= F') B := by
  intro s s' hs a s1 h
  change P.bind (isBlockDone c) _ s = _ at h
  change ∃ s1', P.bind (isBlockDone c) _ s' = _ ∧ _
  unfold P.bind at h ⊢
  cases e : isBlockDone c s with
  | ok r u =>
    rw [e] at h
    rcases sim_blockN hn ht _ _ c s s' r u (Nat.succ_le_succ hs.size) hs e with ⟨u', e', hu⟩ | ⟨hf, hu⟩
    · have e'' : isBlockDone c s' = .ok r u' := e'
      rw [e'']
      exact h1 r u u' hu a s1 h
    · exact absurd h (h2 r hf u hu a s1)
  | err _ _ => rw [e] at h; cases h
  | panic _ => rw [e] at h; cases h
  | hang => rw [e] at h; cases h

theorem sim_httpParam (hc : t.type ≠ .lineComment) (lib : PLib) (path ename c : String) :
    Sim (St n t) (parseHttpParam lib path ename c) (parseHttpParam lib path ename c) (fun _ => St n t) := by
  unfold parseHttpParam
  refine Sim.bind (sim_typeSpec hn ht hc lib c) fun x => ?_
  obtain ⟨ts, o, c'⟩ := x
  exact Sim.bind (sim_options2 hn ht lib _) fun o => sim_end2 hn ht c' (fun z => mkParam path ename z ts o)

theorem sim_expectSpec (hc : t.type ≠ .lineComment) (lib : PLib) (path : String) (e : HttpExpectedSpec) :
    Sim (St n t) (expectStep lib path e) (expectStep lib path e) (fun _ => St n t) := by
  unfold expectStep
  refine sim_block hn ht _ (fun r => ?_) fun r hr => ?_
  · refine Sim.ite (fun _ => Sim.pure fun _ _ h => h) fun _ => Sim.bind (sim_expectIdentifier hn ht) fun x => Sim.ite (fun _ => Sim.syn) fun _ => ?_
    exact Sim.bind (sim_httpParam hn ht hc lib _ _ _) fun _ => Sim.pure fun _ _ h => h
  · rw [if_neg (by simp [hr])]
    exact Dead.bind dead_identifier

theorem sim_expectedSpec (hc : t.type ≠ .lineComment) (lib : PLib) (op : HttpDef) (c : String) :
    Sim (St n t) (parseHttpExpectedSpec lib op c) (parseHttpExpectedSpec lib op c) (fun _ => St n t) := by
  unfold parseHttpExpectedSpec
  cases op.expected with
  | some _ => exact Sim.fail
  | none =>
    refine Sim.bind (sim_expectInt hn ht 32) fun st => Sim.bind (sim_options hn ht lib _) fun o => sim_next hn ht fun tok => ?_
    have k : Sim (St n t) (endOfStatement! "") (endOfStatement! "") (fun _ => St n t) := (sim_end! hn ht _).mono (fun _ _ h => .inl h) fun _ _ _ h => h
    refine Sim.bind (B := fun _ => St n t) ?_ fun e => Sim.bind ((sim_end! hn ht _).mono (fun _ _ h => .inl h) fun _ _ _ h => h) fun _ => Sim.pure fun _ _ h => h
    refine Sim.ite (fun _ => Sim.ofRd ?_) fun _ => Sim.ite (fun _ => Sim.pure fun _ _ h => Rd.st h) fun _ => Sim.bind sim_unget fun _ => Sim.pure fun _ _ h => h
    exact Sim.bind (sim_trailing hn ht _) fun c => sim_loop (sim_expectSpec hn ht hc lib op.path) _

theorem sim_exceptionSpec (lib : PLib) (op : HttpDef) (c : String) :
    Sim (St n t) (parseHttpExceptionSpec lib op c) (parseHttpExceptionSpec lib op c) (fun _ => St n t) := by
  unfold parseHttpExceptionSpec
  refine sim_next hn ht fun tok => Sim.bind sim_unget fun _ => ?_
  refine Sim.bind (B := fun _ => St n t) (Sim.ite (fun _ => sim_expectInt hn ht 32) fun _ => Sim.pure fun _ _ h => h) fun st => ?_
  refine Sim.bind (sim_expectIdentifier hn ht) fun ty => Sim.ite (fun _ => Sim.fail) fun _ => Sim.bind (sim_options hn ht lib _) fun o => ?_
  exact Sim.bind ((sim_end! hn ht _).mono (fun _ _ h => .inl h) fun _ _ _ h => h) fun _ => Sim.pure fun _ _ h => h

theorem sim_httpSpec (hc : t.type ≠ .lineComment) (lib : PLib) (op : HttpDef) (c : String) :
    Sim (St n t) (parseHttpSpec lib op c) (parseHttpSpec lib op c) (fun _ => St n t) := by
  unfold parseHttpSpec
  refine Sim.bind (sim_expectIdentifier hn ht) fun x => Sim.ite (fun _ => sim_expectedSpec hn ht hc lib op c) fun _ => Sim.ite (fun _ => sim_exceptionSpec hn ht lib op c) fun _ => ?_
  exact Sim.bind (sim_httpParam hn ht hc lib _ _ _) fun _ => Sim.pure fun _ _ h => h

theorem sim_httpStep (hc : t.type ≠ .lineComment) (lib : PLib) (op : HttpDef) : Sim (St n t) (httpStep lib op) (httpStep lib op) (fun _ => St n t) := by
  unfold httpStep
  refine sim_block hn ht _ (fun r => Sim.ite (fun _ => Sim.pure fun _ _ h => h) fun _ => Sim.bind (sim_httpSpec hn ht hc lib op _) fun _ => Sim.pure fun _ _ h => h) fun r hr => ?_
  rw [if_neg (by simp [hr])]
  exact Dead.bind (Dead.bind dead_identifier)

theorem sim_http (hc : t.type ≠ .lineComment) (lib : PLib) (c : String) : Sim (St n t) (parseHttpDirective lib c) (parseHttpDirective lib c) (fun _ => St n t) := by
  unfold parseHttpDirective
  refine Sim.bind (sim_expectIdentifier hn ht) fun sym => Sim.ite (fun _ => Sim.fail) fun _ => Sim.bind (sim_expectString hn ht) fun path => ?_
  refine Sim.bind (sim_options hn ht lib _) fun o => sim_next hn ht fun tok => Sim.ite (fun _ => Sim.ofRd ?_) fun _ => Sim.syn
  refine Sim.bind (sim_trailing hn ht _) fun c' => Sim.bind (sim_loop (sim_httpStep hn ht hc lib) _) fun op => ?_
  exact Sim.bind (sim_end hn ht _) fun r => Sim.pure fun _ _ h => h

/-! ### Operations -/

theorem sim_attempt {p q : P β} {F F' : Option β → P α} {B : α → TState → TState → Prop} (hp : Sim (St n t) p q (fun _ => St n t))
    (h1 : ∀ b, Sim (St n t) (F (some b)) (F' (some b)) B) (h2 : ∀ s a s1, F none s ≠ .ok a s1) :
    Sim (St n t) (P.attempt p >>= F) (P.attempt q >>= F') B := by
  intro s s' hs a s1 h
  change P.bind (P.attempt p) _ s = _ at h
  change ∃ s1', P.bind (P.attempt q) _ s' = _ ∧ _
  unfold P.bind P.attempt at h ⊢
  cases e : p s with
  | ok b u =>
    rw [e] at h
    obtain ⟨u', e', hu⟩ := hp s s' hs b u e
    rw [e']
    exact h1 b u u' hu a s1 h
  | err _ u => rw [e] at h; exact absurd h (h2 _ _ _)
  | panic _ => rw [e] at h; cases h
  | hang => rw [e] at h; cases h

/-- Either the second run follows, or the first has met the end. -/
def SimX (n t : Token) (p q : P α) : Prop :=
  ∀ s s', St n t s s' → ∀ a s1, p s = .ok a s1 → (∃ s1', q s' = .ok a s1' ∧ St n t s1 s1') ∨ Exh s1

/-- The end stays the end. -/
def Stay (p : P α) : Prop := ∀ s, Exh s → ∀ a s1, p s = .ok a s1 → Exh s1

omit hn ht in
theorem Sim.x {p q : P α} (h : Sim (St n t) p q (fun _ => St n t)) : SimX n t p q := fun s s' hs a s1 hp => .inl (h s s' hs a s1 hp)

omit hn ht in
theorem SimX.bind {p q : P α} {f g : α → P β} (h : SimX n t p q) (h' : ∀ a, SimX n t (f a) (g a)) (h2 : ∀ a, Stay (f a)) : SimX n t (p >>= f) (q >>= g) := by
  intro s s' hs b s2 hp
  change P.bind p f s = _ at hp
  change (∃ s1', P.bind q g s' = _ ∧ _) ∨ _
  unfold P.bind at hp ⊢
  cases e : p s with
  | ok a s1 =>
    rw [e] at hp
    rcases h s s' hs a s1 e with ⟨s1', hq, hB⟩ | hx
    · rw [hq]
      exact h' a s1 s1' hB b s2 hp
    · exact .inr (h2 a s1 hx b s2 hp)
  | err e' s1 => rw [e] at hp; cases hp
  | panic e' => rw [e] at hp; cases hp
  | hang => rw [e] at hp; cases hp

omit hn ht in
theorem simX_loopN {body : σ → P (σ ⊕ α)} (h : ∀ x, SimX n t (body x) (body x)) (h' : ∀ x, Stay (body x)) :
    ∀ k, (∀ m x, k ≤ m → SimX n t (P.loopN body k x) (P.loopN body m x)) ∧ ∀ x, Stay (P.loopN body k x) := by
  intro k
  induction k with
  | zero => exact ⟨fun m x _ s s' _ a s1 hp => (by cases hp), fun x s _ a s1 hp => (by cases hp)⟩
  | succ k ih =>
    refine ⟨fun m x hm => ?_, fun x => ?_⟩
    · obtain ⟨m, rfl⟩ : ∃ m', m = m' + 1 := ⟨m - 1, by omega⟩
      unfold P.loopN
      refine SimX.bind (h x) (fun r => ?_) fun r => ?_
      · cases r with
        | inl x' => exact ih.1 m x' (by omega)
        | inr a => exact Sim.x (Sim.pure fun s s' h => h)
      · cases r with
        | inl x' => exact ih.2 x'
        | inr a => intro s hs b s1 e; cases e; exact hs
    · unfold P.loopN
      intro s hs a s1 e
      change P.bind (body x) _ s = _ at e
      unfold P.bind at e
      cases e' : body x s with
      | ok r s2 =>
        rw [e'] at e
        have := h' x s hs r s2 e'
        cases r with
        | inl x' => exact ih.2 x' s2 this a s1 e
        | inr b => cases e; exact this
      | err _ _ => rw [e'] at e; cases e
      | panic _ => rw [e'] at e; cases e
      | hang => rw [e'] at e; cases e

omit hn ht in
theorem simX_loop {body : σ → P (σ ⊕ α)} (h : ∀ x, SimX n t (body x) (body x)) (h' : ∀ x, Stay (body x)) (x : σ) :
    SimX n t (P.loop body x) (P.loop body x) := by
  intro s s' hs
  exact (simX_loopN h h' _).1 _ x (Nat.succ_le_succ hs.size) s s' hs

theorem simX_get {F F' : Option Token → P α} (h1 : ∀ tok, Sim (Rd n t tok) (F (some tok)) (F' (some tok)) (fun _ => St n t)) (h2 : Stay (F none)) :
    SimX n t (getToken >>= F) (getToken >>= F') := by
  intro s s' hs a s1 hp
  change P.bind getToken F s = _ at hp
  change (∃ s1', P.bind getToken F' s' = _ ∧ _) ∨ _
  unfold P.bind at hp ⊢
  rcases get_cases hn ht hs with ⟨tok, u, u', e1, e2, hr⟩ | ⟨u, e1, hu, _⟩
  · rw [e1] at hp
    rw [e2]
    exact .inl (h1 tok u u' hr a s1 hp)
  · rw [e1] at hp
    exact .inr (h2 u hu a s1 hp)

omit hn ht in
theorem stay_get {F : Option Token → P α} (h : Stay (F none)) : Stay (getToken >>= F) := by
  intro s hs a s1 e
  change P.bind getToken F s = _ at e
  unfold P.bind at e
  rw [get_exh hs] at e
  exact h { s with toks := [], prevLast := s.last } ⟨rfl, hs.2⟩ a s1 e

omit hn ht in
theorem stay_end {b : Bool} {a : α} : Stay (if b then (eofError : P α) else pure a) := by
  intro s hs x s1 e
  cases b
  · cases e; exact hs
  · cases e

theorem simX_inputsStep (x : List StructFieldDef × Bool) : SimX n t (inputsStep x) (inputsStep x) ∧ Stay (inputsStep x) := by
  unfold inputsStep
  refine ⟨simX_get hn ht (fun tok => ?_) stay_end, stay_get stay_end⟩
  refine Sim.ite (fun _ => Sim.pure fun _ _ h => Rd.st h) fun _ => Sim.ite (fun _ => Sim.pure fun _ _ h => Rd.st h) fun _ => Sim.ite (fun _ => Sim.syn) fun _ => Sim.ofRd ?_
  refine sim_must hn ht fun t1 => Sim.ite (fun _ => Sim.syn) fun _ => Sim.ofRd (sim_must hn ht fun p => Sim.bind (B := fun _ => St n t) ?_ fun _ => Sim.pure fun _ _ h => h)
  refine Sim.ite (fun _ => Sim.bind sim_unget fun _ => Sim.pure fun _ _ h => h) fun _ => Sim.ofRd (sim_loop (fun b => ?_) _)
  unfold inputOptionStep
  sim hn ht

theorem simX_outputsStep (x : List OperationOutput × Bool) : SimX n t (outputsStep x) (outputsStep x) ∧ Stay (outputsStep x) := by
  unfold outputsStep
  refine ⟨simX_get hn ht (fun tok => ?_) stay_end, stay_get stay_end⟩
  refine Sim.ite (fun _ => Sim.pure fun _ _ h => Rd.st h) fun _ => Sim.ite (fun _ => Sim.pure fun _ _ h => Rd.st h) fun _ => Sim.ite (fun _ => Sim.syn) fun _ => Sim.ofRd ?_
  sim hn ht

theorem simX_exceptionsStep (x : List String × Bool) : SimX n t (exceptionsStep x) (exceptionsStep x) ∧ Stay (exceptionsStep x) := by
  unfold exceptionsStep
  refine ⟨simX_get hn ht (fun tok => ?_) stay_end, stay_get stay_end⟩
  dsimp only
  sim hn ht

theorem simX_must {F F' : Token → P α} (h1 : ∀ tok, SimX n t (F tok) (F' tok)) : SimX n t (mustToken >>= F) (mustToken >>= F') := by
  intro s s' hs a s1 hp
  change P.bind (P.bind getToken _) F s = _ at hp
  change (∃ s1', P.bind (P.bind getToken _) F' s' = _ ∧ _) ∨ _
  unfold P.bind at hp ⊢
  rcases get_cases hn ht hs with ⟨tok, u, u', e1, e2, hr⟩ | ⟨u, e1, hu, _⟩
  · rw [e1] at hp
    rw [e2]
    exact h1 tok u u' hr.st a s1 hp
  · rw [e1] at hp
    cases hp

omit hn ht in
theorem SimX.ite {c : Prop} [Decidable c] {p1 p2 q1 q2 : P α} (h1 : SimX n t p1 q1) (h2 : SimX n t p2 q2) :
    SimX n t (if c then p1 else p2) (if c then q1 else q2) := by
  by_cases h : c
  · rw [if_pos h, if_pos h]; exact h1
  · rw [if_neg h, if_neg h]; exact h2

theorem simX_inputs : SimX n t parseOperationInputs parseOperationInputs :=
  simX_must hn ht fun _ => SimX.ite (Sim.x Sim.syn) (simX_loop (fun x => (simX_inputsStep hn ht x).1) (fun x => (simX_inputsStep hn ht x).2) _)
theorem simX_outputs : SimX n t parseOperationOutputs parseOperationOutputs :=
  simX_must hn ht fun _ => SimX.ite (Sim.x Sim.syn) (simX_loop (fun x => (simX_outputsStep hn ht x).1) (fun x => (simX_outputsStep hn ht x).2) _)
theorem simX_exceptions : SimX n t parseOperationExceptions parseOperationExceptions :=
  simX_must hn ht fun _ => SimX.ite (Sim.x Sim.syn) (simX_loop (fun x => (simX_exceptionsStep hn ht x).1) (fun x => (simX_exceptionsStep hn ht x).2) _)

/-- One round of an operation: when it has met the end, there is another round. -/
theorem operationStep_sim (op : OperationDef) : ∀ s s', St n t s s' → ∀ r s1, operationStep op s = .ok r s1 →
    (∃ s1', operationStep op s' = .ok r s1' ∧ St n t s1 s1') ∨ (∃ x, r = .inl x ∧ Exh s1) := by
  have kx : ∀ {β : Type} {p : P β} {f : β → OperationDef}, SimX n t p p → ∀ s s', St n t s s' → ∀ (r : OperationDef ⊕ OperationDef) s1,
      (p >>= fun x => (pure (.inl (f x)) : P (OperationDef ⊕ OperationDef))) s = .ok r s1 →
      (∃ s1', (p >>= fun x => (pure (.inl (f x)) : P (OperationDef ⊕ OperationDef))) s' = .ok r s1' ∧ St n t s1 s1') ∨ (∃ x, r = .inl x ∧ Exh s1) := by
    intro β p f hp s s' hs r s1 h
    change P.bind p _ s = _ at h
    change (∃ s1', P.bind p _ s' = _ ∧ _) ∨ _
    unfold P.bind at h ⊢
    cases e : p s with
    | ok b u =>
      rw [e] at h
      rcases hp s s' hs b u e with ⟨u', e', hu⟩ | hu
      · rw [e']; cases h; exact .inl ⟨u', rfl, hu⟩
      · cases h; exact .inr ⟨_, rfl, hu⟩
    | err _ _ => rw [e] at h; cases h
    | panic _ => rw [e] at h; cases h
    | hang => rw [e] at h; cases h
  intro s s' hs r s1 h
  unfold operationStep at h ⊢
  change P.bind (P.bind getToken _) _ s = _ at h
  change (∃ s1', P.bind (P.bind getToken _) _ s' = _ ∧ _) ∨ _
  unfold P.bind at h ⊢
  rcases get_cases hn ht hs with ⟨tok, u, u', e1, e2, hr⟩ | ⟨u, e1, hu, _⟩
  · rw [e1] at h
    rw [e2]
    simp only [pure, P.pure] at h ⊢
    by_cases h1 : tok.type = .closeBrace
    · rw [if_pos h1] at h ⊢
      cases h
      exact .inl ⟨u', rfl, hr.st⟩
    rw [if_neg h1] at h ⊢
    by_cases h2 : tok.type = .symbol
    · rw [if_pos h2] at h ⊢
      generalize tok.text = w at h ⊢
      split at h
      · exact kx (simX_inputs hn ht) u u' hr.st r s1 h
      · exact kx (simX_outputs hn ht) u u' hr.st r s1 h
      · exact kx (simX_exceptions hn ht) u u' hr.st r s1 h
      · cases h
    · rw [if_neg h2] at h ⊢
      cases h
      exact .inl ⟨u', rfl, hr.st⟩
  · rw [e1] at h
    cases h

theorem sim_operationLoop (op : OperationDef) : Sim (St n t) (P.loop operationStep op) (P.loop operationStep op) (fun _ => St n t) := by
  have dead : ∀ k op, Dead (P.loopN operationStep k op) := by
    intro k op
    cases k with
    | zero => intro s _ a s1 h; cases h
    | succ k => exact Dead.bind (Dead.bind dead_next)
  have key : ∀ k m op, k ≤ m → Sim (St n t) (P.loopN operationStep k op) (P.loopN operationStep m op) (fun _ => St n t) := by
    intro k
    induction k with
    | zero => exact fun m x _ => Sim.hang
    | succ k ih =>
      intro m op hm s s' hs a s1 h
      obtain ⟨m, rfl⟩ : ∃ m', m = m' + 1 := ⟨m - 1, by omega⟩
      unfold P.loopN at h ⊢
      change P.bind (operationStep op) _ s = _ at h
      change ∃ s1', P.bind (operationStep op) _ s' = _ ∧ _
      unfold P.bind at h ⊢
      cases e : operationStep op s with
      | ok r u =>
        rw [e] at h
        rcases operationStep_sim hn ht op s s' hs r u e with ⟨u', e', hu⟩ | ⟨x, rfl, hu⟩
        · rw [e']
          cases r with
          | inl x => exact ih m x (by omega) u u' hu a s1 h
          | inr b => cases h; exact ⟨u', rfl, hu⟩
        · exact absurd h (dead k x u hu a s1)
      | err _ _ => rw [e] at h; cases h
      | panic _ => rw [e] at h; cases h
      | hang => rw [e] at h; cases h
  intro s s' hs
  exact key _ _ op (Nat.succ_le_succ hs.size) s s' hs

theorem sim_operation (lib : PLib) (c : String) : Sim (St n t) (parseOperationDirective lib c) (parseOperationDirective lib c) (fun _ => St n t) := by
  unfold parseOperationDirective
  refine Sim.bind (sim_expectIdentifier hn ht) fun name => sim_attempt hn ht (sim_options hn ht lib _) (fun b => ?_) ?_
  · exact Sim.bind (sim_expect hn ht _) fun _ => Sim.bind (sim_operationLoop hn ht _) fun op => Sim.pure fun _ _ h => h
  · intro s a s1 h
    change P.bind (expect .openBrace) _ s = _ at h
    unfold P.bind at h
    cases e : expect .openBrace s with
    | ok _ u =>
      rw [e] at h
      change P.bind (P.loop operationStep _) _ u = _ at h
      unfold P.bind at h
      dsimp only at h
      cases e' : P.loop operationStep { name := name, comment := c } u with
      | ok _ v => rw [e'] at h; cases h
      | err _ _ => rw [e'] at h; cases h
      | panic _ => rw [e'] at h; cases h
      | hang => rw [e'] at h; cases h
    | err _ _ => rw [e] at h; cases h
    | panic _ => rw [e] at h; cases h
    | hang => rw [e] at h; cases h

/-! ### The other directives -/

theorem sim_namespaceStep (ns : String) : Sim (St n t) (namespaceStep ns) (namespaceStep ns) (fun _ => St n t) := by
  unfold namespaceStep
  refine sim_get hn ht (fun tok => ?_) ?_ ?_
  · refine Sim.ite (fun _ => Sim.bind sim_unget fun _ => Sim.pure fun _ _ h => h) fun _ => Sim.ofRd ?_
    exact Sim.bind (sim_expectText hn ht) fun _ => Sim.pure fun _ _ h => h
  · intro s s' a s1 he he' h
    cases h
    exact ⟨_, rfl, Exh.fin hn ht he he'⟩
  · intro s s' a s1 he he' hl h
    cases h
    dsimp only
    rw [if_pos (newline_ne hn ht (by decide))]
    exact unget_at_end he he' hl

theorem sim_namespace : Sim (St n t) parseNamespaceDirective parseNamespaceDirective (fun _ => St n t) :=
  Sim.bind (sim_expectText hn ht) fun _ => sim_loop (sim_namespaceStep hn ht) _

theorem sim_example (lib : PLib) (c : String) : Sim (St n t) (parseExampleDirective lib c) (parseExampleDirective lib c) (fun _ => St n t) := by
  unfold parseExampleDirective
  exact Sim.bind (sim_compound hn ht) fun _ => Sim.bind (sim_options hn ht lib _) fun _ => Sim.bind (sim_literalValue hn ht lib) fun _ => Sim.pure fun _ _ h => h

theorem sim_version : Sim (St n t) parseVersionDirective parseVersionDirective (fun _ => St n t) := by
  unfold parseVersionDirective
  sim hn ht

theorem sim_base : Sim (St n t) parseBaseDirective parseBaseDirective (fun _ => St n t) := by
  unfold parseBaseDirective
  exact Sim.bind (sim_expectString hn ht) fun _ => Sim.ite (fun _ => Sim.fail) fun _ => Sim.pure fun _ _ h => h

theorem sim_include (incl : String → IncRes) (sch : Schema) : Sim (St n t) (parseIncludeDirective incl sch) (parseIncludeDirective incl sch) (fun _ => St n t) := by
  unfold parseIncludeDirective
  refine Sim.bind (sim_expectString hn ht) fun f => ?_
  cases incl f with
  | none => exact Sim.hang
  | some o =>
    cases o with
    | err e => exact Sim.fail
    | panic e => exact Sim.crash
    | ok inc =>
      dsimp only
      cases mergeInclude f sch inc with
      | ok _ => exact Sim.pure fun _ _ h => h
      | err _ => exact Sim.fail
      | panic _ => exact Sim.crash

/-- `parseStringToEndOfLine` after the value and the comment. -/
def lineEnd (val comment : String) : Option Token → P (String × String)
  | none => pure (val, comment)
  | some tok => if tok.type ≠ .newline then syntaxError else pure (val, comment)

/-- `parseStringToEndOfLine` after the value. -/
def lineRest (val : String) : Option Token → P (String × String)
  | none => pure (val, "")
  | some tok => if tok.type = .lineComment then getToken >>= lineEnd val tok.text else lineEnd val "" (some tok)

/-- `parseStringToEndOfLine` after the equals sign. -/
def lineValue (tok : Token) : P (String × String) :=
  if tok.type = .string then getToken >>= lineRest tok.text else lineRest "" (some tok)

def lineStart : Option Token → P (String × String)
  | none => pure ("", "")
  | some tok => if tok.type = .equals then nextToken >>= lineValue else lineValue tok

omit hn ht in
theorem stringToEnd_eq : parseStringToEndOfLine = getToken >>= lineStart := by
  have e1 : ∀ (tok : Token) (s : TState), (lineValue tok) s = (do
      let (val, tok?) ← (if tok.type = .string then do
          let t ← getToken
          pure (tok.text, t)
        else pure ("", some tok) : P (String × Option Token))
      match tok? with
      | none => pure (val, "")
      | some tok => do
        let (comment, tok?) ← (if tok.type = .lineComment then do
            let t ← getToken
            pure (tok.text, t)
          else pure ("", some tok))
        match tok? with
        | none => pure (val, comment)
        | some tok => if tok.type ≠ .newline then syntaxError else pure (val, comment) : P (String × String)) s := by
    intro tok s
    have e2 : ∀ (val : String) (o : Option Token) (s : TState), lineRest val o s = (match o with
        | none => pure (val, "")
        | some tok => do
          let (comment, tok?) ← (if tok.type = .lineComment then do
              let t ← getToken
              pure (tok.text, t)
            else pure ("", some tok))
          match tok? with
          | none => pure (val, comment)
          | some tok => if tok.type ≠ .newline then syntaxError else pure (val, comment) : P (String × String)) s := by
      intro val o s
      cases o with
      | none => rfl
      | some tok =>
        unfold lineRest
        dsimp only
        by_cases h : tok.type = .lineComment
        · simp only [if_pos h, bind, P.bind, pure, P.pure]
          cases getToken s with
          | ok o u => cases o <;> rfl
          | err _ _ => rfl
          | panic _ => rfl
          | hang => rfl
        · simp only [if_neg h, bind, P.bind, pure, P.pure]
          rfl
    unfold lineValue
    by_cases h : tok.type = .string
    · simp only [if_pos h, bind, P.bind, pure, P.pure]
      cases getToken s with
      | ok o u => exact e2 _ o u
      | err _ _ => rfl
      | panic _ => rfl
      | hang => rfl
    · simp only [if_neg h, bind, P.bind, pure, P.pure]
      exact e2 _ _ s
  funext s
  unfold parseStringToEndOfLine
  change P.bind getToken _ s = P.bind getToken _ s
  unfold P.bind
  cases getToken s with
  | ok o u =>
    cases o with
    | none => rfl
    | some tok =>
      dsimp only
      unfold lineStart
      by_cases h : tok.type = .equals
      · simp only [if_pos h]
        change P.bind nextToken _ u = P.bind nextToken _ u
        unfold P.bind
        cases nextToken u with
        | ok o' u' => exact (e1 o' u').symm
        | err _ _ => rfl
        | panic _ => rfl
        | hang => rfl
      · simp only [if_neg h]
        exact (e1 tok u).symm
  | err _ _ => rfl
  | panic _ => rfl
  | hang => rfl

theorem sim_lineEnd (v c : String) : Sim (St n t) (getToken >>= lineEnd v c) (getToken >>= lineEnd v c) (fun _ => St n t) := by
  refine sim_get hn ht (fun tok => Sim.ite (fun _ => Sim.syn) fun _ => Sim.pure fun _ _ h => Rd.st h) ?_ ?_
  · intro s s' a s1 he he' h
    cases h
    exact ⟨_, rfl, Exh.fin hn ht he he'⟩
  · intro s s' a s1 he he' hl h
    cases h
    refine ⟨s', ?_, Exh.fin hn ht he he'⟩
    unfold lineEnd
    simp only [hn, ne_eq, not_true_eq_false, if_false]
    rfl

theorem sim_lineRest (v : String) (tok : Token) : Sim (St n t) (lineRest v (some tok)) (lineRest v (some tok)) (fun _ => St n t) :=
  Sim.ite (fun _ => sim_lineEnd hn ht v _) fun _ => Sim.ite (fun _ => Sim.syn) fun _ => Sim.pure fun _ _ h => h

theorem sim_lineValue (tok : Token) : Sim (St n t) (lineValue tok) (lineValue tok) (fun _ => St n t) := by
  refine Sim.ite (fun _ => ?_) fun _ => sim_lineRest hn ht _ _
  refine sim_get hn ht (fun tok => Sim.ofRd (sim_lineRest hn ht _ _)) ?_ ?_
  · intro s s' a s1 he he' h
    cases h
    exact ⟨_, rfl, Exh.fin hn ht he he'⟩
  · intro s s' a s1 he he' hl h
    cases h
    refine ⟨s', ?_, Exh.fin hn ht he he'⟩
    unfold lineRest lineEnd
    simp only [hn, ne_eq, not_true_eq_false, if_false]
    rfl

theorem sim_stringToEnd : Sim (St n t) parseStringToEndOfLine parseStringToEndOfLine (fun _ => St n t) := by
  rw [stringToEnd_eq]
  refine sim_get hn ht (fun tok => Sim.ofRd (Sim.ite (fun _ => sim_next hn ht fun tok => Sim.ofRd (sim_lineValue hn ht tok)) fun _ => sim_lineValue hn ht tok)) ?_ ?_
  · intro s s' a s1 he he' h
    cases h
    exact ⟨_, rfl, Exh.fin hn ht he he'⟩
  · intro s s' a s1 he he' hl h
    cases h
    refine ⟨s', ?_, Exh.fin hn ht he he'⟩
    unfold lineStart lineValue lineRest lineEnd
    simp only [hn, ne_eq, not_true_eq_false, if_false]
    rfl

theorem sim_directive (hc : t.type ≠ .lineComment) (lib : PLib) (incl : String → IncRes) (sch : Schema) (c w : String) :
    Sim (St n t) (directive lib incl sch c w) (directive lib incl sch c w) (fun _ => St2 n t) := by
  have k : ∀ {γ : Type} {p : P γ} {f : γ → Schema}, Sim (St n t) p p (fun _ => St n t) →
      Sim (St n t) (p >>= fun v => (pure (f v) : P Schema)) (p >>= fun v => pure (f v)) (fun _ => St2 n t) :=
    fun h => Sim.bind h fun _ => Sim.pure fun _ _ h => .inl h
  unfold directive
  dsimp only
  split
  · exact k (sim_expectText hn ht)
  · exact k (sim_namespace hn ht)
  · exact k (sim_version hn ht)
  · exact Sim.bind (sim_typeDirective hn ht hc lib c) fun _ => Sim.pure fun _ _ h => h
  · exact k (sim_example hn ht lib c)
  · exact k (sim_base hn ht)
  · exact k (sim_operation hn ht lib c)
  · exact k (sim_http hn ht hc lib c)
  · exact (sim_include hn ht incl _).mono (fun _ _ h => h) fun _ _ _ h => .inl h
  · exact Sim.ite (fun _ => k (sim_stringToEnd hn ht)) fun _ => Sim.pure fun _ _ h => .inl h

/-! ### The parsing loop -/

omit hn ht in
theorem top_exh (lib : PLib) (incl : String → IncRes) (st : Schema × String) {s : TState} (h : Exh s) (k : Nat) :
    ∃ s1, P.loopN (topStep lib incl) (k + 1) st s = .ok st.1 s1 := by
  unfold P.loopN
  change ∃ s1, P.bind (P.bind getToken _) _ s = _
  unfold P.bind
  rw [get_exh h]
  exact ⟨_, rfl⟩

theorem top_sim (hc : t.type ≠ .lineComment) (lib : PLib) (incl : String → IncRes) : ∀ k m st s s' a s1, k + 1 ≤ m → St2 n t s s' →
    P.loopN (topStep lib incl) k st s = .ok a s1 → ∃ s1', P.loopN (topStep lib incl) m st s' = .ok a s1' := by
  intro k
  induction k with
  | zero => intro m st s s' a s1 _ _ h; cases h
  | succ k ih =>
    intro m st s s' a s1 hm hs h
    obtain ⟨m, rfl⟩ : ∃ m', m = m' + 2 := ⟨m - 2, by omega⟩
    have atn : ∀ u', getToken s' = .ok (some n) u' → Exh u' → ∃ s1', P.loopN (topStep lib incl) (m + 2) st s' = .ok st.1 s1' := by
      intro u' e hu
      obtain ⟨v, hv⟩ := top_exh lib incl st hu m
      unfold P.loopN
      change ∃ s1, P.bind (P.bind getToken _) _ s' = _
      unfold P.bind
      rw [e]
      dsimp only
      rw [hn]
      exact ⟨v, hv⟩
    rcases hs with hs | hs
    · rcases get_cases hn ht hs with ⟨tok, u, u', e1, e2, hr⟩ | ⟨u, e1, hu, _, _, ⟨u', e2, hu'⟩ | ⟨u', e2, hu', hl⟩⟩
      · unfold P.loopN at h ⊢
        change P.bind (P.bind getToken _) _ s = _ at h
        change ∃ s1, P.bind (P.bind getToken _) _ s' = _
        unfold P.bind at h ⊢
        rw [e1] at h
        rw [e2]
        dsimp only at h ⊢
        cases hty : tok.type
        case symbol =>
          rw [hty] at h
          simp only [bind, P.bind, pure, P.pure] at h ⊢
          cases e : directive lib incl st.1 st.2 tok.text u with
          | ok sch v =>
            rw [e] at h
            obtain ⟨v', e', hv⟩ := sim_directive hn ht hc lib incl st.1 st.2 tok.text u u' hr.st sch v e
            rw [e']
            exact ih (m + 1) (sch, "") v v' a s1 (by omega) hv h
          | err _ _ => rw [e] at h; cases h
          | panic _ => rw [e] at h; cases h
          | hang => rw [e] at h; cases h
        case lineComment => rw [hty] at h; exact ih (m + 1) _ u u' a s1 (by omega) (.inl hr.st) h
        case semicolon => rw [hty] at h; exact ih (m + 1) _ u u' a s1 (by omega) (.inl hr.st) h
        case newline => rw [hty] at h; exact ih (m + 1) _ u u' a s1 (by omega) (.inl hr.st) h
        all_goals (rw [hty] at h; cases h)
      · unfold P.loopN at h ⊢
        change P.bind (P.bind getToken _) _ s = _ at h
        change ∃ s1, P.bind (P.bind getToken _) _ s' = _
        unfold P.bind at h ⊢
        rw [e1] at h
        rw [e2]
        cases h
        exact ⟨_, rfl⟩
      · unfold P.loopN at h
        change P.bind (P.bind getToken _) _ s = _ at h
        unfold P.bind at h
        rw [e1] at h
        cases h
        exact atn u' e2 hu'
    · obtain ⟨l, u, u', hl, e1, e2, hx, hx', _, _⟩ := Back.get hn ht hs
      unfold P.loopN at h
      change P.bind (P.bind getToken _) _ s = _ at h
      unfold P.bind at h
      rw [e1] at h
      dsimp only at h
      rcases hl with hl | hl
      · rw [hl] at h; cases h
      · rw [hl] at h
        cases k with
        | zero => cases h
        | succ k =>
          obtain ⟨v, hv⟩ := top_exh lib incl st hx k
          have h' : P.loopN (topStep lib incl) (k + 1) st u = .ok a s1 := h
          rw [hv] at h'
          cases h'
          exact atn u' e2 hx'

end

/-- A source that is parsed is parsed to the same schema with a newline at the end. -/
theorem parseSchema_newline {n t : Token} (hn : n.type = .newline) (ht : t.type ≠ .blockComment) (hc : t.type ≠ .lineComment)
    (lib : PLib) (incl : String → IncRes) (init : Schema) (pre bs : List Token) (hb : Skip bs) {sch : Schema} {s1 : TState}
    (h : parseSchema lib incl init (pre ++ t :: bs) = .ok sch s1) : ∃ s1', parseSchema lib incl init (pre ++ t :: bs ++ [n]) = .ok sch s1' := by
  refine top_sim hn ht hc lib incl _ _ _ { toks := pre ++ t :: bs } { toks := pre ++ t :: bs ++ [n] } sch s1 ?_ (.inl (.inl ⟨rfl, .inl ⟨pre, bs, rfl, hb⟩⟩)) h
  simp [TState.size]
  omega

/-- A source of skipped comments only. -/
theorem parseSchema_skip (lib : PLib) (incl : String → IncRes) (init : Schema) {toks : List Token} (h : Skip toks) : ∃ s, parseSchema lib incl init toks = .ok init s := by
  unfold parseSchema P.loop P.loopN
  change ∃ s1, P.bind (P.bind getToken _) _ _ = _
  unfold P.bind getToken
  rw [scan_skip h]
  exact ⟨_, rfl⟩

theorem parseSchema_skip_newline {n : Token} (hn : n.type = .newline) (lib : PLib) (incl : String → IncRes) (init : Schema) {toks : List Token} (h : Skip toks) :
    ∃ s, parseSchema lib incl init (toks ++ [n]) = .ok init s := by
  unfold parseSchema P.loop
  have hs := ((scan_append hn toks).2 [] (scan_skip h)).2
  obtain ⟨m, hm⟩ : ∃ m, ({ toks := toks ++ [n] } : TState).size + 1 = m + 2 := ⟨toks.length, by simp [TState.size]⟩
  rw [hm, P.loopN]
  change ∃ s1, P.bind (P.bind getToken _) _ _ = _
  unfold P.bind getToken
  simp only [hs, hn]
  exact top_exh lib incl (init, "") ⟨rfl, rfl⟩ m

/-- A list with the last token that is not skipped. -/
theorem skip_or (toks : List Token) : Skip toks ∨ ∃ pre t bs, toks = pre ++ t :: bs ∧ t.type ≠ .blockComment ∧ Skip bs := by
  induction toks with
  | nil => exact .inl fun b hb => by cases hb
  | cons x l ih =>
    rcases ih with h | ⟨pre, t, bs, rfl, ht, hb⟩
    · by_cases hx : x.type = .blockComment
      · exact .inl (List.forall_mem_cons.2 ⟨hx, h⟩)
      · exact .inr ⟨[], x, l, rfl, hx, h⟩
    · exact .inr ⟨x :: pre, t, bs, rfl, ht, hb⟩

end FinalNl
end Sadl
