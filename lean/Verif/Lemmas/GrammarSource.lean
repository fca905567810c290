import Verif.Lemmas.GrammarHttp
import Verif.Lemmas.GrammarTypeDef
import Verif.Lemmas.NewModel

/-! The parsing of sources, described exactly. -/

namespace Sadl

open Spec

theorem is_version (n : Nat) : Is n parseVersionDirective
    (fun ts a r => ∃ t, ts = t :: r ∧ (t.type = .number ∨ t.type = .symbol ∨ t.type = .string) ∧ t.text = a) := by
  unfold parseVersionDirective
  refine Is.congr (is_next (fun t => isGot_keep (is_ite (fun _ => is_pure n _) (fun _ => is_fail n _)))) ?_
  intro ts a r
  rcases ts with _ | ⟨t, ts⟩
  · simp
  · rw [onNext_cons]
    constructor
    · rintro (⟨h, rfl, rfl⟩ | ⟨_, h⟩)
      · exact ⟨t, rfl, h, rfl⟩
      · exact h.elim
    · rintro ⟨t', h, h1, rfl⟩
      injection h with h2 h3
      subst h2 h3
      exact .inl ⟨h1, rfl, rfl⟩

theorem hasPrefix_slash (b : String) : hasPrefix b "/" = true ↔ b.toList.head? = some '/' := by
  unfold hasPrefix
  cases b.toList with
  | nil => exact ⟨fun h => (by cases h), fun h => (by cases h)⟩
  | cons c l =>
    have : "/".toList = ['/'] := rfl
    rw [this]
    simp only [List.isPrefixOf, Bool.and_true, beq_iff_eq, List.head?_cons, Option.some.injEq]
    exact eq_comm

theorem hasPrefix_x (w : String) : hasPrefix w "x_" = true ↔ w.toList.take 2 = ['x', '_'] := by
  unfold hasPrefix
  have : "x_".toList = ['x', '_'] := rfl
  rw [this]
  cases w.toList with
  | nil => simp
  | cons c l =>
    cases l with
    | nil => simp
    | cons d l =>
      simp only [List.isPrefixOf, Bool.and_true, Bool.and_eq_true, beq_iff_eq, List.take_succ_cons, List.take_zero, List.cons.injEq,
        and_true]
      constructor
      · rintro ⟨rfl, rfl⟩; exact ⟨rfl, rfl⟩
      · rintro ⟨rfl, rfl⟩; exact ⟨rfl, rfl⟩

theorem is_base (n : Nat) : Is n parseBaseDirective
    (fun ts b r => ts = ⟨.string, b⟩ :: r ∧ (b = "" ∨ b.toList.head? = some '/')) := by
  unfold parseBaseDirective
  refine Is.congr (is_bind (is_string n) (fun b => is_ite (fun _ => is_fail n _) (fun _ => is_pure n _))) ?_
  intro ts a r
  constructor
  · rintro ⟨b, m, rfl, ⟨_, h⟩ | ⟨h, rfl, rfl⟩⟩
    · exact h.elim
    · refine ⟨rfl, ?_⟩
      rw [← hasPrefix_slash]
      by_cases hb : a = ""
      · exact .inl hb
      · right
        by_contra hp
        exact h ⟨hb, by simpa using hp⟩
  · rintro ⟨rfl, h⟩
    refine ⟨a, r, rfl, .inr ⟨?_, rfl, rfl⟩⟩
    rintro ⟨h1, h2⟩
    rw [← hasPrefix_slash] at h
    rcases h with h | h
    · exact h1 h
    · rw [h] at h2; cases h2

theorem p_bind_pure {α : Type} (p : P α) : (p >>= pure) = p := by
  funext s
  simp only [bind, P.bind, pure, P.pure]
  cases p s <;> rfl

theorem is_getToken (n : Nat) : Is n getToken (fun ts q r => (ts = [] ∧ q = none ∧ r = []) ∨ ∃ t, ts = t :: r ∧ q = some t) := by
  rw [← p_bind_pure getToken]
  refine Is.congr (is_get (is_pure n _) (fun t => isGot_keep (is_pure n _))) ?_
  intro ts q r
  rcases ts with _ | ⟨t, ts⟩
  · rw [onNext_nil]; simp
  · rw [onNext_cons]
    constructor
    · rintro ⟨rfl, rfl⟩; exact .inr ⟨t, rfl, rfl⟩
    · rintro (⟨h, _⟩ | ⟨t', h, rfl⟩)
      · cases h
      · injection h with h1 h2; subst h1 h2; exact ⟨rfl, rfl⟩

theorem is_nextToken (n : Nat) : Is n nextToken (fun ts t r => ts = t :: r) := by
  rw [← p_bind_pure nextToken]
  refine Is.congr (is_next (fun t => isGot_keep (is_pure n _))) ?_
  intro ts q r
  rcases ts with _ | ⟨t, ts⟩
  · simp
  · rw [onNext_cons]
    constructor
    · rintro ⟨rfl, rfl⟩; rfl
    · intro h
      injection h with h1 h2; subst h1 h2; exact ⟨rfl, rfl⟩

/-- The end of a line after a value. -/
def lineTail (val : String) : Option Token → P (String × String)
  | none => pure (val, "")
  | some tok => do
      let (comment, tok?) ← (if tok.type = .lineComment then do
          let t ← getToken
          pure (tok.text, t)
        else pure ("", some tok))
      match tok? with
      | none => pure (val, comment)
      | some tok => if tok.type ≠ .newline then syntaxError else pure (val, comment)

/-- What is left of a line after a value. -/
def LineTail (val : String) (t? : Option Token) : Rel (String × String) := fun ts q r =>
  (t? = none ∧ q = (val, "") ∧ r = ts) ∨ (∃ x, t? = some ⟨.newline, x⟩ ∧ q = (val, "") ∧ r = ts) ∨
  (∃ c, t? = some ⟨.lineComment, c⟩ ∧ q = (val, c) ∧ ((ts = [] ∧ r = []) ∨ ∃ x, ts = ⟨.newline, x⟩ :: r))

theorem is_lineTail (n : Nat) (val : String) (t? : Option Token) : Is n (lineTail val t?) (LineTail val t?) := by
  rcases t? with _ | ⟨ty, tx⟩
  · unfold lineTail
    refine Is.congr (is_pure n _) ?_
    intro ts q r
    simp [LineTail]
  · unfold lineTail
    have hm : ∀ q : String × Option Token, Is n (match q with
      | (comment, tok?) => (match tok? with
        | none => pure (val, comment)
        | some tok => if tok.type ≠ .newline then syntaxError else pure (val, comment) : P (String × String)))
        (fun ts a r => (q.2 = none ∨ ∃ x, q.2 = some ⟨.newline, x⟩) ∧ a = (val, q.1) ∧ r = ts) := by
      rintro ⟨c, _ | ⟨ty, tx⟩⟩
      · exact Is.congr (is_pure n _) (by simp)
      · refine Is.congr (is_ite (fun _ => is_syntaxError n) (fun _ => is_pure n _)) ?_
        intro ts a r
        simp
    refine Is.congr (is_bind (is_ite (fun _ => is_bind (is_getToken n) (fun t => is_pure n _)) (fun _ => is_pure n _)) hm) ?_
    intro ts q r
    constructor
    · rintro ⟨⟨c, t?⟩, m, ⟨h1, t, m1, h2, h3, rfl⟩ | ⟨h1, h3, rfl⟩, h4, rfl, rfl⟩
      · simp only at h1 h4; subst h1
        injection h3 with h5 h6; subst h5 h6
        refine .inr (.inr ⟨c, rfl, rfl, ?_⟩)
        rcases h2 with ⟨rfl, rfl, rfl⟩ | ⟨t, rfl, rfl⟩
        · exact .inl ⟨rfl, rfl⟩
        · rcases h4 with h4 | ⟨x, h4⟩
          · cases h4
          · injection h4 with h4; subst h4; exact .inr ⟨x, rfl⟩
      · injection h3 with h5 h6; subst h5 h6
        rcases h4 with h4 | ⟨x, h4⟩
        · cases h4
        · simp only at h4
          exact .inr (.inl ⟨x, h4, rfl, rfl⟩)
    · rintro (⟨h, _⟩ | ⟨x, h, rfl, rfl⟩ | ⟨c, h, rfl, h1⟩)
      · cases h
      · injection h with h
        injection h with h1 h2; subst h1 h2
        exact ⟨("", some ⟨.newline, tx⟩), r, .inr ⟨by simp, rfl, rfl⟩, .inr ⟨tx, rfl⟩, rfl, rfl⟩
      · injection h with h
        injection h with h2 h3; subst h2 h3
        rcases h1 with ⟨rfl, rfl⟩ | ⟨x, rfl⟩
        · exact ⟨(tx, none), [], .inl ⟨rfl, none, [], .inl ⟨rfl, rfl, rfl⟩, rfl, rfl⟩, .inl rfl, rfl, rfl⟩
        · exact ⟨(tx, some ⟨.newline, x⟩), r, .inl ⟨rfl, _, r, .inr ⟨_, rfl, rfl⟩, rfl, rfl⟩, .inr ⟨x, rfl⟩, rfl, rfl⟩

/-- The rest of a line from its value on. -/
def lineValue (tok : Token) : P (String × String) := do
    let (val, tok?) ← (if tok.type = .string then do
        let t ← getToken
        pure (tok.text, t)
      else pure ("", some tok))
    lineTail val tok?

theorem parseLine_eq : parseStringToEndOfLine = (do
    match ← getToken with
    | none => pure ("", "")
    | some tok => do
      let tok ← (if tok.type = .equals then nextToken else pure tok)
      lineValue tok) := by
  unfold parseStringToEndOfLine lineValue
  congr 1

/-- The tokens of a line end without a value. -/
theorem lineTail_iff {val v c : String} {t : Token} {ts r : List Token} : LineTail val (some t) ts (v, c) r ↔
    v = val ∧ ValueLine (t :: ts) "" c r ∧ (t.type = .newline ∨ t.type = .lineComment) := by
  constructor
  · rintro (⟨h, _⟩ | ⟨x, h, h1, rfl⟩ | ⟨c', h, h1, h2⟩)
    · cases h
    · injection h with h; injection h1 with h2 h3; subst h h2 h3
      exact ⟨rfl, .end_, .inl rfl⟩
    · injection h with h; injection h1 with h4 h5; subst h h4 h5
      rcases h2 with ⟨rfl, rfl⟩ | ⟨x, rfl⟩
      · exact ⟨rfl, .commentEnd, .inr rfl⟩
      · exact ⟨rfl, .comment, .inr rfl⟩
  · rintro ⟨rfl, h, ht⟩
    cases h with
    | end_ => exact .inr (.inl ⟨_, rfl, rfl, rfl⟩)
    | comment => exact .inr (.inr ⟨_, rfl, rfl, .inr ⟨_, rfl⟩⟩)
    | commentEnd => exact .inr (.inr ⟨_, rfl, rfl, .inl ⟨rfl, rfl⟩⟩)
    | value => simp at ht
    | equals => simp at ht

theorem lineTail_none {val v c : String} {ts r : List Token} : LineTail val none ts (v, c) r ↔ v = val ∧ c = "" ∧ r = ts := by
  constructor
  · rintro (⟨_, h, h1⟩ | ⟨x, h, _⟩ | ⟨c', h, _⟩)
    · injection h with h2 h3; exact ⟨h2, h3, h1⟩
    · cases h
    · cases h
  · rintro ⟨rfl, rfl, rfl⟩
    exact .inl ⟨rfl, rfl, rfl⟩

theorem is_lineValue (n : Nat) (t : Token) : Is n (lineValue t) (fun ts q r => t.type ≠ .equals ∧ ValueLine (t :: ts) q.1 q.2 r) := by
  unfold lineValue
  refine Is.congr (is_bind (R2 := fun q => LineTail q.1 q.2) (is_ite (fun _ => is_bind (is_getToken n) (fun t => is_pure n _))
    (fun _ => is_pure n _)) (by rintro ⟨v, t?⟩; exact is_lineTail n v t?)) ?_
  rintro ts ⟨v, c⟩ r
  obtain ⟨ty, tx⟩ := t
  constructor
  · rintro ⟨⟨v', t?⟩, m, ⟨h1, t, m1, h2, h3, rfl⟩ | ⟨h1, h3, rfl⟩, h4⟩
    · simp only at h1 h4; subst h1
      injection h3 with h5 h6; subst h5 h6
      refine ⟨by simp, ?_⟩
      rcases h2 with ⟨rfl, rfl, rfl⟩ | ⟨t, rfl, rfl⟩
      · obtain ⟨rfl, rfl, rfl⟩ := lineTail_none.1 h4
        exact .value .source (by simp)
      · obtain ⟨rfl, h5, h6⟩ := lineTail_iff.1 h4
        exact .value h5 (by simpa using h6)
    · injection h3 with h5 h6; subst h5 h6
      obtain ⟨rfl, h5, h6⟩ := lineTail_iff.1 h4
      refine ⟨?_, h5⟩
      rcases h6 with h6 | h6 <;> (simp only at h6; simp [h6])
  · rintro ⟨h0, h⟩
    simp only at h0 h
    cases h with
    | end_ => exact ⟨("", some _), _, .inr ⟨by simp, rfl, rfl⟩, lineTail_iff.2 ⟨rfl, .end_, .inl rfl⟩⟩
    | comment => exact ⟨("", some _), _, .inr ⟨by simp, rfl, rfl⟩, lineTail_iff.2 ⟨rfl, .comment, .inr rfl⟩⟩
    | commentEnd => exact ⟨("", some _), _, .inr ⟨by simp, rfl, rfl⟩, lineTail_iff.2 ⟨rfl, .commentEnd, .inr rfl⟩⟩
    | value h1 h2 =>
      rcases ts with _ | ⟨t, ts⟩
      · cases h1
        exact ⟨(v, none), [], .inl ⟨rfl, none, [], .inl ⟨rfl, rfl, rfl⟩, rfl, rfl⟩, lineTail_none.2 ⟨rfl, rfl, rfl⟩⟩
      · exact ⟨(v, some t), ts, .inl ⟨rfl, some t, ts, .inr ⟨t, rfl, rfl⟩, rfl, rfl⟩, lineTail_iff.2 ⟨rfl, h1, by simpa using h2⟩⟩
    | equals => exact absurd rfl h0

theorem is_valueLine (n : Nat) : Is n parseStringToEndOfLine (fun ts q r => ValueLine ts q.1 q.2 r) := by
  rw [parseLine_eq]
  refine Is.congr (is_get (is_pure n _) (fun t => isGot_keep (is_bind (is_ite (fun _ => is_nextToken n) (fun _ => is_pure n _))
    (fun t => is_lineValue n t)))) ?_
  rintro ts ⟨v, c⟩ r
  rcases ts with _ | ⟨⟨ty, tx⟩, ts⟩
  · rw [onNext_nil]
    constructor
    · rintro ⟨h, rfl⟩
      injection h with h1 h2; subst h1 h2
      exact .source
    · intro h
      cases h
      exact ⟨rfl, rfl⟩
  · rw [onNext_cons]
    constructor
    · rintro ⟨t, m, ⟨h1, rfl⟩ | ⟨h1, rfl, rfl⟩, h2, h3⟩
      · simp only at h1; subst h1
        exact .equals h3 (by simp) (by simpa [NotNext] using h2)
      · exact h3
    · intro h
      by_cases he : ty = .equals
      · subst he
        cases h with
        | equals h1 h2 h3 =>
          rcases ts with _ | ⟨t, ts⟩
          · exact absurd rfl h2
          · exact ⟨t, ts, .inl ⟨rfl, rfl⟩, by simpa [NotNext] using h3, h1⟩
      · exact ⟨_, ts, .inr ⟨he, rfl, rfl⟩, he, h⟩

/-- The names of a schema are distinct exactly when it has a model. -/
theorem distinctNames_iff (s : Schema) : DistinctNames s ↔ ∃ m, newModel s = .ok m := by
  constructor
  · rintro ⟨h1, h2, h3⟩
    exact ⟨_, (newModel_ok_iff s _).2 ⟨h1, h2, h3, rfl⟩⟩
  · rintro ⟨m, h⟩
    obtain ⟨h1, h2, h3, _⟩ := (newModel_ok_iff s m).1 h
    exact ⟨h1, h2, h3⟩

theorem findType_none_iff {s : Schema} {m : Model} (hm : newModel s = .ok m) (n : String) :
    m.findType n = none ↔ n ∉ BaseTypes ∧ ∀ td ∈ s.types, td.name ≠ n := by
  constructor
  · intro h
    constructor
    · intro hn
      have := (newModel_findType_iff hm n (baseTypeDef n)).2 (.inr ⟨hn, rfl⟩)
      rw [h] at this; cases this
    · intro td ht hn
      have := (newModel_findType_iff hm n td).2 (.inl ⟨ht, hn⟩)
      rw [h] at this; cases this
  · rintro ⟨h1, h2⟩
    cases hf : m.findType n with
    | none => rfl
    | some td =>
      rcases (newModel_findType_iff hm n td).1 hf with ⟨h3, h4⟩ | ⟨h3, _⟩
      · exact absurd h4 (h2 td h3)
      · exact absurd h3 h1

theorem mergeInclude_ok_iff {f : String} {sch sch' : Schema} {inc : Model} : mergeInclude f sch inc = .ok sch' ↔
    DistinctNames sch ∧ (∀ td ∈ inc.schema.types, td.name ∉ BaseTypes ∧ ∀ td' ∈ sch.types, td'.name ≠ td.name) ∧
      sch' = withIncluded sch f inc.schema := by
  rw [distinctNames_iff]
  unfold mergeInclude withIncluded
  cases hm : newModel sch with
  | err e => simp
  | panic e => simp
  | ok m =>
    simp only [Out.ok.injEq, exists_eq', true_and]
    by_cases h : inc.schema.types.any (fun td => (m.findType td.name).isSome) = true
    · rw [if_pos h]
      obtain ⟨td, h1, h2⟩ := List.any_eq_true.1 h
      constructor
      · intro h; cases h
      · rintro ⟨h3, _⟩
        rw [(findType_none_iff hm td.name).2 (h3 td h1)] at h2
        cases h2
    · rw [if_neg h]
      have h3 : ∀ td ∈ inc.schema.types, td.name ∉ BaseTypes ∧ ∀ td' ∈ sch.types, td'.name ≠ td.name := by
        intro td ht
        rw [← findType_none_iff hm]
        by_contra hf
        exact h (List.any_eq_true.2 ⟨td, ht, by
          cases hh : m.findType td.name with
          | none => exact absurd hh hf
          | some _ => rfl⟩)
      constructor
      · intro h; injection h with h; exact ⟨h3, h.symm⟩
      · rintro ⟨_, rfl⟩; rfl

/-- What the files read by `incl` denote. -/
def Includes (incl : String → IncRes) (f : String) (s : Schema) : Prop := ∃ m, incl f = some (.ok m) ∧ m.schema = s

theorem is_include (n : Nat) (incl : String → IncRes) (sch : Schema) : Is n (parseIncludeDirective incl sch) (fun ts q r => ∃ f inc,
    ts = ⟨.string, f⟩ :: r ∧ Includes incl f inc ∧ DistinctNames sch ∧
    (∀ td ∈ inc.types, td.name ∉ BaseTypes ∧ ∀ td' ∈ sch.types, td'.name ≠ td.name) ∧ q = withIncluded sch f inc) := by
  unfold parseIncludeDirective
  have key : ∀ f, Is n (match incl f with
      | none => P.hang
      | some (.err e) => P.fail e
      | some (.panic e) => P.crash e
      | some (.ok inc) =>
        match mergeInclude f sch inc with
        | .ok s => pure s
        | .err e => P.fail e
        | .panic e => P.crash e) (fun ts q r => r = ts ∧ ∃ inc, Includes incl f inc ∧ DistinctNames sch ∧
    (∀ td ∈ inc.types, td.name ∉ BaseTypes ∧ ∀ td' ∈ sch.types, td'.name ≠ td.name) ∧ q = withIncluded sch f inc) := by
    intro f
    unfold Includes
    cases hi : incl f with
    | none => exact Is.congr (is_hang n) (by simp)
    | some o =>
      cases o with
      | err e => exact Is.congr (is_fail n _) (by simp)
      | panic e => exact Is.congr (is_crash n _) (by simp)
      | ok inc =>
        have hiff := fun s => @mergeInclude_ok_iff f sch s inc
        simp only [Option.some.injEq, Out.ok.injEq, exists_eq_left']
        cases hm : mergeInclude f sch inc with
        | ok s =>
          refine Is.congr (is_pure n _) ?_
          intro ts q r
          obtain ⟨h1, h2, h3⟩ := (hiff s).1 hm
          constructor
          · rintro ⟨rfl, rfl⟩
            exact ⟨rfl, h1, h2, h3⟩
          · rintro ⟨rfl, _, _, rfl⟩
            exact ⟨h3.symm, rfl⟩
        | err e =>
          refine Is.congr (is_fail n _) ?_
          intro ts q r
          simp only [false_iff]
          rintro ⟨rfl, h1, h2, h3⟩
          have := (hiff q).2 ⟨h1, h2, h3⟩
          rw [hm] at this; cases this
        | panic e =>
          refine Is.congr (is_crash n _) ?_
          intro ts q r
          simp only [false_iff]
          rintro ⟨rfl, h1, h2, h3⟩
          have := (hiff q).2 ⟨h1, h2, h3⟩
          rw [hm] at this; cases this
  refine Is.congr (is_bind (is_string n) key) ?_
  intro ts q r
  constructor
  · rintro ⟨f, m, rfl, rfl, inc, h⟩; exact ⟨f, inc, rfl, h⟩
  · rintro ⟨f, inc, rfl, h⟩; exact ⟨f, r, rfl, rfl, inc, h⟩

theorem take_known {w : String} (h : w ∈ ["name", "namespace", "version", "base", "type", "example", "operation", "http", "include"]) :
    w.toList.take 2 ≠ ['x', '_'] := by
  simp only [List.mem_cons, List.not_mem_nil, or_false] at h
  rcases h with rfl | rfl | rfl | rfl | rfl | rfl | rfl | rfl | rfl <;> decide

/-- The forms of a directive. -/
theorem directive_inv {lib : PLib} {incl : String → Schema → Prop} {sch : Schema} {c w : String} {ts r : List Token} {q : Schema}
    (h : Directive lib incl sch c w ts q r) :
    (w = "name" ∧ ∃ t, ts = t :: r ∧ (t.type = .symbol ∨ t.type = .string) ∧
      q = { sch with name := t.text, comment := mergeComment sch.comment c }) ∨
    (w = "namespace" ∧ ∃ n, Dotted ts n r ∧ q = { sch with «namespace» := n, comment := mergeComment sch.comment c }) ∨
    (w = "version" ∧ ∃ t, ts = t :: r ∧ (t.type = .number ∨ t.type = .symbol ∨ t.type = .string) ∧
      q = { sch with version := t.text, comment := mergeComment sch.comment c }) ∨
    (w = "type" ∧ ∃ td, TypeDirective lib c ts td r ∧ q = { sch with types := sch.types ++ [td] }) ∨
    (w = "example" ∧ ∃ e, ExampleDirective lib c ts e r ∧ q = { sch with examples := sch.examples ++ [e] }) ∨
    (w = "base" ∧ ∃ b, ts = ⟨.string, b⟩ :: r ∧ (b = "" ∨ b.toList.head? = some '/') ∧
      q = { sch with base := b, comment := mergeComment sch.comment c }) ∨
    (w = "operation" ∧ ∃ op, OperationDirective lib c ts op r ∧ q = { sch with operations := sch.operations ++ [op] }) ∨
    (w = "http" ∧ ∃ h, HttpDirective lib c ts h r ∧ q = { sch with http := sch.http ++ [h] }) ∨
    (w = "include" ∧ ∃ f inc, ts = ⟨.string, f⟩ :: r ∧ incl f inc ∧ DistinctNames sch ∧
      (∀ td ∈ inc.types, td.name ∉ BaseTypes ∧ ∀ td' ∈ sch.types, td'.name ≠ td.name) ∧
      q = withIncluded { sch with comment := mergeComment sch.comment c } f inc) ∨
    (w.toList.take 2 = ['x', '_'] ∧ ∃ v c', ValueLine ts v c' r ∧
      q = { sch with annotations := mset sch.annotations w v, comment := mergeComment (mergeComment sch.comment c) c' }) ∨
    (w ∉ ["name", "namespace", "version", "base", "type", "example", "operation", "http", "include"] ∧
      w.toList.take 2 ≠ ['x', '_'] ∧ q = sch ∧ ts = r) := by
  induction h with
  | name h => exact .inl ⟨rfl, _, rfl, h, rfl⟩
  | «namespace» h => exact .inr (.inl ⟨rfl, _, h, rfl⟩)
  | version h => exact .inr (.inr (.inl ⟨rfl, _, rfl, h, rfl⟩))
  | type h => exact .inr (.inr (.inr (.inl ⟨rfl, _, h, rfl⟩)))
  | «example» h => exact .inr (.inr (.inr (.inr (.inl ⟨rfl, _, h, rfl⟩))))
  | base h => exact .inr (.inr (.inr (.inr (.inr (.inl ⟨rfl, _, rfl, h, rfl⟩)))))
  | operation h => exact .inr (.inr (.inr (.inr (.inr (.inr (.inl ⟨rfl, _, h, rfl⟩))))))
  | http h => exact .inr (.inr (.inr (.inr (.inr (.inr (.inr (.inl ⟨rfl, _, h, rfl⟩)))))))
  | «include» h1 h2 h3 => exact .inr (.inr (.inr (.inr (.inr (.inr (.inr (.inr (.inl ⟨rfl, _, _, rfl, h1, h2, h3, rfl⟩))))))))
  | annotation h h' => exact .inr (.inr (.inr (.inr (.inr (.inr (.inr (.inr (.inr (.inl ⟨h, _, _, h', rfl⟩)))))))))
  | unknown h h' => exact .inr (.inr (.inr (.inr (.inr (.inr (.inr (.inr (.inr (.inr ⟨h, h', rfl, rfl⟩)))))))))

theorem is_directive (n : Nat) (lib : PLib) (incl : String → IncRes) (sch : Schema) (c w : String) :
    Is n (directive lib incl sch c w) (Directive lib (Includes incl) sch c w) := by
  unfold directive
  simp only
  split
  · refine Is.congr (is_bind (is_text n) (fun x => is_pure n _)) ?_
    intro ts q r
    constructor
    · rintro ⟨x, m, ⟨t, rfl, h, rfl⟩, rfl, rfl⟩; exact .name h
    · intro h
      replace h := directive_inv h
      rcases h with ⟨_, t, rfl, h, rfl⟩ | ⟨e, _⟩ | ⟨e, _⟩ | ⟨e, _⟩ | ⟨e, _⟩ | ⟨e, _⟩ | ⟨e, _⟩ | ⟨e, _⟩ | ⟨e, _⟩ | ⟨e, _⟩ | ⟨e, _⟩
      · exact ⟨_, _, ⟨t, rfl, h, rfl⟩, rfl, rfl⟩
      · exact absurd e (by decide)
      · exact absurd e (by decide)
      · exact absurd e (by decide)
      · exact absurd e (by decide)
      · exact absurd e (by decide)
      · exact absurd e (by decide)
      · exact absurd e (by decide)
      · exact absurd e (by decide)
      · exact absurd e (take_known (by simp))
      · exact absurd (by simp) e
  · refine Is.congr (is_bind (is_dotted n) (fun x => is_pure n _)) ?_
    intro ts q r
    constructor
    · rintro ⟨x, m, h, rfl, rfl⟩; exact .namespace h
    · intro h
      replace h := directive_inv h
      rcases h with ⟨e, _⟩ | ⟨_, x, h, rfl⟩ | ⟨e, _⟩ | ⟨e, _⟩ | ⟨e, _⟩ | ⟨e, _⟩ | ⟨e, _⟩ | ⟨e, _⟩ | ⟨e, _⟩ | ⟨e, _⟩ | ⟨e, _⟩
      · exact absurd e (by decide)
      · exact ⟨_, _, h, rfl, rfl⟩
      · exact absurd e (by decide)
      · exact absurd e (by decide)
      · exact absurd e (by decide)
      · exact absurd e (by decide)
      · exact absurd e (by decide)
      · exact absurd e (by decide)
      · exact absurd e (by decide)
      · exact absurd e (take_known (by simp))
      · exact absurd (by simp) e
  · refine Is.congr (is_bind (is_version n) (fun x => is_pure n _)) ?_
    intro ts q r
    constructor
    · rintro ⟨x, m, ⟨t, rfl, h, rfl⟩, rfl, rfl⟩; exact .version h
    · intro h
      replace h := directive_inv h
      rcases h with ⟨e, _⟩ | ⟨e, _⟩ | ⟨_, t, rfl, h, rfl⟩ | ⟨e, _⟩ | ⟨e, _⟩ | ⟨e, _⟩ | ⟨e, _⟩ | ⟨e, _⟩ | ⟨e, _⟩ | ⟨e, _⟩ | ⟨e, _⟩
      · exact absurd e (by decide)
      · exact absurd e (by decide)
      · exact ⟨_, _, ⟨t, rfl, h, rfl⟩, rfl, rfl⟩
      · exact absurd e (by decide)
      · exact absurd e (by decide)
      · exact absurd e (by decide)
      · exact absurd e (by decide)
      · exact absurd e (by decide)
      · exact absurd e (by decide)
      · exact absurd e (take_known (by simp))
      · exact absurd (by simp) e
  · refine Is.congr (is_bind (is_typeDirective n lib c) (fun x => is_pure n _)) ?_
    intro ts q r
    constructor
    · rintro ⟨x, m, h, rfl, rfl⟩; exact .type h
    · intro h
      replace h := directive_inv h
      rcases h with ⟨e, _⟩ | ⟨e, _⟩ | ⟨e, _⟩ | ⟨_, x, h, rfl⟩ | ⟨e, _⟩ | ⟨e, _⟩ | ⟨e, _⟩ | ⟨e, _⟩ | ⟨e, _⟩ | ⟨e, _⟩ | ⟨e, _⟩
      · exact absurd e (by decide)
      · exact absurd e (by decide)
      · exact absurd e (by decide)
      · exact ⟨_, _, h, rfl, rfl⟩
      · exact absurd e (by decide)
      · exact absurd e (by decide)
      · exact absurd e (by decide)
      · exact absurd e (by decide)
      · exact absurd e (by decide)
      · exact absurd e (take_known (by simp))
      · exact absurd (by simp) e
  · refine Is.congr (is_bind (is_exampleDirective n lib c) (fun x => is_pure n _)) ?_
    intro ts q r
    constructor
    · rintro ⟨x, m, h, rfl, rfl⟩; exact .example h
    · intro h
      replace h := directive_inv h
      rcases h with ⟨e, _⟩ | ⟨e, _⟩ | ⟨e, _⟩ | ⟨e, _⟩ | ⟨_, x, h, rfl⟩ | ⟨e, _⟩ | ⟨e, _⟩ | ⟨e, _⟩ | ⟨e, _⟩ | ⟨e, _⟩ | ⟨e, _⟩
      · exact absurd e (by decide)
      · exact absurd e (by decide)
      · exact absurd e (by decide)
      · exact absurd e (by decide)
      · exact ⟨_, _, h, rfl, rfl⟩
      · exact absurd e (by decide)
      · exact absurd e (by decide)
      · exact absurd e (by decide)
      · exact absurd e (by decide)
      · exact absurd e (take_known (by simp))
      · exact absurd (by simp) e
  · refine Is.congr (is_bind (is_base n) (fun x => is_pure n _)) ?_
    intro ts q r
    constructor
    · rintro ⟨x, m, ⟨rfl, h⟩, rfl, rfl⟩; exact .base h
    · intro h
      replace h := directive_inv h
      rcases h with ⟨e, _⟩ | ⟨e, _⟩ | ⟨e, _⟩ | ⟨e, _⟩ | ⟨e, _⟩ | ⟨_, b, rfl, h, rfl⟩ | ⟨e, _⟩ | ⟨e, _⟩ | ⟨e, _⟩ | ⟨e, _⟩ | ⟨e, _⟩
      · exact absurd e (by decide)
      · exact absurd e (by decide)
      · exact absurd e (by decide)
      · exact absurd e (by decide)
      · exact absurd e (by decide)
      · exact ⟨_, _, ⟨rfl, h⟩, rfl, rfl⟩
      · exact absurd e (by decide)
      · exact absurd e (by decide)
      · exact absurd e (by decide)
      · exact absurd e (take_known (by simp))
      · exact absurd (by simp) e
  · refine Is.congr (is_bind (is_operationDirective n lib c) (fun x => is_pure n _)) ?_
    intro ts q r
    constructor
    · rintro ⟨x, m, h, rfl, rfl⟩; exact .operation h
    · intro h
      replace h := directive_inv h
      rcases h with ⟨e, _⟩ | ⟨e, _⟩ | ⟨e, _⟩ | ⟨e, _⟩ | ⟨e, _⟩ | ⟨e, _⟩ | ⟨_, x, h, rfl⟩ | ⟨e, _⟩ | ⟨e, _⟩ | ⟨e, _⟩ | ⟨e, _⟩
      · exact absurd e (by decide)
      · exact absurd e (by decide)
      · exact absurd e (by decide)
      · exact absurd e (by decide)
      · exact absurd e (by decide)
      · exact absurd e (by decide)
      · exact ⟨_, _, h, rfl, rfl⟩
      · exact absurd e (by decide)
      · exact absurd e (by decide)
      · exact absurd e (take_known (by simp))
      · exact absurd (by simp) e
  · refine Is.congr (is_bind (is_httpDirective n lib c) (fun x => is_pure n _)) ?_
    intro ts q r
    constructor
    · rintro ⟨x, m, h, rfl, rfl⟩; exact .http h
    · intro h
      replace h := directive_inv h
      rcases h with ⟨e, _⟩ | ⟨e, _⟩ | ⟨e, _⟩ | ⟨e, _⟩ | ⟨e, _⟩ | ⟨e, _⟩ | ⟨e, _⟩ | ⟨_, x, h, rfl⟩ | ⟨e, _⟩ | ⟨e, _⟩ | ⟨e, _⟩
      · exact absurd e (by decide)
      · exact absurd e (by decide)
      · exact absurd e (by decide)
      · exact absurd e (by decide)
      · exact absurd e (by decide)
      · exact absurd e (by decide)
      · exact absurd e (by decide)
      · exact ⟨_, _, h, rfl, rfl⟩
      · exact absurd e (by decide)
      · exact absurd e (take_known (by simp))
      · exact absurd (by simp) e
  · refine Is.congr (is_include n incl _) ?_
    intro ts q r
    constructor
    · rintro ⟨f, inc, rfl, h1, h2, h3, rfl⟩; exact .include h1 h2 h3
    · intro h
      replace h := directive_inv h
      rcases h with ⟨e, _⟩ | ⟨e, _⟩ | ⟨e, _⟩ | ⟨e, _⟩ | ⟨e, _⟩ | ⟨e, _⟩ | ⟨e, _⟩ | ⟨e, _⟩ | ⟨_, f, inc, rfl, h1, h2, h3, rfl⟩ | ⟨e, _⟩ | ⟨e, _⟩
      · exact absurd e (by decide)
      · exact absurd e (by decide)
      · exact absurd e (by decide)
      · exact absurd e (by decide)
      · exact absurd e (by decide)
      · exact absurd e (by decide)
      · exact absurd e (by decide)
      · exact absurd e (by decide)
      · exact ⟨_, _, rfl, h1, h2, h3, rfl⟩
      · exact absurd e (take_known (by simp))
      · exact absurd (by simp) e
  · rename_i h1 h2 h3 h4 h5 h6 h7 h8 h9
    refine Is.congr (is_ite (fun _ => is_bind (is_valueLine n) (fun x => is_pure n _)) (fun _ => is_pure n _)) ?_
    intro ts q r
    constructor
    · rintro (⟨hx, ⟨v, c'⟩, m, h, rfl, rfl⟩ | ⟨hx, rfl, rfl⟩)
      · exact .annotation ((hasPrefix_x w).1 hx) h
      · refine .unknown ?_ (fun h => hx ((hasPrefix_x w).2 h))
        simp only [List.mem_cons, List.not_mem_nil, or_false, not_or]
        exact ⟨h1, h2, h3, h6, h4, h5, h7, h8, h9⟩
    · intro h
      replace h := directive_inv h
      rcases h with ⟨e, _⟩ | ⟨e, _⟩ | ⟨e, _⟩ | ⟨e, _⟩ | ⟨e, _⟩ | ⟨e, _⟩ | ⟨e, _⟩ | ⟨e, _⟩ | ⟨e, _⟩ | ⟨h, v, c', h', rfl⟩ | ⟨h, h', rfl, rfl⟩
      · exact absurd e h1
      · exact absurd e h2
      · exact absurd e h3
      · exact absurd e h4
      · exact absurd e h5
      · exact absurd e h6
      · exact absurd e h7
      · exact absurd e h8
      · exact absurd e h9
      · exact .inl ⟨(hasPrefix_x w).2 h, (_, _), _, h', rfl, rfl⟩
      · exact .inr ⟨fun hx => h' ((hasPrefix_x w).1 hx), rfl, rfl⟩

/-- A round of the loop over a source. -/
def TopRound (lib : PLib) (incl : String → Schema → Prop) (st : Schema × String) : Rel ((Schema × String) ⊕ Schema) := fun ts q r =>
  (ts = [] ∧ q = .inr st.1 ∧ r = []) ∨ (∃ x, ts = ⟨.lineComment, x⟩ :: r ∧ q = .inl (st.1, mergeComment st.2 x)) ∨
  (∃ t, ts = t :: r ∧ (t.type = .semicolon ∨ t.type = .newline) ∧ q = .inl st) ∨
  (∃ w m sch, ts = ⟨.symbol, w⟩ :: m ∧ Directive lib incl st.1 st.2 w m sch r ∧ q = .inl (sch, ""))

theorem is_topRound (n : Nat) (lib : PLib) (incl : String → IncRes) (st : Schema × String) :
    Is n (topStep lib incl st) (TopRound lib (Includes incl) st) := by
  unfold topStep
  have key : ∀ t : Token, Is n (match t.type with
    | .symbol => do
      let sch ← directive lib incl st.1 st.2 t.text
      pure (.inl (sch, ""))
    | .lineComment => pure (.inl (st.1, mergeComment st.2 t.text))
    | .semicolon => pure (.inl st)
    | .newline => pure (.inl st)
    | _ => P.fail "Expected one of 'type', 'namespace', ..." : P ((Schema × String) ⊕ Schema)) (fun ts q r =>
      (t.type = .lineComment ∧ q = .inl (st.1, mergeComment st.2 t.text) ∧ r = ts) ∨
      ((t.type = .semicolon ∨ t.type = .newline) ∧ q = .inl st ∧ r = ts) ∨
      (t.type = .symbol ∧ ∃ sch, Directive lib (Includes incl) st.1 st.2 t.text ts sch r ∧ q = .inl (sch, ""))) := by
    rintro ⟨ty, tx⟩
    simp only
    split
    · refine Is.congr (is_bind (is_directive n lib incl _ _ _) (fun x => is_pure n _)) ?_
      intro ts q r
      constructor
      · rintro ⟨x, m, h, rfl, rfl⟩; exact .inr (.inr ⟨rfl, x, h, rfl⟩)
      · rintro (⟨h, _⟩ | ⟨h | h, _⟩ | ⟨_, x, h, rfl⟩)
        · cases h
        · cases h
        · cases h
        · exact ⟨x, r, h, rfl, rfl⟩
    · exact Is.congr (is_pure n _) (by simp)
    · exact Is.congr (is_pure n _) (by simp)
    · exact Is.congr (is_pure n _) (by simp)
    · rename_i h1 h2 h3 h4
      refine Is.congr (is_fail n _) ?_
      intro ts q r
      simp only [false_iff]
      rintro (⟨h, _⟩ | ⟨h | h, _⟩ | ⟨h, _⟩)
      · exact h2 h
      · exact h3 h
      · exact h4 h
      · exact h1 h
  refine Is.congr (is_get (is_pure n _) (fun t => isGot_keep (key t))) ?_
  intro ts q r
  rcases ts with _ | ⟨⟨ty, x⟩, ts⟩
  · rw [onNext_nil]; simp [TopRound]
  · rw [onNext_cons]
    constructor
    · rintro (⟨h, rfl, rfl⟩ | ⟨h, rfl, rfl⟩ | ⟨h, sch, h1, rfl⟩)
      · simp only at h; subst h; exact .inr (.inl ⟨x, rfl, rfl⟩)
      · exact .inr (.inr (.inl ⟨_, rfl, h, rfl⟩))
      · simp only at h; subst h; exact .inr (.inr (.inr ⟨x, ts, sch, rfl, h1, rfl⟩))
    · rintro (⟨h, _⟩ | ⟨x', h, rfl⟩ | ⟨t, h, h1, rfl⟩ | ⟨w, m, sch, h, h1, rfl⟩)
      · cases h
      · simp only [List.cons.injEq, Token.mk.injEq] at h
        obtain ⟨⟨rfl, rfl⟩, rfl⟩ := h
        exact .inl ⟨rfl, rfl, rfl⟩
      · injection h with h2 h3
        subst h2 h3
        exact .inr (.inl ⟨h1, rfl, rfl⟩)
      · simp only [List.cons.injEq, Token.mk.injEq] at h
        obtain ⟨⟨rfl, rfl⟩, rfl⟩ := h
        exact .inr (.inr ⟨rfl, sch, h1, rfl⟩)

theorem is_source (n : Nat) (lib : PLib) (incl : String → IncRes) (st : Schema × String) : Is n (P.loop (topStep lib incl) st)
    (fun ts sch r => r = [] ∧ Source lib (Includes incl) st.1 st.2 ts sch) := by
  refine Is.congr (is_loop (is_topRound n lib incl) ?_ st) ?_
  · rintro x ts y m (⟨_, h, _⟩ | ⟨x', rfl, _⟩ | ⟨t, rfl, _⟩ | ⟨w, m1, sch, rfl, h, _⟩)
    · cases h
    · simp
    · simp
    · have := (is_directive 0 lib incl _ _ _).shrink _ _ _ h
      simp; omega
  · intro ts sch r
    constructor
    · intro h
      induction h with
      | again h1 _ ih =>
        obtain ⟨rfl, ih⟩ := ih
        refine ⟨rfl, ?_⟩
        rcases h1 with ⟨_, h, _⟩ | ⟨x', rfl, h⟩ | ⟨t, rfl, ht, h⟩ | ⟨w, m1, sch, rfl, h1, h⟩
        · cases h
        · injection h with h; subst h; exact .comment ih
        · injection h with h; subst h; exact .sep ht ih
        · injection h with h; subst h; exact .directive h1 ih
      | done h1 =>
        rcases h1 with ⟨rfl, h, rfl⟩ | ⟨x', rfl, h⟩ | ⟨t, rfl, ht, h⟩ | ⟨w, m1, sch, rfl, h1, h⟩
        · injection h with h; subst h; exact ⟨rfl, .done⟩
        all_goals cases h
    · rintro ⟨rfl, h⟩
      obtain ⟨s0, c0⟩ := st
      simp only at h
      induction h with
      | done => exact .done (.inl ⟨rfl, rfl, rfl⟩)
      | comment _ ih => exact .again (.inr (.inl ⟨_, rfl, rfl⟩)) ih
      | sep ht _ ih => exact .again (.inr (.inr (.inl ⟨_, rfl, ht, rfl⟩))) ih
      | directive h1 _ ih => exact .again (.inr (.inr (.inr ⟨_, _, _, rfl, h1, rfl⟩))) ih

theorem parseSchema_iff {lib : PLib} {incl : String → IncRes} {init : Schema} {toks : List Token} {sch : Schema} :
    (∃ s, parseSchema lib incl init toks = .ok sch s) ↔ Source lib (Includes incl) init "" (significant toks) sch := by
  have hp : pending { toks := toks } = significant toks := by
    simp [pending, significant]
  constructor
  · rintro ⟨s, h⟩
    have := ((is_source 0 lib incl (init, "")).sound _ _ _ h).2
    rwa [hp] at this
  · intro h
    rw [← hp] at h
    obtain ⟨s, h1, _⟩ := Is.run (fun n => is_source n lib incl (init, "")) ⟨rfl, h⟩
    exact ⟨s, h1⟩

theorem parseNoValidate_iff {lib : PLib} {incl : String → IncRes} {init : Schema} {toks : List Token} {m : Model} :
    parseNoValidate lib incl init toks = some (.ok m) ↔
      Source lib (Includes incl) init "" (significant toks) m.schema ∧ newModel m.schema = .ok m := by
  rw [← parseSchema_iff]
  unfold parseNoValidate
  have hs : ∀ sch, newModel sch = .ok m → m.schema = sch := by
    intro sch h
    obtain ⟨_, _, _, rfl⟩ := (newModel_ok_iff sch m).1 h
    rfl
  constructor
  · intro h
    split at h
    · rename_i sch s hp
      injection h with h
      have := hs _ h
      subst this
      exact ⟨⟨s, hp⟩, h⟩
    · cases h
    · cases h
    · cases h
  · rintro ⟨⟨s, hp⟩, hm⟩
    rw [hp]
    simp only [hm]

theorem fileSchemaN_iff {lib : PLib} {files : String → Option (List Token)} (n : Nat) : ∀ (f : String) (m : Model),
    parseFileN lib files n f = some (.ok m) ↔ FileSchemaN lib files n f m.schema ∧ newModel m.schema = .ok m := by
  induction n with
  | zero => intro f m; simp [parseFileN, FileSchemaN]
  | succ n ih =>
    intro f m
    have hi : Includes (parseFileN lib files n) = FileSchemaN lib files n := by
      funext f s
      refine propext ⟨?_, ?_⟩
      · rintro ⟨m, h, rfl⟩; exact ((ih f m).1 h).1
      · intro h
        have hd : DistinctNames s := by
          cases n with
          | zero => exact h.elim
          | succ n => exact h.choose_spec.2.2
        obtain ⟨m, hm⟩ := (distinctNames_iff s).1 hd
        obtain ⟨_, _, _, rfl⟩ := (newModel_ok_iff s m).1 hm
        exact ⟨⟨s, _, _⟩, (ih f _).2 ⟨h, hm⟩, rfl⟩
    unfold parseFileN FileSchemaN
    cases hf : files f with
    | none => simp
    | some toks =>
      simp only [parseNoValidate_iff, hi]
      constructor
      · rintro ⟨h1, h2⟩
        exact ⟨⟨toks, rfl, h1, (distinctNames_iff _).2 ⟨m, h2⟩⟩, h2⟩
      · rintro ⟨⟨_, h, h1, _⟩, h2⟩
        injection h with h
        subst h
        exact ⟨h1, h2⟩

end Sadl
