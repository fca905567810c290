import Verif.Spec.Literals
import Verif.Lemmas.ParserRun
import Verif.Lemmas.ParserEats
import Verif.Props.Parsing
/-
C32: literals.
-/
namespace Sadl.Props
open Sadl Sadl.Spec

theorem run_expect {s : TState} {t : Token} {ts : List Token} {ty : TokType} {Q : Unit → TState → Prop} (h : At s (t :: ts))
    (ht : t.type = ty) (hq : ∀ s', Got s' t ts → Q () s') : Run (expect ty) s Q := by
  unfold expect
  refine run_bind (run_next h (fun s' hs' => ?_))
  rw [if_pos ht]
  exact run_pure (hq s' hs')

theorem AnyLit.cons {lib : PLib} {ts : List Token} {v : Value} (h : AnyLit lib ts v) : ∃ t r, ts = t :: r ∧
    t.type ≠ .newline ∧ t.type ≠ .comma ∧ t.type ≠ .closeBracket := by
  cases h <;> exact ⟨_, _, rfl, by simp, by simp, by simp⟩

mutual
/-- Parsing a literal whose first token has been read; `n` bounds the nesting. -/
theorem run_lit {lib : PLib} : ∀ {ts : List Token} {v : Value}, AnyLit lib ts v → ∀ (tok : Token) (r : List Token)
    (n : Nat) (s : TState) (rest : List Token), ts = tok :: r → r.length < n → At s (r ++ rest) →
    Run (parseLiteralN lib n tok) s (fun a s' => a = v ∧ At s' rest)
  | _, _, .null, tok, r, n + 1, s, rest, e, _, h => by
    injection e with e1 e2; subst e1 e2
    exact run_pure ⟨rfl, h⟩
  | _, _, .true, tok, r, n + 1, s, rest, e, _, h => by
    injection e with e1 e2; subst e1 e2
    exact run_pure ⟨rfl, h⟩
  | _, _, .false, tok, r, n + 1, s, rest, e, _, h => by
    injection e with e1 e2; subst e1 e2
    exact run_pure ⟨rfl, h⟩
  | _, _, .number hd, tok, r, n + 1, s, rest, e, _, h => by
    injection e with e1 e2; subst e1 e2
    unfold parseLiteralN literalStep
    simp only [hd]
    exact run_pure ⟨rfl, h⟩
  | _, _, .string hd, tok, r, n + 1, s, rest, e, _, h => by
    injection e with e1 e2; subst e1 e2
    unfold parseLiteralN literalStep parseLiteralString
    simp only [hd]
    exact run_bind (run_pure (run_pure ⟨rfl, h⟩))
  | _, _, .array hi, tok, r, n + 1, s, rest, e, hn, h => by
    injection e with e1 e2; subst e1 e2
    unfold parseLiteralN literalStep
    exact run_mono (run_items hi n s rest [] (by omega) h) (fun a s' ha => ⟨by simpa using ha.1, ha.2⟩)
  | _, _, .object hm, tok, r, n + 1, s, rest, e, hn, h => by
    injection e with e1 e2; subst e1 e2
    unfold parseLiteralN literalStep
    exact run_members hm n s rest [] (by omega) h
  | _, _, _, _, _, 0, _, _, _, hn, _ => by omega

theorem run_items {lib : PLib} : ∀ {ts : List Token} {vs : List Value}, AnyItems lib ts vs → ∀ (n : Nat) (s : TState)
    (rest : List Token) (ary : List Value), ts.length ≤ n → At s (ts ++ rest) →
    Run (P.loop (arrayStep (parseLiteralN lib n)) ary) s (fun a s' => a = .arr (ary ++ vs) ∧ At s' rest)
  | _, _, .close, n, s, rest, ary, _, h => by
    refine run_loop_done ?_
    unfold arrayStep
    refine run_bind (run_next h (fun s' hs' => ?_))
    simp only [ne_eq, reduceCtorEq, not_false_eq_true, if_true]
    exact run_pure ⟨_, rfl, by simp, hs'.at'⟩
  | _, _, .sep (t := t) (ts := ts) ht hi, n, s, rest, ary, hn, h => by
    refine run_loop_again h ?_
    unfold arrayStep
    refine run_bind (run_next h (fun s' hs' => ?_))
    have hrec := run_items hi n s' rest ary (by simp only [List.length_cons] at hn; omega) hs'.at'
    rcases ht with ht | ht
    · simp only [ht, ne_eq, reduceCtorEq, not_false_eq_true, if_true, if_false, not_true]
      exact run_pure ⟨_, _, rfl, hs'.at', by simp, hrec⟩
    · simp only [ht, ne_eq, not_true, if_false]
      exact run_pure ⟨_, _, rfl, hs'.at', by simp, hrec⟩
  | _, _, .item (ts := ts) (ts' := ts') (v := v) (vs := vs) hl hi, n, s, rest, ary, hn, h => by
    obtain ⟨t, r, e, h1, h2, h3⟩ := AnyLit.cons hl
    rw [e] at h hn
    simp only [List.cons_append, List.append_assoc, List.length_cons, List.length_append] at h hn
    have h0 : At s (t :: (r ++ (ts' ++ rest))) := by simpa using h
    refine run_loop_again h0 ?_
    unfold arrayStep
    refine run_bind (run_next h0 (fun s' hs' => ?_))
    simp only [h1, h2, h3, ne_eq, not_false_eq_true, if_true, if_false]
    refine run_bind (run_mono (run_lit hl t r n s' (ts' ++ rest) e (by omega) hs'.at') ?_)
    rintro a s'' ⟨rfl, hs''⟩
    refine run_pure ⟨_, _, rfl, hs'', by simp; omega, ?_⟩
    exact run_mono (run_items hi n s'' rest (ary ++ [a]) (by omega) hs'') (fun b s3 hb => ⟨by simpa using hb.1, hb.2⟩)

theorem run_members {lib : PLib} : ∀ {ts : List Token} {kvs : List (String × Value)}, AnyMembers lib ts kvs → ∀ (n : Nat)
    (s : TState) (rest : List Token) (obj : GoMap Value), ts.length ≤ n → At s (ts ++ rest) →
    Run (P.loop (objectStep lib (parseLiteralN lib n)) obj) s
      (fun a s' => a = .obj (kvs.foldl (fun m kv => mset m kv.1 kv.2) obj) ∧ At s' rest)
  | _, _, .close, n, s, rest, obj, _, h => by
    refine run_loop_done ?_
    unfold objectStep
    refine run_bind (run_next h (fun s' hs' => ?_))
    simp only [if_true]
    exact run_pure ⟨_, rfl, rfl, hs'.at'⟩
  | _, _, .skip (t := t) (ts := ts) h1 h2 h3 hi, n, s, rest, obj, hn, h => by
    refine run_loop_again h ?_
    unfold objectStep
    refine run_bind (run_next h (fun s' hs' => ?_))
    have hrec := run_members hi n s' rest obj (by simp only [List.length_cons] at hn; omega) hs'.at'
    simp only [h1, h2, h3, if_false]
    exact run_pure ⟨_, _, rfl, hs'.at', by simp, hrec⟩
  | _, _, .member (text := text) (x := x) (key := key) (ts := ts) (ts' := ts') (v := v) (kvs := kvs) hk hl hm, n, s, rest, obj, hn, h => by
    obtain ⟨t, r, e, h1, h2, h3⟩ := AnyLit.cons hl
    rw [e] at h hn
    simp only [List.cons_append, List.append_assoc, List.length_cons, List.length_append] at h hn
    have h0 : At s (⟨.string, text⟩ :: ⟨.colon, x⟩ :: t :: (r ++ (ts' ++ rest))) := by simpa using h
    refine run_loop_again h0 ?_
    unfold objectStep
    refine run_bind (run_next h0 (fun s' hs' => ?_))
    simp only [reduceCtorEq, if_false, if_true]
    refine run_bind ?_
    unfold parseLiteralString
    simp only [hk]
    refine run_pure (run_bind (run_expect hs'.at' rfl (fun s2 hs2 => ?_)))
    refine run_bind (run_next hs2.at' (fun s3 hs3 => ?_))
    refine run_bind (run_mono (run_lit hl t r n s3 (ts' ++ rest) e (by omega) hs3.at') ?_)
    rintro a s4 ⟨rfl, hs4⟩
    refine run_pure ⟨_, _, rfl, hs4, by simp; omega, ?_⟩
    exact run_members hm n s4 rest (mset obj key a) (by omega) hs4
end

mutual
theorem Lit.any {lib : PLib} : ∀ {ts : List Token} {v : Value}, Lit lib ts v → AnyLit lib ts v
  | _, _, .null => .null
  | _, _, .true => .true
  | _, _, .false => .false
  | _, _, .number h => .number h
  | _, _, .string h => .string h
  | _, _, .array h => .array (Items.any h)
  | _, _, .object h => .object (Members.any h)
theorem Items.any {lib : PLib} : ∀ {ts : List Token} {vs : List Value}, Items lib ts vs → AnyItems lib ts vs
  | _, _, .close => .close
  | _, _, .sep h hi => .sep h (Items.any hi)
  | _, _, .item h hi => .item (Lit.any h) (Items.any hi)
theorem Members.any {lib : PLib} : ∀ {ts : List Token} {kvs : List (String × Value)}, Members lib ts kvs → AnyMembers lib ts kvs
  | _, _, .close => .close
  | _, _, .sep h hi => .skip (by rcases h with h | h <;> simp [h]) (by rcases h with h | h <;> simp [h])
      (by rcases h with h | h <;> simp [h]) (Members.any hi)
  | _, _, .member h1 h2 h3 => .member h1 (Lit.any h2) (Members.any h3)
end

/-- Parsing a literal reads its tokens and yields its value. -/
theorem run_literalValue {lib : PLib} {ts rest : List Token} {v : Value} (h : AnyLit lib ts v) {s : TState}
    (hA : At s (ts ++ rest)) : Run (parseLiteralValue lib) s (fun a s' => a = v ∧ At s' rest) := by
  obtain ⟨t, r, e, _⟩ := AnyLit.cons h
  subst e
  unfold parseLiteralValue
  refine run_bind (run_get hA (fun s' hs' => ?_))
  unfold parseLiteral P.recursion
  refine run_lit h t r _ s' rest rfl ?_ hs'.at'
  rw [hs'.at'.size]; simp; omega

/-- What is accepted between brackets. -/
theorem eats_items {lib : PLib} {n : Nat}
    (ih : ∀ tok, Eats (parseLiteralN lib n tok) (fun ts v => AnyLit lib (tok :: ts) v)) :
    Eats (P.loop (arrayStep (parseLiteralN lib n)) []) (fun ts v => ∃ vs, AnyItems lib ts vs ∧ v = .arr vs) := by
  refine eats_loop (I := fun ts ary => ∀ ts' vs, AnyItems lib ts' vs → AnyItems lib (ts ++ ts') (ary ++ vs)) (by simp) ?_
  intro ts ary hI
  unfold arrayStep
  refine eats_next (fun t => eatsGot_keep ?_)
  refine eats_ite (fun h1 => eats_ite (fun h2 => eats_pure ?_) (fun h2 => eats_ite (fun h3 => ?_) (fun h3 => eats_pure ?_)))
    (fun h1 => eats_pure ?_)
  · refine ⟨ary, ?_, rfl⟩
    obtain ⟨ty, tx⟩ := t
    simp only at h2
    subst h2
    simpa using hI _ _ (.close (x := tx))
  · refine eats_bind (ih t) ?_
    intro ts1 v hv
    refine eats_pure ?_
    intro ts' vs h
    have := hI _ _ (.item hv h)
    simpa using this
  · intro ts' vs h
    have := hI _ _ (.sep (t := t) (.inl (not_not.1 h3)) h)
    simpa using this
  · intro ts' vs h
    have := hI _ _ (.sep (t := t) (.inr (not_not.1 h1)) h)
    simpa using this

theorem eats_expect (ty : TokType) : Eats (expect ty) (fun ts _ => ∃ x, ts = [⟨ty, x⟩]) := by
  unfold expect
  refine eats_next (fun t => eatsGot_keep (eats_ite (fun h => eats_pure ?_) (fun _ => eats_fail)))
  obtain ⟨ty', tx⟩ := t
  simp only at h
  subst h
  exact ⟨tx, rfl⟩

/-- What is accepted between braces. -/
theorem eats_members {lib : PLib} {n : Nat}
    (ih : ∀ tok, Eats (parseLiteralN lib n tok) (fun ts v => AnyLit lib (tok :: ts) v)) :
    Eats (P.loop (objectStep lib (parseLiteralN lib n)) [])
      (fun ts v => ∃ kvs, AnyMembers lib ts kvs ∧ v = .obj (kvs.foldl (fun m kv => mset m kv.1 kv.2) [])) := by
  refine eats_loop (I := fun ts obj => ∀ ts' kvs, AnyMembers lib ts' kvs →
    ∃ kvs', AnyMembers lib (ts ++ ts') kvs' ∧
      kvs'.foldl (fun m kv => mset m kv.1 kv.2) [] = kvs.foldl (fun m kv => mset m kv.1 kv.2) obj)
    (fun ts' kvs h => ⟨kvs, by simpa using h, rfl⟩) ?_
  intro ts obj hI
  unfold objectStep
  refine eats_next (fun t => eatsGot_keep ?_)
  refine eats_ite (fun h1 => eats_pure ?_) (fun h1 => eats_ite (fun h2 => ?_) (fun h2 => eats_ite (fun _ => eats_fail) (fun h3 => eats_pure ?_)))
  · obtain ⟨ty, tx⟩ := t
    simp only at h1
    subst h1
    obtain ⟨kvs', h, e⟩ := hI _ _ (.close (x := tx))
    exact ⟨kvs', by simpa using h, by rw [e]; rfl⟩
  · obtain ⟨ty, tx⟩ := t
    simp only at h2
    subst h2
    unfold parseLiteralString
    split
    · rename_i q hq
      refine eats_bind (eats_pure (R := fun ts a => ts = [] ∧ a = q) ⟨rfl, rfl⟩) ?_
      rintro _ _ ⟨rfl, rfl⟩
      refine eats_bind (eats_expect .colon) ?_
      rintro _ _ ⟨x, rfl⟩
      refine eats_next (fun t2 => eatsGot_keep ?_)
      refine eats_bind (ih t2) ?_
      intro ts1 v hv
      refine eats_pure ?_
      intro ts' kvs h
      obtain ⟨kvs', h, e⟩ := hI _ _ (.member (x := x) hq hv h)
      exact ⟨kvs', by simpa using h, e⟩
    · exact eats_bind (R1 := fun _ _ => False) eats_fail (fun _ _ h => h.elim)
  · intro ts' kvs h
    obtain ⟨kvs', h, e⟩ := hI _ _ (.skip (t := t) h1 h2 h3 h)
    exact ⟨kvs', by simpa using h, e⟩

/-- What is accepted as a literal. -/
theorem eats_literalN (lib : PLib) : ∀ (n : Nat) (tok : Token), Eats (parseLiteralN lib n tok) (fun ts v => AnyLit lib (tok :: ts) v)
  | 0, tok => by intro s a s' h; simp [parseLiteralN, P.hang] at h
  | n + 1, ⟨ty, tx⟩ => by
    unfold parseLiteralN literalStep
    cases ty <;> simp only
    case symbol =>
      split
      · exact eats_pure .true
      · exact eats_pure .false
      · exact eats_pure .null
      · exact eats_fail
    case string =>
      unfold parseLiteralString
      split
      · rename_i q hq
        exact eats_bind (eats_pure (R := fun ts a => ts = [] ∧ a = q) ⟨rfl, rfl⟩)
          (fun ts a ha => by obtain ⟨rfl, rfl⟩ := ha; exact eats_pure (.string hq))
      · exact eats_bind (R1 := fun _ _ => False) eats_fail (fun _ _ h => h.elim)
    case number =>
      split
      · rename_i d hd
        exact eats_pure (.number hd)
      · exact eats_fail
    case openBracket => exact eats_mono (eats_items (eats_literalN lib n)) (fun ts v ⟨vs, h, e⟩ => e ▸ .array h)
    case openBrace => exact eats_mono (eats_members (eats_literalN lib n)) (fun ts v ⟨vs, h, e⟩ => e ▸ .object h)
    all_goals exact eats_fail

theorem eats_literalValue (lib : PLib) : Eats (parseLiteralValue lib) (AnyLit lib) := by
  unfold parseLiteralValue
  refine eats_get eats_fail (fun t => eatsGot_keep ?_)
  unfold parseLiteral
  intro s a s' h
  exact eats_literalN lib _ t s a s' h

/-- C32: whatever is accepted as a literal is one: the tokens read denote the value
returned (where object members may be separated by stray punctuation). -/
theorem C32_only_literals (lib : PLib) (s s' : TState) (v : Value) (h : parseLiteralValue lib s = .ok v s') :
    ∃ ts, pending s = ts ++ pending s' ∧ AnyLit lib ts v := eats_literalValue lib s v s' h

/-- C32: parsing the tokens of a literal, whatever follows them, yields the value they
denote and reads exactly those tokens. -/
theorem C32_literal_value (lib : PLib) (ts rest : List Token) (v : Value) (h : Lit lib ts v)
    (hb : ∀ t ∈ ts ++ rest, t.type ≠ .blockComment) (l1 l2 : Option Token) :
    ∃ s', parseLiteralValue lib { toks := ts ++ rest, last := l1, prevLast := l2 } = .ok v s' ∧ pending s' = rest := by
  have key : Run (parseLiteralValue lib) { toks := ts ++ rest, last := l1, prevLast := l2 }
      (fun a s' => a = v ∧ At s' rest) := run_literalValue (Lit.any h) ⟨rfl, hb⟩
  obtain ⟨a, s', h1, rfl, h2⟩ := key
  refine ⟨s', h1, ?_⟩
  unfold pending
  have := h2.pend
  rw [← this]
  congr 1
  rw [List.filter_eq_self]
  intro x hx
  simpa using h2.noBlock x (by rw [← this]; simp [hx])

mutual
theorem lit_of_json {lib : PLib} : ∀ (j : Json) (v : Value), j.value lib = some v → Lit lib j.toks v
  | .null, v, h => by
    simp only [Json.value, Option.some.injEq] at h
    subst h; exact .null
  | .bool true, v, h => by
    simp only [Json.value, Option.some.injEq] at h
    subst h; exact .true
  | .bool false, v, h => by
    simp only [Json.value, Option.some.injEq] at h
    subst h; exact .false
  | .num t, v, h => by
    simp only [Json.value, Option.map_eq_some_iff] at h
    obtain ⟨d, h, rfl⟩ := h
    exact .number h
  | .str t, v, h => by
    simp only [Json.value, Option.map_eq_some_iff] at h
    obtain ⟨d, h, rfl⟩ := h
    exact .string h
  | .arr [], v, h => by
    simp only [Json.value, Json.values, Option.map_some, Option.some.injEq] at h
    subst h
    exact .array .close
  | .arr (x :: r), v, h => by
    simp only [Json.value, Json.values] at h
    rw [Option.map_eq_some_iff] at h
    obtain ⟨vs, h, rfl⟩ := h
    cases h1 : x.value lib with
    | none => simp [h1] at h
    | some v1 =>
      cases h2 : Json.values lib r with
      | none => simp [h1, h2] at h
      | some vs2 =>
        simp only [h1, h2, Option.some.injEq] at h
        subst h
        rw [Json.toks]
        exact .array (.item (lit_of_json x v1 h1) (items_of_json r vs2 h2))
  | .obj [], v, h => by
    simp only [Json.value, Json.pairs, Option.map_some, Option.some.injEq] at h
    subst h
    exact .object .close
  | .obj ((k, x) :: r), v, h => by
    simp only [Json.value, Json.pairs] at h
    rw [Option.map_eq_some_iff] at h
    obtain ⟨vs, h, rfl⟩ := h
    cases h0 : lib.unquote k with
    | none => simp [h0] at h
    | some key =>
    cases h1 : x.value lib with
    | none => simp [h1] at h
    | some v1 =>
      cases h2 : Json.pairs lib r with
      | none => simp [h1, h2] at h
      | some vs2 =>
        simp only [h0, h1, h2, Option.some.injEq] at h
        subst h
        rw [Json.toks]
        exact .object (.member h0 (lit_of_json x v1 h1) (members_of_json r vs2 h2))

theorem items_of_json {lib : PLib} : ∀ (js : List Json) (vs : List Value), Json.values lib js = some vs →
    Items lib (Json.itemToks js) vs
  | [], vs, h => by
    simp only [Json.values, Option.some.injEq] at h
    subst h
    exact .close
  | x :: r, vs, h => by
    simp only [Json.values] at h
    cases h1 : x.value lib with
    | none => simp [h1] at h
    | some v1 =>
      cases h2 : Json.values lib r with
      | none => simp [h1, h2] at h
      | some vs2 =>
        simp only [h1, h2, Option.some.injEq] at h
        subst h
        rw [Json.itemToks]
        exact .sep (.inl rfl) (.item (lit_of_json x v1 h1) (items_of_json r vs2 h2))

theorem members_of_json {lib : PLib} : ∀ (js : List (String × Json)) (kvs : List (String × Value)),
    Json.pairs lib js = some kvs → Members lib (Json.memberToks js) kvs
  | [], vs, h => by
    simp only [Json.pairs, Option.some.injEq] at h
    subst h
    exact .close
  | (k, x) :: r, vs, h => by
    simp only [Json.pairs] at h
    cases h0 : lib.unquote k with
    | none => simp [h0] at h
    | some key =>
    cases h1 : x.value lib with
    | none => simp [h1] at h
    | some v1 =>
      cases h2 : Json.pairs lib r with
      | none => simp [h1, h2] at h
      | some vs2 =>
        simp only [h0, h1, h2, Option.some.injEq] at h
        subst h
        rw [Json.memberToks]
        exact .sep (.inl rfl) (.member h0 (lit_of_json x v1 h1) (members_of_json r vs2 h2))
end

mutual
theorem json_toks_noBlock : ∀ (j : Json), ∀ t ∈ j.toks, t.type ≠ .blockComment
  | .null => by simp [Json.toks, sym]
  | .bool true => by simp [Json.toks, sym]
  | .bool false => by simp [Json.toks, sym]
  | .num t => by simp [Json.toks, Spec.num]
  | .str t => by simp [Json.toks, Spec.str]
  | .arr [] => by simp [Json.toks, punct]
  | .arr (x :: r) => by
    intro t ht
    simp only [Json.toks, List.cons_append, List.mem_cons, List.mem_append] at ht
    rcases ht with rfl | ht | ht
    · simp [punct]
    · exact json_toks_noBlock x t ht
    · exact json_items_noBlock r t ht
  | .obj [] => by simp [Json.toks, punct]
  | .obj ((k, x) :: r) => by
    intro t ht
    simp only [Json.toks, List.cons_append, List.mem_cons, List.mem_append] at ht
    rcases ht with rfl | rfl | rfl | ht | ht
    · simp [punct]
    · simp [Spec.str]
    · simp [punct]
    · exact json_toks_noBlock x t ht
    · exact json_members_noBlock r t ht
theorem json_items_noBlock : ∀ (js : List Json), ∀ t ∈ Json.itemToks js, t.type ≠ .blockComment
  | [] => by simp [Json.itemToks, punct]
  | x :: r => by
    intro t ht
    simp only [Json.itemToks, List.cons_append, List.mem_cons, List.mem_append] at ht
    rcases ht with rfl | ht | ht
    · simp [punct]
    · exact json_toks_noBlock x t ht
    · exact json_items_noBlock r t ht
theorem json_members_noBlock : ∀ (js : List (String × Json)), ∀ t ∈ Json.memberToks js, t.type ≠ .blockComment
  | [] => by simp [Json.memberToks, punct]
  | (k, x) :: r => by
    intro t ht
    simp only [Json.memberToks, List.cons_append, List.mem_cons, List.mem_append] at ht
    rcases ht with rfl | rfl | rfl | ht | ht
    · simp [punct]
    · simp [Spec.str]
    · simp [punct]
    · exact json_toks_noBlock x t ht
    · exact json_members_noBlock r t ht
end

/-- C32: for any JSON text, of any nesting depth, followed by any tokens, parsing yields its
value and reads exactly its tokens. -/
theorem C32_json (lib : PLib) (j : Json) (v : Value) (h : j.value lib = some v) (rest : List Token)
    (hb : ∀ t ∈ rest, t.type ≠ .blockComment) (l1 l2 : Option Token) :
    ∃ s', parseLiteralValue lib { toks := j.toks ++ rest, last := l1, prevLast := l2 } = .ok v s' ∧ pending s' = rest := by
  refine C32_literal_value lib j.toks rest v (lit_of_json j v h) ?_ l1 l2
  intro t ht
  rcases List.mem_append.1 ht with ht | ht
  · exact json_toks_noBlock j t ht
  · exact hb t ht

/-- A nested literal: `[null, {"a": [true], "b": "x"}]`. -/
example : ∃ v, (Json.arr [.null, .obj [("a", .arr [.bool true]), ("b", .str "x")]]).value noLib = some v ∧
    v = .arr [.null, .obj [("a", .arr [.bool true]), ("b", .strPtr "x")]] := ⟨_, rfl, rfl⟩

/-- C32: a token sequence denotes at most one value. -/
theorem C32_unambiguous (lib : PLib) (ts : List Token) (v w : Value) (hv : Lit lib ts v) (hw : Lit lib ts w)
    (hb : ∀ t ∈ ts, t.type ≠ .blockComment) : v = w := by
  obtain ⟨s1, h1, _⟩ := C32_literal_value lib ts [] v hv (by simpa using hb) none none
  obtain ⟨s2, h2, _⟩ := C32_literal_value lib ts [] w hw (by simpa using hb) none none
  rw [h1] at h2
  injection h2

end Sadl.Props
