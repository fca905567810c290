import Verif.Lemmas.GrammarIs
import Verif.Spec.Grammar
import Verif.Props.Options
/-
Exact descriptions of the small parsing functions: words, literals, options, comments and the
end of statements.
-/
namespace Sadl
open Spec Props

theorem is_identifier (n : Nat) : Is n expectIdentifier (fun ts a r => ts = ⟨.symbol, a⟩ :: r) := by
  unfold expectIdentifier
  refine (is_next (fun t => isGot_keep (is_ite (fun _ => is_pure n _) (fun _ => is_fail n _)))).congr ?_
  intro ts a r
  rcases ts with _ | ⟨⟨ty, tx⟩, ts⟩ <;> simp only [onNext_nil, onNext_cons, List.cons.injEq, Token.mk.injEq, and_false, or_false, reduceCtorEq]
  constructor
  · rintro ⟨rfl, rfl, rfl⟩; simp
  · rintro ⟨⟨rfl, rfl⟩, rfl⟩; simp

theorem is_string (n : Nat) : Is n expectString (fun ts a r => ts = ⟨.string, a⟩ :: r) := by
  unfold expectString
  refine (is_next (fun t => isGot_keep (is_ite (fun _ => is_pure n _) (fun _ => is_fail n _)))).congr ?_
  intro ts a r
  rcases ts with _ | ⟨⟨ty, tx⟩, ts⟩ <;> simp only [onNext_nil, onNext_cons, List.cons.injEq, Token.mk.injEq, and_false, or_false, reduceCtorEq]
  constructor
  · rintro ⟨rfl, rfl, rfl⟩; simp
  · rintro ⟨⟨rfl, rfl⟩, rfl⟩; simp

theorem is_text (n : Nat) : Is n expectText (fun ts a r => ∃ t, ts = t :: r ∧ (t.type = .symbol ∨ t.type = .string) ∧ t.text = a) := by
  unfold expectText
  refine (is_next (fun t => isGot_keep (is_ite (fun _ => is_pure n _) (fun _ => is_fail n _)))).congr ?_
  intro ts a r
  rcases ts with _ | ⟨t, ts⟩
  · simp
  · simp only [onNext_cons, List.cons.injEq, and_false, or_false]
    constructor
    · rintro ⟨h, rfl, rfl⟩; exact ⟨t, ⟨rfl, rfl⟩, h, rfl⟩
    · rintro ⟨_, ⟨rfl, rfl⟩, h, rfl⟩; exact ⟨h, rfl, rfl⟩

theorem is_expect (n : Nat) (k : TokType) : Is n (expect k) (fun ts _ r => ∃ x, ts = ⟨k, x⟩ :: r) := by
  unfold expect
  refine (is_next (fun t => isGot_keep (is_ite (fun _ => is_pure n _) (fun _ => is_fail n _)))).congr ?_
  intro ts a r
  rcases ts with _ | ⟨⟨ty, tx⟩, ts⟩ <;> simp only [onNext_nil, onNext_cons, List.cons.injEq, Token.mk.injEq, and_false, or_false, reduceCtorEq, exists_const]
  constructor
  · rintro ⟨rfl, _, rfl⟩; exact ⟨tx, ⟨rfl, rfl⟩, rfl⟩
  · rintro ⟨x, ⟨rfl, rfl⟩, rfl⟩; exact ⟨rfl, trivial, rfl⟩

theorem is_int (n bits : Nat) : Is n (expectInt bits) (fun ts a r => ∃ t, ts = ⟨.number, t⟩ :: r ∧ parseInt bits t = some a) := by
  unfold expectInt
  refine (is_next (R1 := fun t ts a r => t.type = .number ∧ parseInt bits t.text = some a ∧ r = ts) (fun t => isGot_keep ?_)).congr ?_
  · refine (is_ite (R1 := fun ts a r => parseInt bits t.text = some a ∧ r = ts) (fun _ => ?_) (fun _ => is_fail n _)).congr (by simp)
    split
    · rename_i v hv; exact (is_pure n v).congr (by intro ts a r; rw [hv]; simp [eq_comm])
    · rename_i hv; exact (is_fail n _).congr (by simp [hv])
  · intro ts a r
    rcases ts with _ | ⟨⟨ty, tx⟩, ts⟩ <;> simp only [onNext_nil, onNext_cons, List.cons.injEq, Token.mk.injEq, reduceCtorEq, false_and, exists_const]
    constructor
    · rintro ⟨rfl, h, rfl⟩; exact ⟨tx, ⟨⟨rfl, rfl⟩, rfl⟩, h⟩
    · rintro ⟨x, ⟨⟨rfl, rfl⟩, rfl⟩, h⟩; exact ⟨rfl, h, rfl⟩

theorem is_number (n : Nat) (lib : PLib) :
    Is n (expectNumber lib) (fun ts a r => ∃ t, ts = ⟨.number, t⟩ :: r ∧ lib.parseDecimal t = some a) := by
  unfold expectNumber
  refine (is_next (R1 := fun t ts a r => t.type = .number ∧ lib.parseDecimal t.text = some a ∧ r = ts) (fun t => isGot_keep ?_)).congr ?_
  · refine (is_ite (R1 := fun ts a r => lib.parseDecimal t.text = some a ∧ r = ts) (fun _ => ?_) (fun _ => is_fail n _)).congr (by simp)
    split
    · rename_i v hv; exact (is_pure n v).congr (by intro ts a r; rw [hv]; simp [eq_comm])
    · rename_i hv; exact (is_fail n _).congr (by simp [hv])
  · intro ts a r
    rcases ts with _ | ⟨⟨ty, tx⟩, ts⟩ <;> simp only [onNext_nil, onNext_cons, List.cons.injEq, Token.mk.injEq, reduceCtorEq, false_and, exists_const]
    constructor
    · rintro ⟨rfl, h, rfl⟩; exact ⟨tx, ⟨⟨rfl, rfl⟩, rfl⟩, h⟩
    · rintro ⟨x, ⟨⟨rfl, rfl⟩, rfl⟩, h⟩; exact ⟨rfl, h, rfl⟩

/-- Running a function that is exactly described, on given tokens. -/
theorem Is.run {α : Type} {p : P α} {R : Rel α} (h : ∀ n, Is n p R) {s : TState} {a : α} {r : List Token}
    (hr : R (pending s) a r) : ∃ s', p s = .ok a s' ∧ pending s' = r :=
  (h ((pending s).length + 1)).complete s (by omega) a r hr

/-! ### Literals -/

theorem anyLit_ne_nil {lib : PLib} {ts : List Token} {v : Value} (h : AnyLit lib ts v) : ts ≠ [] := by
  cases h <;> simp

/-- The literal that begins with `t`. -/
def LitFrom (lib : PLib) (t : Token) : Rel Value := fun ts v r => ∃ us, t :: ts = us ++ r ∧ AnyLit lib us v

theorem litFrom_shrink {lib : PLib} {t : Token} {ts r : List Token} {v : Value} (h : LitFrom lib t ts v r) : r.length ≤ ts.length := by
  obtain ⟨us, h1, h2⟩ := h
  have := anyLit_ne_nil h2
  have hl := congrArg List.length h1
  simp only [List.length_cons, List.length_append] at hl
  have : us.length ≠ 0 := by simpa using this
  omega

/-- A round of the loop over the items of an array. -/
def ArrayRound (lib : PLib) (x : List Value) : Rel (List Value ⊕ Value) := fun ts o r => ∃ t us, ts = t :: us ∧
      ((t.type = .newline ∧ o = .inl x ∧ r = us) ∨ (t.type = .closeBracket ∧ o = .inr (.arr x) ∧ r = us) ∨
       (t.type = .comma ∧ o = .inl x ∧ r = us) ∨
       (t.type ≠ .newline ∧ t.type ≠ .closeBracket ∧ t.type ≠ .comma ∧ ∃ v, LitFrom lib t us v r ∧ o = .inl (x ++ [v])))

/-- A round of the loop over the members of an object. -/
def ObjectRound (lib : PLib) (x : GoMap Value) : Rel (GoMap Value ⊕ Value) := fun ts o r => ∃ t us, ts = t :: us ∧
      ((t.type = .closeBrace ∧ o = .inr (.obj x) ∧ r = us) ∨
       (t.type = .string ∧ ∃ key c u us2 v, lib.unquote t.text = some key ∧ us = ⟨.colon, c⟩ :: u :: us2 ∧ LitFrom lib u us2 v r ∧
          o = .inl (mset x key v)) ∨
       (t.type ≠ .closeBrace ∧ t.type ≠ .string ∧ t.type ≠ .symbol ∧ o = .inl x ∧ r = us))

theorem is_array {lib : PLib} {n : Nat} {recur : Token → P Value} (hr : ∀ t, Is n (recur t) (LitFrom lib t)) :
    Is (n + 1) (P.loop (arrayStep recur) []) (fun ts v r => ∃ us vs, ts = us ++ r ∧ AnyItems lib us vs ∧ v = .arr vs) := by
  have hb : ∀ x, Is (n + 1) (arrayStep recur x) (ArrayRound lib x) := by
    intro x
    unfold arrayStep
    refine (is_next (fun t => isGot_ite (fun _ => isGot_ite (fun _ => isGot_keep (is_pure _ _))
      (fun _ => isGot_ite (fun _ => isGot_keep_succ (is_bind (hr t) (fun v => is_pure n _)))
        (fun _ => isGot_keep (is_pure _ _)))) (fun _ => isGot_keep (is_pure _ _)))).congr ?_
    intro ts o r
    rcases ts with _ | ⟨t, us⟩
    · simp [ArrayRound]
    · simp only [onNext_cons]
      constructor
      · rintro (⟨h1, (⟨h2, rfl, rfl⟩ | ⟨h2, (⟨h3, v, m, h4, rfl, rfl⟩ | ⟨h3, rfl, rfl⟩)⟩)⟩ | ⟨h1, rfl, rfl⟩)
        · exact ⟨t, _, rfl, .inr (.inl ⟨h2, rfl, rfl⟩)⟩
        · exact ⟨t, _, rfl, .inr (.inr (.inr ⟨h1, h2, h3, v, h4, rfl⟩))⟩
        · exact ⟨t, _, rfl, .inr (.inr (.inl ⟨not_not.1 h3, rfl, rfl⟩))⟩
        · exact ⟨t, _, rfl, .inl ⟨not_not.1 h1, rfl, rfl⟩⟩
      · rintro ⟨t', us', h0, h⟩
        injection h0 with e1 e2
        subst e1 e2
        rcases h with ⟨h1, rfl, rfl⟩ | ⟨h1, rfl, rfl⟩ | ⟨h1, rfl, rfl⟩ | ⟨h1, h2, h3, v, h4, rfl⟩
        · exact .inr ⟨not_not.2 h1, rfl, rfl⟩
        · exact .inl ⟨by simp [h1], .inl ⟨h1, rfl, rfl⟩⟩
        · exact .inl ⟨by simp [h1], .inr ⟨by simp [h1], .inr ⟨not_not.2 h1, rfl, rfl⟩⟩⟩
        · exact .inl ⟨h1, .inr ⟨h2, .inl ⟨h3, v, r, h4, rfl, rfl⟩⟩⟩
  refine (is_loop hb ?_ []).congr ?_
  · rintro x ts y m ⟨t, us, rfl, h⟩
    rcases h with ⟨_, _, rfl⟩ | ⟨_, h, _⟩ | ⟨_, _, rfl⟩ | ⟨_, _, _, v, h, _⟩
    · simp
    · cases h
    · simp
    · have := litFrom_shrink h; simp; omega
  · intro ts v r
    constructor
    · have key : ∀ x, ∀ ts v r, LoopRel (ArrayRound lib) x ts v r → ∃ us vs, ts = us ++ r ∧ AnyItems lib us vs ∧ v = .arr (x ++ vs) := by
        intro x ts v r h
        induction h with
        | @again x y ts m a r h1 _ ih =>
          obtain ⟨us, vs, rfl, h2, rfl⟩ := ih
          obtain ⟨t, us1, rfl, h⟩ := h1
          rcases h with ⟨h3, h4, rfl⟩ | ⟨_, h4, _⟩ | ⟨h3, h4, rfl⟩ | ⟨_, _, _, v, ⟨us2, h3, h5⟩, h4⟩
          · injection h4 with h4; subst h4
            exact ⟨t :: us, vs, by simp, .sep (.inr h3) h2, rfl⟩
          · cases h4
          · injection h4 with h4; subst h4
            exact ⟨t :: us, vs, by simp, .sep (.inl h3) h2, rfl⟩
          · injection h4 with h4; subst h4
            exact ⟨us2 ++ us, v :: vs, by rw [h3]; simp, .item h5 h2, by simp⟩
        | @done x ts a r h1 =>
          obtain ⟨t, us1, rfl, h⟩ := h1
          rcases h with ⟨h3, h4, rfl⟩ | ⟨h3, h4, rfl⟩ | ⟨h3, h4, rfl⟩ | ⟨_, _, _, v, _, h4⟩
          · cases h4
          · injection h4 with h4
            obtain ⟨ty, tx⟩ := t
            simp only at h3
            subst h3
            exact ⟨[⟨.closeBracket, tx⟩], [], by simp, .close, by simp [h4]⟩
          · cases h4
          · cases h4
      intro h
      obtain ⟨us, vs, h1, h2, h3⟩ := key [] ts v r h
      exact ⟨us, vs, h1, h2, by simpa using h3⟩
    · rintro ⟨us, vs, rfl, h, rfl⟩
      have key : ∀ us vs, AnyItems lib us vs → ∀ x, LoopRel (ArrayRound lib) x (us ++ r) (.arr (x ++ vs)) r := by
        intro us vs h
        refine AnyItems.rec (motive_1 := fun _ _ _ => True) (motive_2 := fun us vs _ => ∀ x, LoopRel (ArrayRound lib) x (us ++ r) (.arr (x ++ vs)) r)
          (motive_3 := fun _ _ _ => True) ?_ ?_ ?_ ?_ ?_ ?_ ?_ ?_ ?_ ?_ ?_ ?_ ?_ h
        all_goals try (intros; trivial)
        · intro y x
          exact .done ⟨_, _, rfl, .inr (.inl ⟨rfl, by simp, rfl⟩)⟩
        · intro t ts vs ht _ ih x
          rcases ht with ht | ht
          · exact .again ⟨_, _, rfl, .inr (.inr (.inl ⟨ht, rfl, rfl⟩))⟩ (ih x)
          · exact .again ⟨_, _, rfl, .inl ⟨ht, rfl, rfl⟩⟩ (ih x)
        · intro ts ts' v vs hl _ _ ih x
          obtain ⟨t, r', rfl, h1, h2, h3⟩ := AnyLit.cons hl
          have := ih (x ++ [v])
          refine .again (y := x ++ [v]) (m := ts' ++ r) ⟨t, r' ++ (ts' ++ r), by simp, .inr (.inr (.inr ⟨h1, h3, h2, v, ⟨t :: r', by simp, hl⟩, rfl⟩))⟩ ?_
          simpa using this
      simpa using key us vs h []

theorem is_object {lib : PLib} {n : Nat} {recur : Token → P Value} (hr : ∀ t, Is n (recur t) (LitFrom lib t)) :
    Is (n + 1) (P.loop (objectStep lib recur) []) (fun ts v r => ∃ us kvs, ts = us ++ r ∧ AnyMembers lib us kvs ∧
      v = .obj (kvs.foldl (fun m kv => mset m kv.1 kv.2) [])) := by
  have hb : ∀ x, Is (n + 1) (objectStep lib recur x) (ObjectRound lib x) := by
    intro x
    unfold objectStep
    have hk : ∀ t : Token, Is (n + 1) (parseLiteralString lib t) (fun ts a r => lib.unquote t.text = some a ∧ r = ts) := by
      intro t
      unfold parseLiteralString
      split
      · rename_i q hq; exact (is_pure _ _).congr (by simp [hq, eq_comm])
      · rename_i hq; exact (is_fail _ _).congr (by simp [hq])
    refine (is_next (fun t => isGot_ite (fun _ => isGot_keep (is_pure _ _))
      (fun _ => isGot_ite (fun _ => isGot_keep (is_bind (hk t) (fun key => is_bind (is_expect _ _) (fun _ =>
          is_next (fun u => isGot_keep_succ (is_bind (hr u) (fun v => is_pure n _)))))))
        (fun _ => isGot_ite (fun _ => isGot_keep (is_fail _ _)) (fun _ => isGot_keep (is_pure _ _)))))).congr ?_
    intro ts o r
    rcases ts with _ | ⟨t, us⟩
    · simp [ObjectRound]
    · simp only [onNext_cons]
      constructor
      · rintro (⟨h1, rfl, rfl⟩ | ⟨h1, (⟨h2, key, m, ⟨h3, rfl⟩, ⟨⟩, m2, ⟨c, rfl⟩, h5⟩ | ⟨h2, (⟨_, h⟩ | ⟨h3, rfl, rfl⟩)⟩)⟩)
        · exact ⟨t, _, rfl, .inl ⟨h1, rfl, rfl⟩⟩
        · rcases m2 with _ | ⟨u, us2⟩
          · simp at h5
          · simp only [onNext_cons] at h5
            obtain ⟨v, m3, h6, rfl, rfl⟩ := h5
            exact ⟨t, _, rfl, .inr (.inl ⟨h2, key, c, u, us2, v, h3, rfl, h6, rfl⟩)⟩
        · exact h.elim
        · exact ⟨t, _, rfl, .inr (.inr ⟨h1, h2, h3, rfl, rfl⟩)⟩
      · rintro ⟨t', us', h0, h⟩
        injection h0 with e1 e2
        subst e1 e2
        rcases h with ⟨h1, rfl, rfl⟩ | ⟨h1, key, c, u, us2, v, h3, rfl, h6, rfl⟩ | ⟨h1, h2, h3, rfl, rfl⟩
        · exact .inl ⟨h1, rfl, rfl⟩
        · exact .inr ⟨by simp [h1], .inl ⟨h1, key, _, ⟨h3, rfl⟩, (), _, ⟨c, rfl⟩, v, r, h6, rfl, rfl⟩⟩
        · exact .inr ⟨h1, .inr ⟨h2, .inr ⟨h3, rfl, rfl⟩⟩⟩
  refine (is_loop hb ?_ []).congr ?_
  · rintro x ts y m ⟨t, us, rfl, h⟩
    rcases h with ⟨_, h, _⟩ | ⟨_, key, c, u, us2, v, _, rfl, h, _⟩ | ⟨_, _, _, _, rfl⟩
    · cases h
    · have := litFrom_shrink h; simp; omega
    · simp
  · intro ts v r
    constructor
    · have key : ∀ x, ∀ ts v r, LoopRel (ObjectRound lib) x ts v r → ∃ us kvs, ts = us ++ r ∧ AnyMembers lib us kvs ∧
          v = .obj (kvs.foldl (fun m kv => mset m kv.1 kv.2) x) := by
        intro x ts v r h
        induction h with
        | @again x y ts m a r h1 _ ih =>
          obtain ⟨us, kvs, rfl, h2, rfl⟩ := ih
          obtain ⟨t, us1, rfl, h⟩ := h1
          rcases h with ⟨_, h4, _⟩ | ⟨h3, key, c, u, us2, v, h5, rfl, ⟨ls, h6, h7⟩, h4⟩ | ⟨h3, h5, h6, h4, rfl⟩
          · cases h4
          · injection h4 with h4; subst h4
            obtain ⟨ty, tx⟩ := t
            simp only at h3
            subst h3
            exact ⟨⟨.string, tx⟩ :: ⟨.colon, c⟩ :: ls ++ us, (key, v) :: kvs, by rw [h6]; simp, .member h5 h7 h2, by simp⟩
          · injection h4 with h4; subst h4
            exact ⟨t :: us, kvs, by simp, .skip h3 h5 h6 h2, rfl⟩
        | @done x ts a r h1 =>
          obtain ⟨t, us1, rfl, h⟩ := h1
          rcases h with ⟨h3, h4, rfl⟩ | ⟨h3, key, c, u, us2, v, h5, rfl, _, h4⟩ | ⟨h3, h5, h6, h4, rfl⟩
          · injection h4 with h4
            obtain ⟨ty, tx⟩ := t
            simp only at h3
            subst h3
            exact ⟨[⟨.closeBrace, tx⟩], [], by simp, .close, by simp [h4]⟩
          · cases h4
          · cases h4
      intro h
      exact key [] ts v r h
    · rintro ⟨us, kvs, rfl, h, rfl⟩
      have key : ∀ us kvs, AnyMembers lib us kvs → ∀ x, LoopRel (ObjectRound lib) x (us ++ r) (.obj (kvs.foldl (fun m kv => mset m kv.1 kv.2) x)) r := by
        intro us kvs h
        refine AnyMembers.rec (motive_1 := fun _ _ _ => True) (motive_2 := fun _ _ _ => True)
          (motive_3 := fun us kvs _ => ∀ x, LoopRel (ObjectRound lib) x (us ++ r) (.obj (kvs.foldl (fun m kv => mset m kv.1 kv.2) x)) r)
          ?_ ?_ ?_ ?_ ?_ ?_ ?_ ?_ ?_ ?_ ?_ ?_ ?_ h
        all_goals try (intros; trivial)
        · intro y x
          exact .done ⟨_, _, rfl, .inl ⟨rfl, rfl, rfl⟩⟩
        · intro t ts kvs h1 h2 h3 _ ih x
          exact .again ⟨_, _, rfl, .inr (.inr ⟨h1, h2, h3, rfl, rfl⟩)⟩ (ih x)
        · intro text y key ts ts' v kvs hq hl _ _ ih x
          obtain ⟨t, r', rfl, h1, h2, h3⟩ := AnyLit.cons hl
          refine .again (y := mset x key v) (m := ts' ++ r) ⟨_, _, rfl, .inr (.inl ⟨rfl, key, y, t, r' ++ (ts' ++ r), v, hq, by simp, ⟨t :: r', by simp, hl⟩, rfl⟩)⟩ (ih _)
      exact key us kvs h []

theorem is_literalN (lib : PLib) (k : Nat) : ∀ t, Is k (parseLiteralN lib k t) (LitFrom lib t) := by
  induction k with
  | zero => intro t; exact ⟨fun s a s' h => (by cases h), fun s hs => (by omega), fun ts a r h => litFrom_shrink h⟩
  | succ k ih =>
    intro t
    obtain ⟨ty, tx⟩ := t
    unfold parseLiteralN literalStep
    have one : ∀ (v : Value), (∀ us w, AnyLit lib us w → us.head? = some ⟨ty, tx⟩ → us = [⟨ty, tx⟩] ∧ w = v) → AnyLit lib [⟨ty, tx⟩] v →
        Is (k + 1) (pure v) (LitFrom lib ⟨ty, tx⟩) := by
      intro v h1 h2
      refine (is_pure _ _).congr ?_
      intro ts a r
      constructor
      · rintro ⟨rfl, rfl⟩; exact ⟨[⟨ty, tx⟩], rfl, h2⟩
      · rintro ⟨us, e, h⟩
        have hn := anyLit_ne_nil h
        obtain ⟨u, us', rfl⟩ := List.exists_cons_of_ne_nil hn
        simp only [List.cons_append, List.cons.injEq] at e
        obtain ⟨rfl, e⟩ := e
        obtain ⟨h3, rfl⟩ := h1 _ _ h rfl
        simp only [List.cons.injEq, true_and] at h3
        subst h3
        exact ⟨rfl, by simpa using e.symm⟩
    have none : (∀ us w, AnyLit lib us w → us.head? ≠ some ⟨ty, tx⟩) → ∀ e, Is (k + 1) (P.fail e) (LitFrom lib ⟨ty, tx⟩) := by
      intro h1 e
      refine (is_fail _ _).congr ?_
      intro ts a r
      refine ⟨False.elim, ?_⟩
      rintro ⟨us, e, h⟩
      obtain ⟨u, us', rfl⟩ := List.exists_cons_of_ne_nil (anyLit_ne_nil h)
      simp only [List.cons_append, List.cons.injEq] at e
      exact h1 _ _ h (by simp [e.1])
    cases ty
    case symbol =>
      simp only
      split
      · exact one _ (by intro us w h hh; cases h <;> simp_all) .true
      · exact one _ (by intro us w h hh; cases h <;> simp_all) .false
      · exact one _ (by intro us w h hh; cases h <;> simp_all) .null
      · rename_i h1 h2 h3
        exact none (by intro us w h hh; cases h <;> simp at hh <;> simp_all) _
    case string =>
      simp only
      unfold parseLiteralString
      cases hq : lib.unquote tx with
      | some q => exact one _ (by intro us w h hh; cases h <;> simp_all) (.string hq)
      | none => exact none (by intro us w h hh; cases h <;> simp_all) _
    case number =>
      simp only
      cases hq : lib.parseDecimal tx with
      | some q => exact one _ (by intro us w h hh; cases h <;> simp_all) (.number hq)
      | none => exact none (by intro us w h hh; cases h <;> simp_all) _
    case openBracket =>
      simp only
      refine (is_array ih).congr ?_
      intro ts a r
      constructor
      · rintro ⟨us, vs, rfl, h, rfl⟩; exact ⟨_, rfl, .array h⟩
      · rintro ⟨us, e, h⟩
        cases h <;> simp only [List.cons_append, List.cons.injEq, Token.mk.injEq, reduceCtorEq, false_and] at e
        rename_i h
        exact ⟨_, _, e.2, h, rfl⟩
    case openBrace =>
      simp only
      refine (is_object ih).congr ?_
      intro ts a r
      constructor
      · rintro ⟨us, vs, rfl, h, rfl⟩; exact ⟨_, rfl, .object h⟩
      · rintro ⟨us, e, h⟩
        cases h <;> simp only [List.cons_append, List.cons.injEq, Token.mk.injEq, reduceCtorEq, false_and] at e
        rename_i h
        exact ⟨_, _, e.2, h, rfl⟩
    all_goals
      simp only
      exact none (by intro us w h hh; cases h <;> simp at hh) _

theorem is_literalValue (n : Nat) (lib : PLib) : Is n (parseLiteralValue lib) (app (AnyLit lib)) := by
  unfold parseLiteralValue
  refine (is_get (is_syntaxError n) (fun t => isGot_keep (is_recursion (fun k => is_literalN lib k t) n))).congr ?_
  intro ts a r
  rcases ts with _ | ⟨t, ts⟩
  · simp only [onNext_nil, false_iff]
    rintro ⟨us, e, h⟩
    exact anyLit_ne_nil h (List.append_eq_nil_iff.1 e.symm).1
  · exact Iff.rfl

end Sadl
