import Verif.Lemmas.GrammarBasic
/-
Exact descriptions of options, comments, the end of statements and words joined by dots.
-/
namespace Sadl
open Spec Props

theorem is_equalsNumber (n : Nat) (lib : PLib) : Is n (expectEqualsNumber lib)
    (fun ts a r => ∃ x t, ts = ⟨.equals, x⟩ :: ⟨.number, t⟩ :: r ∧ lib.parseDecimal t = some a) := by
  unfold expectEqualsNumber
  refine Is.congr (is_bind (is_expect n _) (fun _ => is_number n lib)) ?_
  intro ts a r
  constructor
  · rintro ⟨⟨⟩, m, ⟨x, rfl⟩, t, rfl, h⟩; exact ⟨x, t, rfl, h⟩
  · rintro ⟨x, t, rfl, h⟩; exact ⟨(), _, ⟨x, rfl⟩, t, rfl, h⟩

theorem is_equalsInt64 (n : Nat) : Is n expectEqualsInt64
    (fun ts a r => ∃ x t, ts = ⟨.equals, x⟩ :: ⟨.number, t⟩ :: r ∧ parseInt 64 t = some a) := by
  unfold expectEqualsInt64
  refine Is.congr (is_bind (is_expect n _) (fun _ => is_int n 64)) ?_
  intro ts a r
  constructor
  · rintro ⟨⟨⟩, m, ⟨x, rfl⟩, t, rfl, h⟩; exact ⟨x, t, rfl, h⟩
  · rintro ⟨x, t, rfl, h⟩; exact ⟨(), _, ⟨x, rfl⟩, t, rfl, h⟩

theorem is_equalsString (n : Nat) : Is n expectEqualsString (fun ts a r => ∃ x, ts = ⟨.equals, x⟩ :: ⟨.string, a⟩ :: r) := by
  unfold expectEqualsString
  refine Is.congr (is_bind (is_expect n _) (fun _ => is_string n)) ?_
  intro ts a r
  constructor
  · rintro ⟨⟨⟩, m, ⟨x, rfl⟩, rfl⟩; exact ⟨x, rfl⟩
  · rintro ⟨x, rfl⟩; exact ⟨(), _, ⟨x, rfl⟩, rfl⟩

theorem is_equalsIdentifier (n : Nat) : Is n expectEqualsIdentifier (fun ts a r => ∃ x, ts = ⟨.equals, x⟩ :: ⟨.symbol, a⟩ :: r) := by
  unfold expectEqualsIdentifier
  refine Is.congr (is_bind (is_expect n _) (fun _ => is_identifier n)) ?_
  intro ts a r
  constructor
  · rintro ⟨⟨⟩, m, ⟨x, rfl⟩, rfl⟩; exact ⟨x, rfl⟩
  · rintro ⟨x, rfl⟩; exact ⟨(), _, ⟨x, rfl⟩, rfl⟩

theorem is_equalsLiteral (n : Nat) (lib : PLib) : Is n (parseEqualsLiteral lib)
    (fun ts a r => ∃ x us, ts = ⟨.equals, x⟩ :: us ++ r ∧ AnyLit lib us a) := by
  unfold parseEqualsLiteral
  refine Is.congr (is_bind (is_expect n _) (fun _ => is_literalValue n lib)) ?_
  intro ts a r
  constructor
  · rintro ⟨⟨⟩, m, ⟨x, rfl⟩, us, rfl, h⟩; exact ⟨x, us, rfl, h⟩
  · rintro ⟨x, us, rfl, h⟩; exact ⟨(), _, ⟨x, rfl⟩, us, rfl, h⟩

/-- A round of the loop over an array of strings. -/
def StrRound (x : List String) : Rel (List String ⊕ List String) := fun ts o r => ∃ t, ts = t :: r ∧
  ((t.type = .closeBracket ∧ o = .inr x) ∨ (t.type = .string ∧ o = .inl (x ++ [t.text])) ∨
   ((t.type = .comma ∨ t.type = .newline) ∧ o = .inl x))

theorem is_strRound (n : Nat) (x : List String) : Is n (stringArrayStep x) (StrRound x) := by
  unfold stringArrayStep
  refine Is.congr (is_next (fun t => isGot_keep (is_ite (fun _ => is_pure n _) (fun _ => is_ite (fun _ => is_pure n _)
    (fun _ => is_ite (fun _ => is_pure n _) (fun _ => is_syntaxError n)))))) ?_
  intro ts o r
  rcases ts with _ | ⟨t, ts⟩
  · simp [StrRound]
  · simp only [onNext_cons, and_false, or_false]
    constructor
    · rintro (⟨h1, rfl, rfl⟩ | ⟨h1, ⟨h2, rfl, rfl⟩ | ⟨h2, h3, rfl, rfl⟩⟩)
      · exact ⟨t, rfl, .inl ⟨h1, rfl⟩⟩
      · exact ⟨t, rfl, .inr (.inl ⟨h2, rfl⟩)⟩
      · exact ⟨t, rfl, .inr (.inr ⟨h3, rfl⟩)⟩
    · rintro ⟨t', e, h⟩
      injection e with e1 e2
      subst e1 e2
      rcases h with ⟨h1, rfl⟩ | ⟨h1, rfl⟩ | ⟨h1, rfl⟩
      · exact .inl ⟨h1, rfl, rfl⟩
      · exact .inr ⟨by simp [h1], .inl ⟨h1, rfl, rfl⟩⟩
      · exact .inr ⟨by rcases h1 with h1 | h1 <;> simp [h1], .inr ⟨by rcases h1 with h1 | h1 <;> simp [h1], h1, rfl, rfl⟩⟩

theorem is_strItems (n : Nat) : Is n (P.loop stringArrayStep []) (app StrItems) := by
  refine Is.congr (is_loop (is_strRound n) ?_ []) ?_
  · rintro x ts y m ⟨t, rfl, _⟩; simp
  · intro ts a r
    constructor
    · have key : ∀ x ts a r, LoopRel StrRound x ts a r → ∃ us vs, ts = us ++ r ∧ StrItems us vs ∧ a = x ++ vs := by
        intro x ts a r h
        induction h with
        | again h1 _ ih =>
          obtain ⟨us, vs, rfl, h2, rfl⟩ := ih
          obtain ⟨⟨ty, tx⟩, rfl, h⟩ := h1
          rcases h with ⟨_, h⟩ | ⟨h3, h⟩ | ⟨h3, h⟩
          · cases h
          · injection h with h; simp only at h3; subst h h3
            exact ⟨_, _, rfl, .item h2, by simp⟩
          · injection h with h; subst h
            exact ⟨_, _, rfl, .sep h3 h2, by simp⟩
        | done h1 =>
          obtain ⟨⟨ty, tx⟩, rfl, h⟩ := h1
          rcases h with ⟨h3, h⟩ | ⟨h3, h⟩ | ⟨h3, h⟩
          · injection h with h; simp only at h3; subst h h3
            exact ⟨[_], _, rfl, .close, by simp⟩
          · cases h
          · cases h
      intro h
      obtain ⟨us, vs, h1, h2, rfl⟩ := key _ _ _ _ h
      exact ⟨us, h1, by simpa using h2⟩
    · rintro ⟨us, rfl, h⟩
      have key : ∀ us vs, StrItems us vs → ∀ x, LoopRel StrRound x (us ++ r) (x ++ vs) r := by
        intro us vs h
        induction h with
        | close => intro x; exact .done ⟨_, rfl, .inl ⟨rfl, by simp⟩⟩
        | sep ht _ ih => intro x; exact .again ⟨_, rfl, .inr (.inr ⟨ht, rfl⟩)⟩ (ih x)
        | @item v ts vs _ ih =>
          intro x
          refine .again ⟨_, rfl, .inr (.inl ⟨rfl, rfl⟩)⟩ ?_
          simpa using ih (x ++ [v])
      simpa using key _ _ h []

theorem is_equalsStringArray (n : Nat) : Is n expectEqualsStringArray (fun ts a r => ∃ x y us vs,
    ts = ⟨.equals, x⟩ :: ⟨.openBracket, y⟩ :: us ++ r ∧ StrItems us vs ∧ a = if vs = [] then none else some vs) := by
  unfold expectEqualsStringArray
  refine Is.congr (is_next (fun t => isGot_keep (is_ite (fun _ => is_syntaxError n) (fun _ => is_next (fun u => isGot_keep
    (is_ite (fun _ => is_syntaxError n) (fun _ => is_bind (is_strItems n) (fun vs => is_pure n _)))))))) ?_
  intro ts a r
  rcases ts with _ | ⟨⟨ty, x⟩, _ | ⟨⟨ty2, y⟩, ts⟩⟩
  · simp
  · simp
  · simp only [onNext_cons, and_false, false_or, not_not]
    constructor
    · rintro ⟨rfl, rfl, vs, m, ⟨us, rfl, h⟩, rfl, rfl⟩
      exact ⟨x, y, us, vs, rfl, h, rfl⟩
    · rintro ⟨x', y', us, vs, e, h, rfl⟩
      simp only [List.cons_append, List.cons.injEq, Token.mk.injEq] at e
      obtain ⟨⟨rfl, rfl⟩, ⟨rfl, rfl⟩, rfl⟩ := e
      exact ⟨rfl, rfl, vs, r, ⟨us, rfl, h⟩, rfl, rfl⟩

theorem is_option (n : Nat) (lib : PLib) (o : Options) (name : String) : Is n (parseOption lib o name)
    (app (fun us o' => OptArg lib (AnyLit lib) name us o o')) := by
  refine Is.of_eats (eats_option lib o name) ?_
  intro s _ us a r hs h
  have step : ∀ {β : Type} {p : P β} {R : Rel β} {v : β} (f : β → Options), (∀ n, Is n p R) → R (pending s) v r →
      ∃ s', (do let v ← p; pure (f v)) s = .ok (f v) s' ∧ pending s' = r := by
    intro β p R v f hp hr
    obtain ⟨s', h1, h2⟩ := Is.run hp hr
    exact ⟨s', by rw [bind_ok h1]; rfl, h2⟩
  cases h with
  | required => exact ⟨s, rfl, by simpa using hs⟩
  | min h => exact step _ (fun n => is_equalsNumber n lib) ⟨_, _, hs, h⟩
  | max h => exact step _ (fun n => is_equalsNumber n lib) ⟨_, _, hs, h⟩
  | minsize h => exact step _ is_equalsInt64 ⟨_, _, hs, h⟩
  | maxsize h => exact step _ is_equalsInt64 ⟨_, _, hs, h⟩
  | pattern => exact step (fun v => { o with pattern := v }) is_equalsString ⟨_, hs⟩
  | header => exact step (fun v => { o with header := v }) is_equalsString ⟨_, hs⟩
  | action => exact step (fun v => { o with action := v }) is_equalsIdentifier ⟨_, hs⟩
  | operation => exact step (fun v => { o with action := v }) is_equalsIdentifier ⟨_, hs⟩
  | resource => exact step (fun v => { o with resource := v }) is_equalsIdentifier ⟨_, hs⟩
  | reference => exact step (fun v => { o with reference := v }) is_equalsIdentifier ⟨_, hs⟩
  | name => exact step (fun v => { o with name := v }) is_equalsIdentifier ⟨_, hs⟩
  | default h => exact step (fun v => { o with default := v }) (fun n => is_equalsLiteral n lib) ⟨_, _, hs, h⟩
  | values h => exact step (fun v => { o with values := v }) is_equalsStringArray ⟨_, _, _, _, hs, h, rfl⟩

/-- A round of the loop over options. -/
def OptRound (lib : PLib) (acc : List String) (o : Options) : Rel (Options ⊕ Options) := fun ts q r => ∃ t us, ts = t :: us ∧
  ((t.type = .closeParen ∧ q = .inr o ∧ r = us) ∨ (t.type = .comma ∧ q = .inl o ∧ r = us) ∨
   (t.type = .symbol ∧ hasPrefix (lowerS t.text) "x_" = true ∧
     ((∃ x v, us = ⟨.equals, x⟩ :: ⟨.string, v⟩ :: r ∧ q = .inl { o with annotations := mset o.annotations t.text v }) ∨
      (us ≠ [] ∧ NotNext .equals us ∧ r = us ∧ q = .inl { o with annotations := mset o.annotations t.text "" }))) ∨
   (t.type = .symbol ∧ hasPrefix (lowerS t.text) "x_" = false ∧ lowerS t.text ∈ acc ∧
     ∃ args o', us = args ++ r ∧ OptArg lib (AnyLit lib) (lowerS t.text) args o o' ∧ q = .inl o'))

theorem is_extended (n : Nat) (annos : GoMap String) (a : String) : Is n (parseExtendedOption annos a) (fun ts m r =>
    (∃ x v, ts = ⟨.equals, x⟩ :: ⟨.string, v⟩ :: r ∧ m = mset annos a v) ∨
    (ts ≠ [] ∧ NotNext .equals ts ∧ r = ts ∧ m = mset annos a "")) := by
  unfold parseExtendedOption
  refine Is.congr (is_next (fun t => isGot_ite (fun _ => isGot_keep (is_bind (is_string n) (fun v => is_pure n _)))
    (fun _ => isGot_unget (is_pure n _)))) ?_
  intro ts m r
  rcases ts with _ | ⟨⟨ty, tx⟩, ts⟩
  · simp
  · simp only [onNext_cons]
    constructor
    · rintro (⟨rfl, v, m', rfl, rfl, rfl⟩ | ⟨h, rfl, rfl⟩)
      · exact .inl ⟨tx, v, rfl, rfl⟩
      · exact .inr ⟨by simp, by simpa [NotNext] using h, rfl, rfl⟩
    · rintro (⟨x, v, e, rfl⟩ | ⟨_, h, rfl, rfl⟩)
      · simp only [List.cons.injEq, Token.mk.injEq] at e
        obtain ⟨⟨rfl, rfl⟩, rfl⟩ := e
        exact .inl ⟨rfl, v, _, rfl, rfl, rfl⟩
      · exact .inr ⟨by simpa [NotNext] using h, rfl, rfl⟩

theorem is_optRound (n : Nat) (lib : PLib) (acc : List String) (o : Options) : Is n (optionsStep lib acc o) (OptRound lib acc o) := by
  unfold optionsStep
  refine Is.congr (is_get (is_syntaxError n) (fun t => isGot_keep (is_ite (fun _ => is_pure n _) (fun _ => is_ite
    (fun _ => is_ite (fun _ => is_bind (is_extended n _ _) (fun a => is_pure n _))
      (fun _ => is_ite (fun _ => is_bind (is_option n lib o _) (fun o' => is_pure n _)) (fun _ => is_fail n _)))
    (fun _ => is_ite (fun _ => is_pure n _) (fun _ => is_syntaxError n)))))) ?_
  intro ts q r
  rcases ts with _ | ⟨t, us⟩
  · simp [OptRound]
  · simp only [onNext_cons, and_false, or_false]
    constructor
    · rintro (⟨h1, rfl, rfl⟩ | ⟨h1, ⟨h2, ⟨h3, a, m, h4, rfl, rfl⟩ | ⟨h3, h4, o', m, ⟨args, rfl, h5⟩, rfl, rfl⟩⟩ | ⟨h2, h3, rfl, rfl⟩⟩)
      · exact ⟨t, _, rfl, .inl ⟨h1, rfl, rfl⟩⟩
      · refine ⟨t, _, rfl, .inr (.inr (.inl ⟨h2, h3, ?_⟩))⟩
        rcases h4 with ⟨x, v, rfl, rfl⟩ | ⟨h5, h6, rfl, rfl⟩
        · exact .inl ⟨x, v, rfl, rfl⟩
        · exact .inr ⟨h5, h6, rfl, rfl⟩
      · exact ⟨t, _, rfl, .inr (.inr (.inr ⟨h2, by simpa using h3, h4, args, o', rfl, h5, rfl⟩))⟩
      · exact ⟨t, _, rfl, .inr (.inl ⟨h3, rfl, rfl⟩)⟩
    · rintro ⟨t', us', e, h⟩
      injection e with e1 e2
      subst e1 e2
      rcases h with ⟨h1, rfl, rfl⟩ | ⟨h1, rfl, rfl⟩ | ⟨h1, h2, h3⟩ | ⟨h1, h2, h3, args, o', rfl, h4, rfl⟩
      · exact .inl ⟨h1, rfl, rfl⟩
      · exact .inr ⟨by simp [h1], .inr ⟨by simp [h1], h1, rfl, rfl⟩⟩
      · refine .inr ⟨by simp [h1], .inl ⟨h1, .inl ⟨h2, ?_⟩⟩⟩
        rcases h3 with ⟨x, v, rfl, rfl⟩ | ⟨h5, h6, rfl, rfl⟩
        · exact ⟨_, _, .inl ⟨x, v, rfl, rfl⟩, rfl, rfl⟩
        · exact ⟨_, _, .inr ⟨h5, h6, rfl, rfl⟩, rfl, rfl⟩
      · exact .inr ⟨by simp [h1], .inl ⟨h1, .inr ⟨by simp [h2], h3, o', r, ⟨args, rfl, h4⟩, rfl, rfl⟩⟩⟩

theorem is_optLoop (n : Nat) (lib : PLib) (acc : List String) (o : Options) : Is n (P.loop (optionsStep lib acc) o)
    (fun ts o' r => ∃ items y, ts = items ++ ⟨.closeParen, y⟩ :: r ∧ OptItems lib (AnyLit lib) acc items o o') := by
  refine Is.congr (is_loop (is_optRound n lib acc) ?_ o) ?_
  · rintro x ts y m ⟨t, us, rfl, h⟩
    rcases h with ⟨_, h, _⟩ | ⟨_, _, rfl⟩ | ⟨_, _, ⟨x, v, rfl, _⟩ | ⟨_, _, rfl, _⟩⟩ | ⟨_, _, _, args, o', rfl, _, _⟩
    · cases h
    · simp
    · simp; omega
    · simp
    · simp; omega
  · intro ts o' r
    constructor
    · intro h
      induction h with
      | @again o o1 ts m o' r h1 _ ih =>
        obtain ⟨items, y, rfl, hi⟩ := ih
        obtain ⟨⟨ty, tx⟩, us, rfl, h⟩ := h1
        rcases h with ⟨_, h, _⟩ | ⟨h, h2, rfl⟩ | ⟨h, h3, ⟨x, v, rfl, h2⟩ | ⟨_, _, rfl, h2⟩⟩ | ⟨h, h3, h4, args, o2, rfl, h5, h2⟩
        · cases h
        · injection h2 with h2; simp only at h; subst h h2
          exact ⟨⟨.comma, tx⟩ :: items, y, rfl, .comma hi⟩
        · injection h2 with h2; simp only at h h3; subst h h2
          exact ⟨⟨.symbol, tx⟩ :: ⟨.equals, x⟩ :: ⟨.string, v⟩ :: items, y, rfl, .anno h3 hi⟩
        · injection h2 with h2; simp only at h h3; subst h h2
          exact ⟨⟨.symbol, tx⟩ :: items, y, rfl, .flag h3 hi⟩
        · injection h2 with h2; simp only at h h3 h4 h5; subst h h2
          exact ⟨⟨.symbol, tx⟩ :: args ++ items, y, by simp, .opt h3 h4 h5 hi⟩
      | @done o ts o' r h1 =>
        obtain ⟨⟨ty, tx⟩, us, rfl, h⟩ := h1
        rcases h with ⟨h, h2, rfl⟩ | ⟨h, h2, rfl⟩ | ⟨h, h3, ⟨x, v, rfl, h2⟩ | ⟨_, _, rfl, h2⟩⟩ | ⟨h, h3, h4, args, o2, rfl, h5, h2⟩
        · injection h2 with h2; simp only at h; subst h h2
          exact ⟨[], tx, rfl, .nil⟩
        all_goals cases h2
    · rintro ⟨items, y, rfl, h⟩
      induction h with
      | nil => exact .done ⟨_, _, rfl, .inl ⟨rfl, rfl, rfl⟩⟩
      | comma _ ih => exact .again ⟨_, _, rfl, .inr (.inl ⟨rfl, rfl, rfl⟩)⟩ ih
      | @flag name ts o o' hx hi ih =>
        refine .again (y := _) ⟨_, _, rfl, .inr (.inr (.inl ⟨rfl, hx, .inr ⟨by simp, ?_, rfl, rfl⟩⟩))⟩ ih
        rcases optItems_head hi with rfl | ⟨t', r', rfl, ht⟩
        · simp [NotNext]
        · simpa [NotNext] using ht
      | anno hx _ ih => exact .again ⟨_, _, rfl, .inr (.inr (.inl ⟨rfl, hx, .inl ⟨_, _, rfl, rfl⟩⟩))⟩ ih
      | opt hx hm ha _ ih =>
        exact .again ⟨_, _, rfl, .inr (.inr (.inr ⟨rfl, hx, hm, _, _, List.append_assoc _ _ _, ha, rfl⟩))⟩ ih

theorem is_options (n : Nat) (lib : PLib) (acc : List String) : Is n (parseOptions lib acc) (Opts lib acc) := by
  unfold parseOptions
  refine Is.congr (is_get (is_pure n _) (fun t => isGot_ite (fun _ => isGot_keep (is_optLoop n lib acc _)) (fun _ => isGot_unget (is_pure n _)))) ?_
  intro ts o r
  rcases ts with _ | ⟨⟨ty, tx⟩, ts⟩
  · simp only [onNext_nil]
    constructor
    · rintro ⟨rfl, rfl⟩; exact ⟨[], rfl, .inl ⟨rfl, rfl⟩, by simp [NotNext]⟩
    · rintro ⟨us, e, h, _⟩
      obtain ⟨rfl, rfl⟩ := List.append_eq_nil_iff.1 e.symm
      rcases h with ⟨_, rfl⟩ | ⟨x, y, items, h, _⟩
      · exact ⟨rfl, rfl⟩
      · cases h
  · simp only [onNext_cons]
    constructor
    · rintro (⟨rfl, items, y, rfl, h⟩ | ⟨h, rfl, rfl⟩)
      · exact ⟨⟨.openParen, tx⟩ :: items ++ [⟨.closeParen, y⟩], by simp, .inr ⟨tx, y, items, rfl, h⟩, by simp⟩
      · exact ⟨[], rfl, .inl ⟨rfl, rfl⟩, by simpa [NotNext] using h⟩
    · rintro ⟨us, e, ⟨rfl, rfl⟩ | ⟨x, y, items, rfl, h⟩, h2⟩
      · simp only [List.nil_append] at e
        subst e
        exact .inr ⟨by simpa [NotNext] using h2, rfl, rfl⟩
      · simp only [List.cons_append, List.append_assoc, List.cons.injEq, Token.mk.injEq] at e
        obtain ⟨⟨rfl, rfl⟩, rfl⟩ := e
        exact .inl ⟨rfl, items, y, by simp, h⟩

theorem opts_shrink {lib : PLib} {acc : List String} {ts r : List Token} {o : Options} (h : Opts lib acc ts o r) : r.length ≤ ts.length :=
  (is_options 0 lib acc).shrink _ _ _ h

/-! ### Comments and the end of statements -/

theorem is_trailing (n : Nat) (c : String) : Is n (parseTrailingComment c) (Trailing c) := by
  unfold parseTrailingComment
  refine Is.congr (is_get (is_pure n _) (fun t => isGot_ite (fun _ => isGot_keep (is_pure n _)) (fun _ => isGot_unget (is_pure n _)))) ?_
  intro ts a r
  rcases ts with _ | ⟨⟨ty, tx⟩, ts⟩
  · simp only [onNext_nil]
    constructor
    · rintro ⟨rfl, rfl⟩; exact .none (by simp [NotNext])
    · rintro ⟨⟩; exact ⟨rfl, rfl⟩
  · simp only [onNext_cons]
    constructor
    · rintro (⟨rfl, rfl, rfl⟩ | ⟨h, rfl, rfl⟩)
      · exact .comment
      · exact .none (by simpa [NotNext] using h)
    · intro h
      cases h with
      | comment => exact .inl ⟨rfl, rfl, rfl⟩
      | none h => exact .inr ⟨by simpa [NotNext] using h, rfl, rfl⟩

/-- A round of the loop for the end of a statement. -/
def EndRound (c : String) : Rel (String ⊕ (String × Bool)) := fun ts q r =>
  (ts = [] ∧ r = [] ∧ q = .inr (c, true)) ∨ ∃ t, ts = t :: r ∧
  ((t.type = .semicolon ∧ q = .inl c) ∨ (t.type = .lineComment ∧ q = .inl (mergeComment c t.text)) ∨
   (t.type = .newline ∧ q = .inr (c, true)) ∨
   (t.type ≠ .semicolon ∧ t.type ≠ .lineComment ∧ t.type ≠ .newline ∧ q = .inr (c, false)))

theorem is_endRound (n : Nat) (c : String) : Is n (endStep c) (EndRound c) := by
  unfold endStep
  refine Is.congr (is_get (is_pure n _) (fun t => isGot_keep (is_ite (fun _ => is_pure n _) (fun _ => is_ite (fun _ => is_pure n _)
    (fun _ => is_ite (fun _ => is_pure n _) (fun _ => is_pure n _)))))) ?_
  intro ts q r
  rcases ts with _ | ⟨t, ts⟩
  · simp only [onNext_nil, EndRound, true_and, reduceCtorEq, false_and, exists_false, or_false]; exact and_comm
  · simp only [onNext_cons]
    constructor
    · rintro (⟨h1, rfl, rfl⟩ | ⟨h1, ⟨h2, rfl, rfl⟩ | ⟨h2, ⟨h3, rfl, rfl⟩ | ⟨h3, rfl, rfl⟩⟩⟩)
      · exact .inr ⟨t, rfl, .inl ⟨h1, rfl⟩⟩
      · exact .inr ⟨t, rfl, .inr (.inl ⟨h2, rfl⟩)⟩
      · exact .inr ⟨t, rfl, .inr (.inr (.inl ⟨h3, rfl⟩))⟩
      · exact .inr ⟨t, rfl, .inr (.inr (.inr ⟨h1, h2, h3, rfl⟩))⟩
    · rintro (⟨e, _⟩ | ⟨t', e, h⟩)
      · cases e
      · injection e with e1 e2
        subst e1 e2
        rcases h with ⟨h1, rfl⟩ | ⟨h1, rfl⟩ | ⟨h1, rfl⟩ | ⟨h1, h2, h3, rfl⟩
        · exact .inl ⟨h1, rfl, rfl⟩
        · exact .inr ⟨by simp [h1], .inl ⟨h1, rfl, rfl⟩⟩
        · exact .inr ⟨by simp [h1], .inr ⟨by simp [h1], .inl ⟨h1, rfl, rfl⟩⟩⟩
        · exact .inr ⟨h1, .inr ⟨h2, .inr ⟨h3, rfl, rfl⟩⟩⟩

theorem is_end (n : Nat) (c : String) : Is n (endOfStatement c) (fun ts q r => Ends c ts q.1 q.2 r) := by
  unfold endOfStatement
  refine Is.congr (is_loop (is_endRound n) ?_ c) ?_
  · rintro x ts y m (⟨_, _, h⟩ | ⟨t, rfl, _⟩)
    · cases h
    · simp
  · intro ts q r
    constructor
    · intro h
      induction h with
      | again h1 _ ih =>
        rcases h1 with ⟨_, _, h⟩ | ⟨⟨ty, tx⟩, rfl, h⟩
        · cases h
        · rcases h with ⟨h, h2⟩ | ⟨h, h2⟩ | ⟨_, h2⟩ | ⟨_, _, _, h2⟩
          · injection h2 with h2; simp only at h; subst h h2; exact .semicolon ih
          · injection h2 with h2; simp only at h; subst h h2; exact .comment ih
          · cases h2
          · cases h2
      | done h1 =>
        rcases h1 with ⟨rfl, rfl, h⟩ | ⟨⟨ty, tx⟩, rfl, h⟩
        · injection h with h; subst h; exact .source
        · rcases h with ⟨h, h2⟩ | ⟨h, h2⟩ | ⟨h, h2⟩ | ⟨h3, h4, h5, h2⟩
          · cases h2
          · cases h2
          · injection h2 with h2; simp only at h; subst h h2; exact .newline
          · injection h2 with h2; subst h2; exact .stray h3 h4 h5
    · obtain ⟨c', ok⟩ := q
      intro h
      simp only at h
      induction h with
      | semicolon _ ih => exact .again (.inr ⟨_, rfl, .inl ⟨rfl, rfl⟩⟩) ih
      | comment _ ih => exact .again (.inr ⟨_, rfl, .inr (.inl ⟨rfl, rfl⟩)⟩) ih
      | newline => exact .done (.inr ⟨_, rfl, .inr (.inr (.inl ⟨rfl, rfl⟩))⟩)
      | source => exact .done (.inl ⟨rfl, rfl, rfl⟩)
      | stray h1 h2 h3 => exact .done (.inr ⟨_, rfl, .inr (.inr (.inr ⟨h1, h2, h3, rfl⟩))⟩)

theorem is_end! (n : Nat) (c : String) : Is n (endOfStatement! c) (fun ts c' r => Ends c ts c' true r) := by
  unfold endOfStatement!
  refine Is.congr (is_bind (is_end n c) (fun q => is_ite (fun _ => is_pure n _) (fun _ => is_syntaxError n))) ?_
  intro ts c' r
  constructor
  · rintro ⟨⟨d, ok⟩, m, h, (⟨h1, rfl, rfl⟩ | ⟨_, h1⟩)⟩
    · simp only at h1 h; subst h1; exact h
    · exact h1.elim
  · intro h
    exact ⟨(c', true), r, h, .inl ⟨rfl, rfl, rfl⟩⟩

/-- The end of a type with a body, from the closing brace that has just been read. -/
theorem isGot_afterBrace (n : Nat) (b : Token) (c : String) : IsGot n b (do let r ← endOfStatement c; ungetToken; pure r.1)
    (fun ts c' r => AfterBrace b c ts c' r) := by
  have inv : ∀ (k : Nat) (c : String) (s : TState), s.size < k → s.ungotten = none → ∀ b, s.last = some b →
      ∃ q s1, P.loopN endStep k c s = .ok q s1 ∧ s1.ungotten = none ∧ ∃ t, s1.last = some t ∧
        AfterBrace b c (pending s) q.1 (t :: pending s1) ∧
        (∀ c' r, AfterBrace b c (pending s) c' r → c' = q.1 ∧ r = t :: pending s1) := by
    intro k
    induction k with
    | zero => intro c s h; omega
    | succ k ih =>
      intro c s hk hu b hb
      unfold P.loopN
      cases hp : pending s with
      | nil =>
        obtain ⟨s1, g1, g2, g3, g4⟩ := getToken_nil hp
        refine ⟨(c, true), s1, ?_, g3, b, by rw [g4, hb], by rw [g2]; exact .source, ?_⟩
        · have : endStep c s = .ok (.inr (c, true)) s1 := by unfold endStep; rw [bind_ok g1]; rfl
          rw [bind_ok this]; rfl
        · intro c' r h; rw [g2]; cases h; exact ⟨rfl, rfl⟩
      | cons t ts =>
        obtain ⟨s1, g1, rfl, g3, g4⟩ := getToken_cons hp
        have hsz : s1.size < s.size := by
          have hu' : s.ungotten = none := hu
          unfold getToken at g1
          rw [hu'] at g1
          simp only at g1
          unfold TState.size
          rw [g3, hu']
          simp only [Option.elim, add_zero]
          rcases hsc : scan s.toks with ⟨t?, r⟩
          rw [hsc] at g1
          cases t? with
          | none => simp at g1
          | some u =>
            simp only [PRes.ok.injEq] at g1
            obtain ⟨_, rfl⟩ := g1
            simp only
            clear * - hsc
            generalize s.toks = l at hsc
            induction l with
            | nil => simp [scan] at hsc
            | cons x l ih =>
              unfold scan at hsc
              split_ifs at hsc
              · have := ih hsc; simp; omega
              · simp only [Prod.mk.injEq] at hsc; rw [← hsc.2]; simp
        obtain ⟨ty, tx⟩ := t
        by_cases h1 : ty = .semicolon
        · subst h1
          have e : endStep c s = .ok (.inl c) s1 := by unfold endStep; rw [bind_ok g1]; rfl
          obtain ⟨q, s2, f1, f2, t, f3, f4, f5⟩ := ih c s1 (by omega) g3 _ g4
          refine ⟨q, s2, by rw [bind_ok e]; exact f1, f2, t, f3, .semicolon f4, ?_⟩
          intro c' r h
          cases h with
          | semicolon h => exact f5 _ _ h
          | stop h => exact absurd rfl h
        · by_cases h2 : ty = .lineComment
          · subst h2
            have e : endStep c s = .ok (.inl (mergeComment c tx)) s1 := by unfold endStep; rw [bind_ok g1]; rfl
            obtain ⟨q, s2, f1, f2, t, f3, f4, f5⟩ := ih (mergeComment c tx) s1 (by omega) g3 _ g4
            refine ⟨q, s2, by rw [bind_ok e]; exact f1, f2, t, f3, .comment f4, ?_⟩
            intro c' r h
            cases h with
            | comment h => exact f5 _ _ h
            | stop _ h => exact absurd rfl h
          · have e : ∃ ok, endStep c s = .ok (.inr (c, ok)) s1 := by
              unfold endStep
              rw [bind_ok g1]
              simp only [h1, h2, if_false]
              by_cases h3 : ty = .newline
              · rw [if_pos h3]; exact ⟨_, rfl⟩
              · rw [if_neg h3]; exact ⟨_, rfl⟩
            obtain ⟨ok, e⟩ := e
            refine ⟨(c, ok), s1, by rw [bind_ok e]; rfl, g3, _, g4, .stop h1 h2, ?_⟩
            intro c' r h
            cases h with
            | semicolon h => exact absurd rfl h1
            | comment h => exact absurd rfl h2
            | stop => exact ⟨rfl, rfl⟩
  have run : ∀ s : TState, s.ungotten = none → s.last = some b → ∃ c' s', (do let r ← endOfStatement c; ungetToken; pure r.1 : P String) s = .ok c' s' ∧
      AfterBrace b c (pending s) c' (pending s') ∧ ∀ c'' r, AfterBrace b c (pending s) c'' r → c'' = c' ∧ r = pending s' := by
    intro s h1 h2
    obtain ⟨q, s1, f1, f2, t, f3, f4, f5⟩ := inv (s.size + 1) c s (by omega) h1 b h2
    obtain ⟨s2, g1, g2⟩ := unget_pending f2 f3
    have e : endOfStatement c s = .ok q s1 := f1
    refine ⟨q.1, s2, ?_, by rw [g2]; exact f4, fun c'' r h => by rw [g2]; exact f5 c'' r h⟩
    rw [bind_ok e, bind_ok g1]
    rfl
  refine ⟨?_, ?_, ?_⟩
  · intro s h1 h2 a s' h
    obtain ⟨c', s1, e1, e2, _⟩ := run s h1 h2
    rw [e1] at h
    injection h with h3 h4
    subst h3 h4
    exact e2
  · intro s h1 h2 _ a r h
    obtain ⟨c', s1, e1, _, e2⟩ := run s h1 h2
    obtain ⟨rfl, rfl⟩ := e2 _ _ h
    exact ⟨s1, e1, rfl⟩
  · clear run inv
    intro ts a r h
    induction h with
    | semicolon _ ih => simp only [List.length_cons] at *; omega
    | comment _ ih => simp only [List.length_cons] at *; omega
    | stop => simp
    | source => simp

end Sadl
