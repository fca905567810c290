import Verif.Spec.Options
import Verif.Props.Literals
import Verif.Props.Accepted
import Verif.Lemmas.ParserPost
/-
C30: options.
-/
namespace Sadl.Props
open Sadl Sadl.Spec

/-! ### Completeness: every option list is read -/

theorem run_identifier {s : TState} {x : String} {ts : List Token} {Q : String → TState → Prop} (h : At s (⟨.symbol, x⟩ :: ts))
    (hq : ∀ s', At s' ts → Q x s') : Run expectIdentifier s Q := by
  unfold expectIdentifier
  refine run_bind (run_next h (fun s' hs' => ?_))
  simp only [if_true]
  exact run_pure (hq s' hs'.at')

theorem run_string {s : TState} {x : String} {ts : List Token} {Q : String → TState → Prop} (h : At s (⟨.string, x⟩ :: ts))
    (hq : ∀ s', At s' ts → Q x s') : Run expectString s Q := by
  unfold expectString
  refine run_bind (run_next h (fun s' hs' => ?_))
  simp only [if_true]
  exact run_pure (hq s' hs'.at')

theorem run_int {bits : Nat} {s : TState} {x : String} {n : Int} {ts : List Token} {Q : Int → TState → Prop}
    (h : At s (⟨.number, x⟩ :: ts)) (hn : parseInt bits x = some n) (hq : ∀ s', At s' ts → Q n s') : Run (expectInt bits) s Q := by
  unfold expectInt
  refine run_bind (run_next h (fun s' hs' => ?_))
  simp only [if_true, hn]
  exact run_pure (hq s' hs'.at')

theorem run_number {lib : PLib} {s : TState} {x : String} {d : BigFloat} {ts : List Token} {Q : BigFloat → TState → Prop}
    (h : At s (⟨.number, x⟩ :: ts)) (hn : lib.parseDecimal x = some d) (hq : ∀ s', At s' ts → Q d s') :
    Run (expectNumber lib) s Q := by
  unfold expectNumber
  refine run_bind (run_next h (fun s' hs' => ?_))
  simp only [if_true, hn]
  exact run_pure (hq s' hs'.at')

theorem run_strItems {ts : List Token} {vs : List String} (h : StrItems ts vs) : ∀ (s : TState) (rest : List Token)
    (acc : List String), At s (ts ++ rest) →
    Run (P.loop stringArrayStep acc) s (fun a s' => a = acc ++ vs ∧ At s' rest) := by
  induction h with
  | close =>
    intro s rest acc hA
    refine run_loop_done ?_
    unfold stringArrayStep
    refine run_bind (run_next hA (fun s' hs' => ?_))
    simp only [if_true]
    exact run_pure ⟨_, rfl, by simp, hs'.at'⟩
  | @sep t ts vs ht _ ih =>
    intro s rest acc hA
    refine run_loop_again hA ?_
    unfold stringArrayStep
    refine run_bind (run_next hA (fun s' hs' => ?_))
    have h1 : t.type ≠ .closeBracket := by rcases ht with h | h <;> simp [h]
    have h2 : t.type ≠ .string := by rcases ht with h | h <;> simp [h]
    simp only [h1, h2, if_false, ht, if_true]
    exact run_pure ⟨_, _, rfl, hs'.at', by simp, ih s' rest acc hs'.at'⟩
  | @item v ts vs _ ih =>
    intro s rest acc hA
    refine run_loop_again hA ?_
    unfold stringArrayStep
    refine run_bind (run_next hA (fun s' hs' => ?_))
    simp only [reduceCtorEq, if_false, if_true]
    refine run_pure ⟨_, _, rfl, hs'.at', by simp, ?_⟩
    exact run_mono (ih s' rest (acc ++ [v]) hs'.at') (fun a s2 h => ⟨by simpa using h.1, h.2⟩)

theorem run_optArg {lib : PLib} {name : String} {args : List Token} {o o' : Options}
    (h : OptArg lib (AnyLit lib) name args o o') {s : TState} {rest : List Token} (hA : At s (args ++ rest)) :
    Run (parseOption lib o name) s (fun a s' => a = o' ∧ At s' rest) := by
  cases h with
  | required => exact run_pure ⟨rfl, hA⟩
  | min h | max h =>
    unfold parseOption expectEqualsNumber
    exact run_bind (run_bind (run_expect hA rfl (fun s1 h1 => run_number h1.at' h (fun s2 h2 => run_pure ⟨rfl, h2⟩))))
  | minsize h | maxsize h =>
    unfold parseOption expectEqualsInt64
    exact run_bind (run_bind (run_expect hA rfl (fun s1 h1 => run_int h1.at' h (fun s2 h2 => run_pure ⟨rfl, h2⟩))))
  | pattern | header =>
    unfold parseOption expectEqualsString
    exact run_bind (run_bind (run_expect hA rfl (fun s1 h1 => run_string h1.at' (fun s2 h2 => run_pure ⟨rfl, h2⟩))))
  | action | operation | resource | reference | name =>
    unfold parseOption expectEqualsIdentifier
    exact run_bind (run_bind (run_expect hA rfl (fun s1 h1 => run_identifier h1.at' (fun s2 h2 => run_pure ⟨rfl, h2⟩))))
  | default h =>
    unfold parseOption parseEqualsLiteral
    refine run_bind (run_bind (run_expect hA rfl (fun s1 h1 => ?_)))
    exact run_mono (run_literalValue h h1.at') (fun a s2 h2 => run_pure ⟨by rw [h2.1], h2.2⟩)
  | values h =>
    unfold parseOption expectEqualsStringArray
    refine run_bind (run_bind (run_next hA (fun s1 h1 => ?_)))
    simp only [ne_eq, not_true, if_false]
    refine run_bind (run_next h1.at' (fun s2 h2 => ?_))
    simp only [not_true, if_false]
    refine run_bind (run_mono (run_strItems h s2 rest [] h2.at') ?_)
    rintro a s3 ⟨rfl, h3⟩
    exact run_pure (run_pure ⟨by simp, h3⟩)

theorem optItems_head {lib : PLib} {L : List Token → Value → Prop} {acc : List String} {ts : List Token} {o o' : Options}
    (h : OptItems lib L acc ts o o') : ts = [] ∨ ∃ t r, ts = t :: r ∧ t.type ≠ .equals := by
  cases h with
  | nil => exact .inl rfl
  | comma => exact .inr ⟨_, _, rfl, by simp⟩
  | flag => exact .inr ⟨_, _, rfl, by simp⟩
  | anno => exact .inr ⟨_, _, rfl, by simp⟩
  | opt => exact .inr ⟨_, _, by rw [List.cons_append], by simp⟩

/-- One round of a loop that goes on, having read at least one token: the result is that of
the rest of the loop. -/
theorem loop_again_eq {α σ : Type} {body : σ → P (σ ⊕ α)} {x y : σ} {s s' : TState} {ts ts' : List Token} (h : At s ts)
    (h1 : body x s = .ok (.inl y) s') (h2 : At s' ts') (hl : ts'.length < ts.length) (hh : P.loop body y s' ≠ .hang) :
    P.loop body x s = P.loop body y s' := by
  have e : s.size = (s'.size + 1) + (s.size - (s'.size + 1)) := by rw [h.size, h2.size]; omega
  unfold P.loop at hh ⊢
  conv_lhs => unfold P.loopN
  rw [bind_ok h1]
  simp only
  rw [e, loopN_mono body _ _ y s' hh]

/-- After options, the loop goes on with what follows them. -/
theorem optItems_prefix {lib : PLib} {acc : List String} {ts : List Token} {o o' : Options}
    (h : OptItems lib (AnyLit lib) acc ts o o') : ∀ (s : TState) (t : Token) (rest : List Token),
    At s (ts ++ t :: rest) → t.type ≠ .equals → ∃ s', At s' (t :: rest) ∧
      (P.loop (optionsStep lib acc) o' s' ≠ .hang →
        P.loop (optionsStep lib acc) o s = P.loop (optionsStep lib acc) o' s') := by
  have step : ∀ {o1 o2 o' : Options} {s : TState} {us us' : List Token} {t : Token} {rest : List Token},
      At s us → Run (optionsStep lib acc o1) s (fun r s1 => r = .inl o2 ∧ At s1 us') → us'.length < us.length →
      (∀ s1, At s1 us' → ∃ s', At s' (t :: rest) ∧ (P.loop (optionsStep lib acc) o' s' ≠ .hang →
        P.loop (optionsStep lib acc) o2 s1 = P.loop (optionsStep lib acc) o' s')) →
      ∃ s', At s' (t :: rest) ∧ (P.loop (optionsStep lib acc) o' s' ≠ .hang →
        P.loop (optionsStep lib acc) o1 s = P.loop (optionsStep lib acc) o' s') := by
    intro o1 o2 o' s us us' t rest h0 ⟨r, s1, h1, h2, h3⟩ hl hc
    subst h2
    obtain ⟨s', h4, h5⟩ := hc s1 h3
    refine ⟨s', h4, fun hh => ?_⟩
    rw [loop_again_eq h0 h1 h3 hl (by rw [h5 hh]; exact hh), h5 hh]
  induction h with
  | nil => intro s t rest hA _; exact ⟨s, hA, fun _ => rfl⟩
  | @comma x ts o o' _ ih =>
    intro s t rest hA ht
    refine step (us' := ts ++ t :: rest) hA ?_ (by simp) (fun s1 h1 => ih s1 t rest h1 ht)
    unfold optionsStep
    refine run_bind (run_get hA (fun s' hs' => ?_))
    simp only [reduceCtorEq, if_true, if_false]
    exact run_pure ⟨rfl, hs'.at'⟩
  | @flag name ts o o' hx hi ih =>
    intro s t rest hA ht
    refine step (us' := ts ++ t :: rest) hA ?_ (by simp) (fun s1 h1 => ih s1 t rest h1 ht)
    unfold optionsStep
    refine run_bind (run_get hA (fun s' hs' => ?_))
    simp only [reduceCtorEq, if_true, if_false, hx]
    have hh : ∃ t' r, ts ++ t :: rest = t' :: r ∧ t'.type ≠ .equals := by
      rcases optItems_head hi with rfl | ⟨t', r, rfl, ht'⟩
      · exact ⟨_, _, rfl, ht⟩
      · exact ⟨t', _, by rw [List.cons_append], ht'⟩
    obtain ⟨t', r, e, ht'⟩ := hh
    have hA' : At s' (t' :: r) := by rw [← e]; exact hs'.at'
    unfold parseExtendedOption
    refine run_bind (run_bind (run_next hA' (fun s2 h2 => ?_)))
    simp only [ht', if_false]
    refine run_bind (run_unget h2 (fun s3 h3 => run_pure (run_pure ?_)))
    rw [← e] at h3
    exact ⟨rfl, h3⟩
  | @anno name x v ts o o' hx hi ih =>
    intro s t rest hA ht
    refine step (us' := ts ++ t :: rest) hA ?_ (by simp; omega) (fun s1 h1 => ih s1 t rest h1 ht)
    unfold optionsStep
    refine run_bind (run_get hA (fun s' hs' => ?_))
    simp only [reduceCtorEq, if_true, if_false, hx]
    unfold parseExtendedOption
    refine run_bind (run_bind (run_next hs'.at' (fun s2 h2 => ?_)))
    simp only [if_true]
    exact run_bind (run_string h2.at' (fun s3 h3 => run_pure (run_pure ⟨rfl, h3⟩)))
  | @opt name args ts o o1 o' hx hm ha hi ih =>
    intro s t rest hA ht
    rw [List.cons_append, List.cons_append, List.append_assoc] at hA
    refine step (us' := ts ++ t :: rest) hA ?_ (by simp; omega) (fun s1 h1 => ih s1 t rest h1 ht)
    unfold optionsStep
    refine run_bind (run_get hA (fun s' hs' => ?_))
    simp only [reduceCtorEq, if_true, if_false, hx, hm, Bool.false_eq_true]
    refine run_bind (run_mono (run_optArg ha hs'.at') ?_)
    rintro a s2 ⟨rfl, h2⟩
    exact run_pure ⟨rfl, h2⟩

theorem run_optItems {lib : PLib} {acc : List String} {ts : List Token} {o o' : Options}
    (h : OptItems lib (AnyLit lib) acc ts o o') (s : TState) (y : String) (rest : List Token)
    (hA : At s (ts ++ ⟨.closeParen, y⟩ :: rest)) :
    Run (P.loop (optionsStep lib acc) o) s (fun a s' => a = o' ∧ At s' rest) := by
  obtain ⟨s1, h1, h2⟩ := optItems_prefix h s _ rest hA (by simp)
  have key : Run (P.loop (optionsStep lib acc) o') s1 (fun a s' => a = o' ∧ At s' rest) := by
    refine run_loop_done ?_
    unfold optionsStep
    refine run_bind (run_get h1 (fun s' hs' => ?_))
    simp only [if_true]
    exact run_pure ⟨_, rfl, rfl, hs'.at'⟩
  obtain ⟨a, s', h3, h4⟩ := key
  exact ⟨a, s', by rw [h2 (by rw [h3]; simp), h3], h4⟩

/-- Reading an option list, followed by `rest`; without a list `rest` must not begin with an
opening parenthesis. -/
theorem run_options {lib : PLib} {acc : List String} {ts rest : List Token} {o : Options}
    (h : OptList lib (AnyLit lib) acc ts o) (hr : ts = [] → ∀ t ∈ rest.head?, t.type ≠ .openParen)
    {s : TState} (hA : At s (ts ++ rest)) : Run (parseOptions lib acc) s (fun a s' => a = o ∧ At s' rest) := by
  unfold parseOptions
  rcases h with ⟨rfl, rfl⟩ | ⟨x, y, items, rfl, hi⟩
  · cases rest with
    | nil => exact run_bind (run_get_end hA (fun s' hs' => run_pure ⟨rfl, hs'⟩))
    | cons t r =>
      refine run_bind (run_get hA (fun s' hs' => ?_))
      simp only [hr rfl t (by simp), if_false]
      exact run_bind (run_unget hs' (fun s2 h2 => run_pure ⟨rfl, h2⟩))
  · have hA' : At s (⟨.openParen, x⟩ :: (items ++ ⟨.closeParen, y⟩ :: rest)) := by simpa using hA
    refine run_bind (run_get hA' (fun s' hs' => ?_))
    simp only [if_true]
    exact run_optItems hi s' y rest hs'.at'

/-! ### Soundness: nothing else is read -/

theorem eats_string : Eats expectString (fun ts a => ts = [⟨.string, a⟩]) := by
  unfold expectString
  refine eats_next (fun t => eatsGot_keep (eats_ite (fun h => eats_pure ?_) (fun _ => eats_fail)))
  obtain ⟨ty, tx⟩ := t; simp only at h; subst h; rfl

theorem eats_identifier : Eats expectIdentifier (fun ts a => ts = [⟨.symbol, a⟩]) := by
  unfold expectIdentifier
  refine eats_next (fun t => eatsGot_keep (eats_ite (fun h => eats_pure ?_) (fun _ => eats_fail)))
  obtain ⟨ty, tx⟩ := t; simp only at h; subst h; rfl

theorem eats_int (bits : Nat) : Eats (expectInt bits) (fun ts a => ∃ x, ts = [⟨.number, x⟩] ∧ parseInt bits x = some a) := by
  unfold expectInt
  refine eats_next (fun t => eatsGot_keep (eats_ite (fun h => ?_) (fun _ => eats_fail)))
  obtain ⟨ty, tx⟩ := t; simp only at h; subst h
  split
  · rename_i n hn; exact eats_pure ⟨tx, rfl, hn⟩
  · exact eats_fail

theorem eats_number (lib : PLib) : Eats (expectNumber lib) (fun ts a => ∃ x, ts = [⟨.number, x⟩] ∧ lib.parseDecimal x = some a) := by
  unfold expectNumber
  refine eats_next (fun t => eatsGot_keep (eats_ite (fun h => ?_) (fun _ => eats_fail)))
  obtain ⟨ty, tx⟩ := t; simp only at h; subst h
  split
  · rename_i n hn; exact eats_pure ⟨tx, rfl, hn⟩
  · exact eats_fail

theorem eats_strItems : Eats (P.loop stringArrayStep []) StrItems := by
  refine eats_loop (I := fun ts acc => ∀ ts' vs, StrItems ts' vs → StrItems (ts ++ ts') (acc ++ vs)) (by simp) ?_
  intro ts acc hI
  unfold stringArrayStep
  refine eats_next (fun t => eatsGot_keep ?_)
  refine eats_ite (fun h1 => eats_pure ?_) (fun h1 => eats_ite (fun h2 => eats_pure ?_) (fun h2 => eats_ite (fun h3 => eats_pure ?_) (fun _ => eats_fail)))
  · obtain ⟨ty, tx⟩ := t; simp only at h1; subst h1
    simpa using hI _ _ (.close (x := tx))
  · obtain ⟨ty, tx⟩ := t; simp only at h2; subst h2
    intro ts' vs h
    simpa using hI _ _ (.item (v := tx) h)
  · intro ts' vs h
    simpa using hI _ _ (.sep h3 h)

theorem eats_option (lib : PLib) (o : Options) (name : String) :
    Eats (parseOption lib o name) (fun ts o' => OptArg lib (AnyLit lib) name ts o o') := by
  unfold parseOption
  split
  · unfold expectEqualsNumber
    refine eats_bind (eats_bind (eats_expect _) (R := fun ts v => ∃ x t, ts = [⟨.equals, x⟩, ⟨.number, t⟩] ∧ lib.parseDecimal t = some v) ?_) ?_
    · rintro _ _ ⟨x, rfl⟩; exact eats_mono (eats_number lib) (fun ts a ⟨t, e, h⟩ => ⟨x, t, by rw [e]; rfl, h⟩)
    · rintro _ v ⟨x, t, rfl, h⟩; exact eats_pure (.min h)
  · unfold expectEqualsNumber
    refine eats_bind (eats_bind (eats_expect _) (R := fun ts v => ∃ x t, ts = [⟨.equals, x⟩, ⟨.number, t⟩] ∧ lib.parseDecimal t = some v) ?_) ?_
    · rintro _ _ ⟨x, rfl⟩; exact eats_mono (eats_number lib) (fun ts a ⟨t, e, h⟩ => ⟨x, t, by rw [e]; rfl, h⟩)
    · rintro _ v ⟨x, t, rfl, h⟩; exact eats_pure (.max h)
  · unfold expectEqualsInt64
    refine eats_bind (eats_bind (eats_expect _) (R := fun ts v => ∃ x t, ts = [⟨.equals, x⟩, ⟨.number, t⟩] ∧ parseInt 64 t = some v) ?_) ?_
    · rintro _ _ ⟨x, rfl⟩; exact eats_mono (eats_int 64) (fun ts a ⟨t, e, h⟩ => ⟨x, t, by rw [e]; rfl, h⟩)
    · rintro _ v ⟨x, t, rfl, h⟩; exact eats_pure (.minsize h)
  · unfold expectEqualsInt64
    refine eats_bind (eats_bind (eats_expect _) (R := fun ts v => ∃ x t, ts = [⟨.equals, x⟩, ⟨.number, t⟩] ∧ parseInt 64 t = some v) ?_) ?_
    · rintro _ _ ⟨x, rfl⟩; exact eats_mono (eats_int 64) (fun ts a ⟨t, e, h⟩ => ⟨x, t, by rw [e]; rfl, h⟩)
    · rintro _ v ⟨x, t, rfl, h⟩; exact eats_pure (.maxsize h)
  · unfold expectEqualsString
    refine eats_bind (eats_bind (eats_expect _) (R := fun ts v => ∃ x, ts = [⟨.equals, x⟩, ⟨.string, v⟩]) ?_) ?_
    · rintro _ _ ⟨x, rfl⟩; exact eats_mono eats_string (fun ts a e => ⟨x, by rw [e]; rfl⟩)
    · rintro _ v ⟨x, rfl⟩; exact eats_pure .pattern
  · unfold expectEqualsStringArray
    refine eats_bind (R1 := fun ts v => ∃ x y us vs, ts = ⟨.equals, x⟩ :: ⟨.openBracket, y⟩ :: us ∧ StrItems us vs ∧ v = if vs = [] then none else some vs) ?_ ?_
    · refine eats_next (fun t => eatsGot_keep (eats_ite (fun _ => eats_fail) (fun h => ?_)))
      refine eats_next (fun t2 => eatsGot_keep (eats_ite (fun _ => eats_fail) (fun h2 => ?_)))
      obtain ⟨ty, x⟩ := t; obtain ⟨ty2, y⟩ := t2
      simp only [ne_eq, not_not] at h h2
      subst h h2
      exact eats_bind eats_strItems (fun us vs hu => eats_pure ⟨x, y, us, vs, by simp, hu, rfl⟩)
    · rintro _ _ ⟨x, y, us, vs, rfl, hu, rfl⟩
      exact eats_pure (by simpa using OptArg.values hu)
  · exact eats_pure .required
  · unfold parseEqualsLiteral
    refine eats_bind (eats_bind (eats_expect _) (R := fun ts v => ∃ x us, ts = ⟨.equals, x⟩ :: us ∧ AnyLit lib us v) ?_) ?_
    · rintro _ _ ⟨x, rfl⟩; exact eats_mono (eats_literalValue lib) (fun ts a h => ⟨x, ts, rfl, h⟩)
    · rintro _ v ⟨x, us, rfl, h⟩; exact eats_pure (by simpa using OptArg.default h)
  · unfold expectEqualsIdentifier
    refine eats_bind (eats_bind (eats_expect _) (R := fun ts v => ∃ x, ts = [⟨.equals, x⟩, ⟨.symbol, v⟩]) ?_) ?_
    · rintro _ _ ⟨x, rfl⟩; exact eats_mono eats_identifier (fun ts a e => ⟨x, by rw [e]; rfl⟩)
    · rintro _ v ⟨x, rfl⟩; exact eats_pure .action
  · unfold expectEqualsIdentifier
    refine eats_bind (eats_bind (eats_expect _) (R := fun ts v => ∃ x, ts = [⟨.equals, x⟩, ⟨.symbol, v⟩]) ?_) ?_
    · rintro _ _ ⟨x, rfl⟩; exact eats_mono eats_identifier (fun ts a e => ⟨x, by rw [e]; rfl⟩)
    · rintro _ v ⟨x, rfl⟩; exact eats_pure .operation
  · unfold expectEqualsIdentifier
    refine eats_bind (eats_bind (eats_expect _) (R := fun ts v => ∃ x, ts = [⟨.equals, x⟩, ⟨.symbol, v⟩]) ?_) ?_
    · rintro _ _ ⟨x, rfl⟩; exact eats_mono eats_identifier (fun ts a e => ⟨x, by rw [e]; rfl⟩)
    · rintro _ v ⟨x, rfl⟩; exact eats_pure .resource
  · unfold expectEqualsIdentifier
    refine eats_bind (eats_bind (eats_expect _) (R := fun ts v => ∃ x, ts = [⟨.equals, x⟩, ⟨.symbol, v⟩]) ?_) ?_
    · rintro _ _ ⟨x, rfl⟩; exact eats_mono eats_identifier (fun ts a e => ⟨x, by rw [e]; rfl⟩)
    · rintro _ v ⟨x, rfl⟩; exact eats_pure .reference
  · unfold expectEqualsString
    refine eats_bind (eats_bind (eats_expect _) (R := fun ts v => ∃ x, ts = [⟨.equals, x⟩, ⟨.string, v⟩]) ?_) ?_
    · rintro _ _ ⟨x, rfl⟩; exact eats_mono eats_string (fun ts a e => ⟨x, by rw [e]; rfl⟩)
    · rintro _ v ⟨x, rfl⟩; exact eats_pure .header
  · unfold expectEqualsIdentifier
    refine eats_bind (eats_bind (eats_expect _) (R := fun ts v => ∃ x, ts = [⟨.equals, x⟩, ⟨.symbol, v⟩]) ?_) ?_
    · rintro _ _ ⟨x, rfl⟩; exact eats_mono eats_identifier (fun ts a e => ⟨x, by rw [e]; rfl⟩)
    · rintro _ v ⟨x, rfl⟩; exact eats_pure .name
  · exact eats_fail

theorem OptItems.append {lib : PLib} {L : List Token → Value → Prop} {acc : List String} {ts ts' : List Token} {o o1 o' : Options}
    (h : OptItems lib L acc ts o o1) (h' : OptItems lib L acc ts' o1 o') : OptItems lib L acc (ts ++ ts') o o' := by
  induction h with
  | nil => exact h'
  | comma _ ih => exact .comma (ih h')
  | flag hx _ ih => exact .flag hx (ih h')
  | anno hx _ ih => exact .anno hx (ih h')
  | opt hx hm ha _ ih => rw [List.append_assoc]; exact .opt hx hm ha (ih h')

theorem eats_optItems (lib : PLib) (acc : List String) : Eats (P.loop (optionsStep lib acc) {})
    (fun ts o => ∃ y items, ts = items ++ [⟨.closeParen, y⟩] ∧ OptItems lib (AnyLit lib) acc items {} o) := by
  refine eats_loop (I := fun ts o => OptItems lib (AnyLit lib) acc ts {} o) .nil ?_
  intro ts o hI
  unfold optionsStep
  refine eats_get eats_fail (fun t => eatsGot_keep ?_)
  refine eats_ite (fun h1 => eats_pure ?_) (fun h1 => eats_ite (fun h2 => ?_) (fun h2 => eats_ite (fun h3 => eats_pure ?_) (fun _ => eats_fail)))
  · obtain ⟨ty, y⟩ := t; simp only at h1; subst h1
    exact ⟨y, ts, rfl, hI⟩
  · obtain ⟨ty, name⟩ := t; simp only at h2; subst h2
    refine eats_ite (fun hx => ?_) (fun hx => eats_ite (fun hm => ?_) (fun _ => eats_fail))
    · unfold parseExtendedOption
      refine eats_bind (R1 := fun us a => (us = [] ∧ a = mset o.annotations name "") ∨
        ∃ x v, us = [⟨.equals, x⟩, ⟨.string, v⟩] ∧ a = mset o.annotations name v) ?_ ?_
      · refine eats_next (fun t2 => eatsGot_ite (fun he => eatsGot_keep ?_) (fun he => eatsGot_unget (eats_pure (.inl ⟨rfl, rfl⟩))))
        refine eats_bind eats_string ?_
        rintro _ v rfl
        obtain ⟨ty, x⟩ := t2; simp only at he; subst he
        exact eats_pure (.inr ⟨x, v, rfl, rfl⟩)
      · rintro us a (⟨rfl, rfl⟩ | ⟨x, v, rfl, rfl⟩)
        · exact eats_pure (OptItems.append hI (.flag hx .nil))
        · exact eats_pure (OptItems.append hI (.anno hx .nil))
    · refine eats_bind (eats_option lib o _) ?_
      intro us o' ho
      refine eats_pure ?_
      simpa using OptItems.append hI (.opt (by simpa using hx) hm ho .nil)
  · obtain ⟨ty, x⟩ := t; simp only at h3; subst h3
    exact OptItems.append hI (.comma .nil)

theorem eats_options (lib : PLib) (acc : List String) : Eats (parseOptions lib acc) (OptList lib (AnyLit lib) acc) := by
  unfold parseOptions
  refine eats_get (eats_pure (.inl ⟨rfl, rfl⟩)) (fun t => eatsGot_ite (fun h => eatsGot_keep ?_) (fun h => eatsGot_unget (eats_pure (.inl ⟨rfl, rfl⟩))))
  obtain ⟨ty, x⟩ := t; simp only at h; subst h
  refine eats_mono (eats_optItems lib acc) ?_
  rintro ts o ⟨y, items, rfl, hi⟩
  exact .inr ⟨x, y, items, rfl, hi⟩

theorem OptArg.mono {lib : PLib} {L L' : List Token → Value → Prop} (hL : ∀ ts v, L ts v → L' ts v) {name : String}
    {args : List Token} {o o' : Options} (h : OptArg lib L name args o o') : OptArg lib L' name args o o' := by
  cases h with
  | min h => exact .min h
  | max h => exact .max h
  | minsize h => exact .minsize h
  | maxsize h => exact .maxsize h
  | pattern => exact .pattern
  | values h => exact .values h
  | required => exact .required
  | default h => exact .default (hL _ _ h)
  | action => exact .action
  | operation => exact .operation
  | resource => exact .resource
  | reference => exact .reference
  | header => exact .header
  | name => exact .name

theorem OptItems.mono {lib : PLib} {L L' : List Token → Value → Prop} (hL : ∀ ts v, L ts v → L' ts v) {acc : List String}
    {ts : List Token} {o o' : Options} (h : OptItems lib L acc ts o o') : OptItems lib L' acc ts o o' := by
  induction h with
  | nil => exact .nil
  | comma _ ih => exact .comma ih
  | flag hx _ ih => exact .flag hx ih
  | anno hx _ ih => exact .anno hx ih
  | opt hx hm ha _ ih => exact .opt hx hm (OptArg.mono hL ha) ih

theorem OptList.mono {lib : PLib} {L L' : List Token → Value → Prop} (hL : ∀ ts v, L ts v → L' ts v) {acc : List String}
    {ts : List Token} {o : Options} (h : OptList lib L acc ts o) : OptList lib L' acc ts o := by
  rcases h with h | ⟨x, y, items, e, hi⟩
  · exact .inl h
  · exact .inr ⟨x, y, items, e, OptItems.mono hL hi⟩

/-! ### What the options of a definition can be -/

/-- Only acceptable options are set. -/
structure Only (acc : List String) (o : Options) : Prop where
  min : o.min ≠ none → "min" ∈ acc
  max : o.max ≠ none → "max" ∈ acc
  minsize : o.minSize ≠ none → "minsize" ∈ acc
  maxsize : o.maxSize ≠ none → "maxsize" ∈ acc
  pattern : o.pattern ≠ "" → "pattern" ∈ acc
  values : o.values ≠ none → "values" ∈ acc
  reference : o.reference ≠ "" → "reference" ∈ acc

theorem only_nothing (acc : List String) : Only acc {} := by constructor <;> simp

theorem only_items {lib : PLib} {L : List Token → Value → Prop} {acc : List String} {ts : List Token} {o o' : Options}
    (h : OptItems lib L acc ts o o') (h0 : Only acc o) : Only acc o' := by
  induction h with
  | nil => exact h0
  | comma _ ih => exact ih h0
  | flag hx _ ih => exact ih ⟨h0.1, h0.2, h0.3, h0.4, h0.5, h0.6, h0.7⟩
  | anno hx _ ih => exact ih ⟨h0.1, h0.2, h0.3, h0.4, h0.5, h0.6, h0.7⟩
  | @opt name args ts o o1 o' hx hm ha _ ih =>
    refine ih ?_
    generalize lowerS name = n at hm ha
    cases ha with
    | min => exact ⟨fun _ => hm, h0.2, h0.3, h0.4, h0.5, h0.6, h0.7⟩
    | max => exact ⟨h0.1, fun _ => hm, h0.3, h0.4, h0.5, h0.6, h0.7⟩
    | minsize => exact ⟨h0.1, h0.2, fun _ => hm, h0.4, h0.5, h0.6, h0.7⟩
    | maxsize => exact ⟨h0.1, h0.2, h0.3, fun _ => hm, h0.5, h0.6, h0.7⟩
    | pattern => exact ⟨h0.1, h0.2, h0.3, h0.4, fun _ => hm, h0.6, h0.7⟩
    | values => exact ⟨h0.1, h0.2, h0.3, h0.4, h0.5, fun _ => hm, h0.7⟩
    | reference => exact ⟨h0.1, h0.2, h0.3, h0.4, h0.5, h0.6, fun _ => hm⟩
    | _ => exact ⟨h0.1, h0.2, h0.3, h0.4, h0.5, h0.6, h0.7⟩

theorem ret_only (lib : PLib) (acc : List String) : Ret (parseOptions lib acc) (Only acc) := by
  intro s o s' h
  obtain ⟨ts, _, h | ⟨x, y, items, _, hi⟩⟩ := eats_options lib acc s o s' h
  · rw [h.2]; exact only_nothing acc
  · exact only_items hi (only_nothing acc)

theorem only_nil {o : Options} (h : Only [] o) : o.min = none ∧ o.max = none ∧ o.minSize = none ∧ o.maxSize = none ∧
    o.pattern = "" ∧ o.values = none ∧ o.reference = "" := by
  refine ⟨?_, ?_, ?_, ?_, ?_, ?_, ?_⟩ <;> by_contra hc
  · simpa using h.min hc
  · simpa using h.max hc
  · simpa using h.minsize hc
  · simpa using h.maxsize hc
  · simpa using h.pattern hc
  · simpa using h.values hc
  · simpa using h.reference hc

/-- A type with exactly the given options. -/
def withOptions (ts : TypeSpec) (o : Options) : TypeSpec :=
  { ts with pattern := o.pattern, values := o.values, minSize := o.minSize,
            maxSize := o.maxSize, min := o.min, max := o.max, reference := o.reference }

/-- Options acceptable for a type of the given name suit it. -/
structure Matches (acc : List String) (type : String) : Prop where
  min : "min" ∈ acc ∨ "max" ∈ acc → type ∈ numericTypes
  size : "minsize" ∈ acc ∨ "maxsize" ∈ acc → type ∈ sizedTypes
  pattern : "pattern" ∈ acc → type = "String"
  values : "values" ∈ acc → type = "String"
  reference : "reference" ∈ acc → type = "String" ∨ type = "UUID"

theorem suits_of {acc : List String} {ts : TypeSpec} {o : Options} (h1 : Matches acc ts.type) (h2 : Only acc o) :
    Suits (withOptions ts o) := by
  constructor
  · rintro (h | h)
    · exact h1.min (.inl (h2.min h))
    · exact h1.min (.inr (h2.max h))
  · rintro (h | h)
    · exact h1.size (.inl (h2.minsize h))
    · exact h1.size (.inr (h2.maxsize h))
  · exact fun h => h1.pattern (h2.pattern h)
  · exact fun h => .inl (h1.values (h2.values h))
  · exact fun h => h1.reference (h2.reference h)

theorem matches_nil (type : String) : Matches [] type := by constructor <;> simp

theorem matches_field (type : String) : Matches (fieldOptions type) type := by
  unfold fieldOptions
  split <;> constructor <;> simp [numericTypes, sizedTypes]

/-- The fields found by the type parser suit. -/
def SuitFields (fs : List StructFieldDef) : Prop := ∀ f ∈ fs, SuitsAll f.ts

theorem ret_specOfElems (e : Elems) : Ret (specOfElems e) (fun ts => ts.fields = e.fields) := by
  unfold specOfElems
  split
  · exact ret_bind' (fun _ => ret_pure rfl)
  · exact ret_bind' (fun _ => ret_pure rfl)
  · exact ret_bind' (fun _ => ret_pure rfl)
  · exact ret_bind' (fun _ => ret_pure rfl)
  · exact ret_ite (fun _ => ret_syntaxError) (fun _ => ret_pure rfl)

theorem ret_suit_field (lib : PLib) (recur : P Elems) (hr : Ret recur (fun e => SuitFields e.fields)) :
    Ret (parseStructFieldDef lib recur) (fun r => ∀ f, r = some f → SuitsAll f.ts) := by
  unfold parseStructFieldDef
  refine ret_bind' (fun r => ?_)
  cases r with
  | none => exact ret_pure (by simp)
  | some comment =>
    refine ret_bind' (fun fname => ret_bind (Q1 := fun r => SuitFields r.1.fields) ?_ (fun r hr => ?_))
    · unfold parseTypeSpecWith
      refine ret_bind hr (fun e he => ret_bind (ret_specOfElems e) (fun ts hts => ret_pure ?_))
      show SuitFields ts.fields
      rw [hts]; exact he
    · refine ret_bind (ret_only lib _) (fun o ho => ret_bind' (fun r2 => ret_pure ?_))
      intro f hf
      injection hf with hf
      subst hf
      exact .mk (suits_of (matches_field _) ho) hr

theorem ret_suit_braces (lib : PLib) (recur : P Elems) (hr : Ret recur (fun e => SuitFields e.fields)) (tn : String) (o : Options) :
    Ret (parseBraces lib recur tn o) (fun e => SuitFields e.fields) := by
  unfold parseBraces
  refine ret_bind' (fun c => ret_ite (fun _ => ?_) (fun _ => ?_))
  · refine ret_bind' (fun _ => ?_)
    refine ret_bind (Q1 := SuitFields) ?_ (fun fs hfs => ret_bind' (fun _ => ret_bind' (fun _ => ret_pure hfs)))
    refine ret_loop (I := SuitFields) (by simp [SuitFields]) ?_
    intro fs hfs
    unfold fieldsStep
    refine ret_bind (ret_suit_field lib recur hr) (fun r hr => ?_)
    cases r with
    | none => exact ret_pure hfs
    | some f => exact ret_pure (forall_append_one hfs (hr f rfl))
  · refine ret_bind' (fun _ => ret_bind' (fun _ => ret_bind' (fun _ => ret_bind' (fun _ => ret_pure ?_))))
    simp [SuitFields]

theorem ret_suit_elements (lib : PLib) : Ret (parseTypeSpecElements lib) (fun e => SuitFields e.fields) := by
  refine ret_recursion (fun n => ?_)
  induction n with
  | zero => exact ret_hang
  | succ n ih =>
    unfold typeSpecElementsN typeSpecElementsStep
    refine ret_bind' (fun tn => ret_bind' (fun t => ?_))
    cases t with
    | none => exact ret_pure (by simp [SuitFields])
    | some t =>
      refine ret_ite (fun _ => ?_) (fun _ => ?_)
      · split
        · exact ret_syntaxError
        · exact ret_bind' (fun _ => ret_pure (by simp [SuitFields]))
      · refine ret_ite (fun _ => ?_) (fun _ => ret_bind' (fun _ => ret_pure (by simp [SuitFields])))
        refine ret_ite (fun _ => ?_) (fun _ => ret_suit_braces lib _ ih _ _)
        refine ret_bind' (fun _ => ret_bind' (fun o => ret_bind' (fun t' => ?_)))
        refine ret_ite (fun _ => ret_suit_braces lib _ ih _ _) (fun _ => ret_bind' (fun _ => ret_pure (by simp [SuitFields])))

theorem ret_suit_options (lib : PLib) (td : TypeDef) (acc : List String) :
    Ret (parseTypeOptions lib td acc) (fun td' => ∃ o, Only acc o ∧ td'.ts = withOptions td.ts o) := by
  unfold parseTypeOptions
  exact ret_bind (ret_only lib acc) (fun o ho => ret_pure ⟨o, ho, rfl⟩)

theorem ret_suit_simple (lib : PLib) (td : TypeDef) (acc : List String) :
    Ret (parseSimpleDef lib td acc) (fun td' => ∃ o, Only acc o ∧ td'.ts = withOptions td.ts o) := by
  unfold parseSimpleDef
  exact ret_bind (ret_suit_options lib td acc) (fun td' h => ret_bind' (fun c => ret_pure h))

theorem ret_suit_type (lib : PLib) (c : String) : Ret (parseTypeDirective lib c) (fun td => SuitsAll td.ts) := by
  have key : ∀ {acc : List String} {ts : TypeSpec}, Matches acc ts.type → ts.fields = [] →
      ∀ td : TypeDef, (∃ o, Only acc o ∧ td.ts = withOptions ts o) → SuitsAll td.ts := by
    rintro acc ts hm hf td ⟨o, ho, e⟩
    rw [e]
    refine .mk (suits_of hm ho) ?_
    intro f hff
    have : f ∈ ts.fields := hff
    rw [hf] at this
    simp at this
  unfold parseTypeDirective
  refine ret_bind' (fun tn => ret_bind (ret_suit_elements lib) (fun e he => ?_))
  dsimp only
  split
  case h_12 ht =>
    unfold parseStringDef
    refine ret_bind (ret_suit_simple lib _ _) (fun td h => ret_pure ?_)
    obtain ⟨o, ho, e1⟩ := h
    split
    · rw [e1]
      refine .mk ⟨?_, ?_, ?_, ?_, ?_⟩ (by simp [withOptions])
      · rintro (h | h)
        · simpa using ho.min h
        · simpa using ho.max h
      · simp [sizedTypes]
      · simp
      · simp
      · simp
    · refine key (ts := { type := e.type }) ?_ rfl td ⟨o, ho, e1⟩
      simp only [ht]
      constructor <;> simp [sizedTypes]
  case h_14 =>
    unfold parseUnitValueDef
    refine ret_bind (ret_suit_options lib _ _) (fun td h => ret_bind' (fun vu => ret_bind' (fun _ => ret_pure ?_)))
    obtain ⟨o, ho, e1⟩ := h
    obtain ⟨a1, a2, a3, a4, a5, a6, a7⟩ := only_nil ho
    simp only [e1, withOptions, a1, a2, a3, a4, a5, a6, a7]
    exact .mk (by constructor <;> simp) (by simp)
  case h_15 ht =>
    unfold parseArrayDef
    refine ret_bind' (fun i => ret_mono (ret_suit_simple lib _ _) (key (ts := { type := e.type, items := i }) ?_ rfl))
    simp only [ht]
    constructor <;> simp [sizedTypes]
  case h_16 ht =>
    unfold parseArrayDef
    refine ret_bind' (fun i => ret_mono (ret_suit_simple lib _ _) (key (ts := { type := e.type, items := i }) ?_ rfl))
    simp only [ht]
    constructor <;> simp [sizedTypes]
  case h_17 ht =>
    unfold parseMapDef
    refine ret_bind' (fun i => ret_mono (ret_suit_simple lib _ _) (key (ts := { type := e.type, keys := i.1, items := i.2 }) ?_ rfl))
    simp only [ht]
    constructor <;> simp [sizedTypes]
  case h_18 =>
    unfold parseStructDef
    refine ret_bind (ret_suit_options lib _ _) (fun td h => ret_pure ?_)
    obtain ⟨o, ho, e1⟩ := h
    obtain ⟨a1, a2, a3, a4, a5, a6, a7⟩ := only_nil ho
    simp only [e1, withOptions, a1, a2, a3, a4, a5, a6, a7]
    exact .mk (by constructor <;> simp) he
  case h_19 => exact ret_pure (.mk (by constructor <;> simp) (by simp))
  case h_20 =>
    unfold parseUnionDef
    refine ret_bind (ret_suit_options lib _ _) (fun td h => ret_ite (fun _ => ret_syntaxError) (fun _ => ?_))
    refine ret_bind' (fun _ => ret_pure ?_)
    obtain ⟨o, ho, e1⟩ := h
    obtain ⟨a1, a2, a3, a4, a5, a6, a7⟩ := only_nil ho
    simp only [e1, withOptions, a1, a2, a3, a4, a5, a6, a7]
    exact .mk (by constructor <;> simp) (by simp)
  case h_21 => exact ret_fail
  all_goals
    rename_i ht
    refine ret_mono (ret_suit_simple lib _ _) (key (ts := { type := e.type }) ?_ rfl)
    simp only [ht]
    constructor <;> simp [sizedTypes, numericTypes]

/-! ### The property -/

/-- C30: an option list is accepted only if every option is an annotation or an acceptable
option with its proper argument, and every option is stored in its place; if nothing is
read, there are no options. -/
theorem C30_accepted (lib : PLib) (acc : List String) (s s' : TState) (o : Options) (h : parseOptions lib acc s = .ok o s') :
    ∃ ts, pending s = ts ++ pending s' ∧ OptList lib (AnyLit lib) acc ts o := eats_options lib acc s o s' h

/-- C30: every such list is accepted, whatever follows. -/
theorem C30_accepts (lib : PLib) (acc : List String) (ts rest : List Token) (o : Options) (h : OptList lib (Lit lib) acc ts o)
    (hr : ts = [] → ∀ t ∈ rest.head?, t.type ≠ .openParen) (hb : ∀ t ∈ ts ++ rest, t.type ≠ .blockComment) :
    ∃ s', parseOptions lib acc { toks := ts ++ rest } = .ok o s' ∧ pending s' = rest := by
  have h' := OptList.mono (fun _ _ h => Lit.any h) h
  obtain ⟨a, s', h1, rfl, h2⟩ := run_options (s := { toks := ts ++ rest }) h' hr ⟨rfl, hb⟩
  exact ⟨s', h1, h2.pending⟩

/-- C30: an option that is neither an annotation nor acceptable is an error, wherever it
stands in the list and whatever follows it. -/
theorem C30_unacceptable (lib : PLib) (acc : List String) (x name : String) (items rest : List Token) (o : Options)
    (hi : OptItems lib (AnyLit lib) acc items {} o) (h1 : hasPrefix (lowerS name) "x_" = false) (h2 : lowerS name ∉ acc)
    (hb : ∀ t ∈ items ++ rest, t.type ≠ .blockComment) :
    ∃ e s', parseOptions lib acc { toks := ⟨.openParen, x⟩ :: items ++ ⟨.symbol, name⟩ :: rest } = .err e s' := by
  have hA : At { toks := ⟨.openParen, x⟩ :: items ++ ⟨.symbol, name⟩ :: rest }
      (⟨.openParen, x⟩ :: (items ++ ⟨.symbol, name⟩ :: rest)) := by
    refine ⟨by simp, ?_⟩
    intro t ht
    simp only [List.mem_cons, List.mem_append] at ht
    rcases ht with rfl | ht | rfl | ht
    · simp
    · exact hb t (by simp [ht])
    · simp
    · exact hb t (by simp [ht])
  obtain ⟨s1, e1, g1⟩ := getToken_at hA
  obtain ⟨s2, h3, h4⟩ := optItems_prefix hi s1 ⟨.symbol, name⟩ rest g1.at' (by simp)
  have key : ∃ e s', P.loop (optionsStep lib acc) o s2 = .err e s' := by
    obtain ⟨s3, e3, g3⟩ := getToken_at h3
    unfold P.loop P.loopN
    refine ⟨"Unrecognized option", s3, ?_⟩
    refine bind_err ?_
    unfold optionsStep
    rw [bind_ok e3]
    simp only [reduceCtorEq, if_false, if_true, h1, h2, Bool.false_eq_true]
    rfl
  obtain ⟨e, s', hk⟩ := key
  refine ⟨e, s', ?_⟩
  unfold parseOptions
  rw [bind_ok e1]
  simp only [if_true]
  rw [h4 (by rw [hk]; simp), hk]

/-- C30: without an option list nothing is set and nothing is read. -/
theorem C30_absent (lib : PLib) (acc : List String) (ts : List Token) (hb : ∀ t ∈ ts, t.type ≠ .blockComment)
    (h : ∀ t ∈ ts.head?, t.type ≠ .openParen) :
    ∃ s', parseOptions lib acc { toks := ts } = .ok {} s' ∧ pending s' = ts :=
  C30_accepts lib acc [] ts {} (.inl ⟨rfl, rfl⟩) (fun _ => h) hb

/-- C30: an option list is accepted or is an error; it cannot crash the parser. -/
theorem C30_otherwise_error (lib : PLib) (acc : List String) (s : TState) :
    (∃ o s', parseOptions lib acc s = .ok o s') ∨ ∃ e s', parseOptions lib acc s = .err e s' := by
  have h1 := wp_parseOptions (Q := fun _ _ => True) (n := s.size) (s := s) lib acc (Nat.le_refl _) (fun _ _ _ => trivial)
  have h2 := safe_parseOptions (pan := False) (ok := fun _ => True) lib acc s ⟨by simp, by simp, by simp, by simp⟩
  unfold wp at h1
  cases h : parseOptions lib acc s with
  | ok o s' => exact .inl ⟨o, s', rfl⟩
  | err e s' => exact .inr ⟨e, s', rfl⟩
  | panic e => rw [h] at h2; exact h2.elim
  | hang => rw [h] at h1; exact h1.elim

/-- C30: in every source that parses, with the files it includes, the constraints of every
type definition and of every field, at any depth, suit its type: bounds only on numbers,
sizes only on sized types, patterns and values only on strings, references only on strings
and UUIDs. -/
theorem C30_constraints_suit (lib : PLib) (files : String → Option (List Token)) (n : Nat) (name ns : String)
    (toks : List Token) (m : Model)
    (h : parseNoValidate lib (parseFileN lib files n) (initialSchema name ns) toks = some (.ok m)) :
    ∀ td ∈ m.schema.types, SuitsAll td.ts := by
  obtain ⟨s, hs, _⟩ := parseNoValidate_ok h
  have := parseSchema_all (PT := fun td => SuitsAll td.ts) (PH := fun _ => True) (PO := fun _ => True) (PE := fun _ => True)
    (fun _ _ hx => hx) (fun _ _ _ => trivial) (fun _ _ _ => trivial)
    (ret_suit_type lib) (fun _ => ret_true _) (fun _ => ret_true _) (fun _ => ret_true _)
    (parseFileN_all (fun _ _ hx => hx) (fun _ _ _ => trivial) (fun _ _ _ => trivial)
      (ret_suit_type lib) (fun _ => ret_true _) (fun _ => ret_true _) (fun _ => ret_true _) n)
    ⟨by simp [initialSchema], by simp [initialSchema], by simp [initialSchema], by simp [initialSchema]⟩ hs
  exact this.types

/-- An option list with an annotation, a flag and an acceptable option:
`(minSize=1, x_a="b", x_c)`. -/
def exampleOptions : List Token :=
  [punct .openParen, sym "minSize", punct .equals, num "1", punct .comma, sym "x_a", punct .equals, str "b", punct .comma,
   sym "x_c", punct .closeParen]

example : OptList noLib (Lit noLib) ["minsize", "maxsize"] exampleOptions
    { minSize := some 1, annotations := [("x_a", "b"), ("x_c", "")] } := by
  refine .inr ⟨_, _, [sym "minSize", punct .equals, num "1", punct .comma, sym "x_a", punct .equals, str "b", punct .comma,
   sym "x_c"], rfl, ?_⟩
  have e : lowerS "minSize" = "minsize" := by decide +kernel
  refine .opt (name := "minSize") (args := [punct .equals, num "1"]) (by decide +kernel) (by decide +kernel)
    (by rw [e]; exact .minsize (n := 1) (by decide +kernel)) ?_
  refine .comma (.anno (by decide +kernel) (.comma (.flag (by decide +kernel) ?_)))
  exact .nil

/-- A source whose definitions carry constraints. -/
theorem constrained_accepted : ∃ m, Accepted noLib m ∧
    (m.schema.types.map (fun td => (td.ts.type, td.ts.minSize)) == [("String", some 1)]) = true :=
  accepted_of noLib ([sym "type", sym "S", sym "String"] ++ exampleOptions ++ [nl])
    (fun m => m.schema.types.map (fun td => (td.ts.type, td.ts.minSize)) == [("String", some 1)])
    (by decide +kernel) (by decide +kernel)

end Sadl.Props
