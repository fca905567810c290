import Verif.Model.ParserValidate
/-
Vocabulary for statements about sources: names for the tokens of the lexer, the sequence of
tokens still to be read, and the meaning of loops without a bound.
-/
namespace Sadl.Spec

/-- Tokens. -/
def sym (s : String) : Token := ⟨.symbol, s⟩
def str (s : String) : Token := ⟨.string, s⟩
def num (s : String) : Token := ⟨.number, s⟩
def nl : Token := ⟨.newline, "\n"⟩
def punct (t : TokType) : Token := ⟨t, ""⟩

/-- The tokens that successive reads will deliver: the one pushed back, then those of the
source without the block comments. -/
def pending (s : TState) : List Token :=
  s.ungotten.toList ++ s.toks.filter (fun t => decide (t.type ≠ .blockComment))

/-- A call of the token interface of the parser. -/
inductive Call where
  | get | unget

/-- The state after a history of calls. -/
def after : List Call → TState → TState
  | [], s => s
  | .get :: r, s => match getToken s with
    | .ok _ s' => after r s'
    | _ => s
  | .unget :: r, s => match ungetToken s with
    | .ok _ s' => after r s'
    | _ => s

/-- The meaning of a `for` loop without any bound on the number of rounds: `Runs body x s r`
says that the loop, started with `x` in `s`, leaves with outcome `r` after finitely many
rounds. -/
inductive Runs {σ α : Type} (body : σ → P (σ ⊕ α)) : σ → TState → PRes α → Prop
  | again {x y s s' r} : body x s = .ok (.inl y) s' → Runs body y s' r → Runs body x s r
  | done {x a s s'} : body x s = .ok (.inr a) s' → Runs body x s (.ok a s')
  | error {x e s s'} : body x s = .err e s' → Runs body x s (.err e s')
  | crash {x e s} : body x s = .panic e → Runs body x s (.panic e)

/-- Did the run crash? -/
def crashed {α : Type} (r : PRes α) : Bool :=
  match r with
  | .panic _ => true
  | _ => false

theorem crashed_iff {α : Type} (r : PRes α) : crashed r = true ↔ ∃ e, r = .panic e := by
  cases r <;> simp [crashed]

end Sadl.Spec
