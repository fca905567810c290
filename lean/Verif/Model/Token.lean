import Verif.Model.Schema
/-
The token interface of the parser: parser.go:59-132, and the vocabulary in which the
parsing functions are written.

The lexer itself (github.com/boynton/scanner) is not part of the repository.  The model
starts from the list of tokens it delivers before EOF.
-/
namespace Sadl

/-- The token types of the lexer that the parser distinguishes; `other` is any further
one (the lexer's UNDEFINED, HASH, ...). -/
inductive TokType where
  | symbol | string | number
  | lineComment | blockComment | newline
  | semicolon | comma | dot | colon | equals
  | openBrace | closeBrace | openBracket | closeBracket
  | openParen | closeParen | openAngle | closeAngle
  | other
  deriving Repr, DecidableEq

/-- A `scanner.Token`: its type and text (source positions only occur in error texts). -/
structure Token where
  type : TokType
  text : String := ""
  deriving Repr, DecidableEq

/-- parser.go:59-71: the part of `Parser` that token reading uses.  `toks` are the tokens
the scanner has not delivered yet; `none` is the nil pointer. -/
structure TState where
  toks : List Token
  ungotten : Option Token := none
  last : Option Token := none
  prevLast : Option Token := none
  deriving Repr, DecidableEq

/-- The number of tokens still to be read, block comments included. -/
def TState.size (s : TState) : Nat := s.toks.length + s.ungotten.elim 0 (fun _ => 1)

/-- Result of running a parsing function: a value and the new state; an error (the state
is kept because some callers drop the error and go on); a run-time panic; or `hang`, a
loop or recursion that exceeded its bound (see `loop`). -/
inductive PRes (α : Type) where
  | ok (a : α) (s : TState)
  | err (e : String) (s : TState)
  | panic (e : String)
  | hang
  deriving Repr

/-- A parsing function. -/
def P (α : Type) : Type := TState → PRes α

namespace P
variable {α β σ : Type}

def pure (a : α) : P α := fun s => .ok a s

/-- Go's `x, err := ...; if err != nil { return err }; ...`. -/
def bind (p : P α) (f : α → P β) : P β := fun s =>
  match p s with
  | .ok a s' => f a s'
  | .err e s' => .err e s'
  | .panic e => .panic e
  | .hang => .hang

instance : Monad P where
  pure := P.pure
  bind := P.bind

/-- `return ..., err` -/
def fail (e : String) : P α := fun s => .err e s

/-- a nil dereference -/
def crash (e : String) : P α := fun _ => .panic e

/-- an exceeded bound -/
def hang : P α := fun _ => .hang

/-- A call whose error is dropped by the caller (`none`). -/
def attempt (p : P α) : P (Option α) := fun s =>
  match p s with
  | .ok a s' => .ok (some a) s'
  | .err _ s' => .ok none s'
  | .panic e => .panic e
  | .hang => .hang

/-- A Go `for` loop: `body` either goes on with a new loop state or leaves with a
result.  The first argument bounds the number of iterations. -/
def loopN (body : σ → P (σ ⊕ α)) : Nat → σ → P α
  | 0, _ => hang
  | n + 1, x => do
    match ← body x with
    | .inl x' => loopN body n x'
    | .inr a => pure a

/-- A Go `for` loop over the tokens.  The loop is cut off, with result `hang`, after more
iterations than there are tokens left.  Theorem C18 shows that this never happens, so
that the cut-off is not observable. -/
def loop (body : σ → P (σ ⊕ α)) (x : σ) : P α := fun s => loopN body (s.size + 1) x s

/-- Recursion over the tokens, cut off in the same way. -/
def recursion (f : Nat → P α) : P α := fun s => f (s.size + 1) s

end P

/-- parser.go:121-130: reading from the scanner, skipping block comments; `none` at EOF. -/
def scan : List Token → Option Token × List Token
  | [] => (none, [])
  | t :: r => if t.type = .blockComment then scan r else (some t, r)

/-- parser.go:107-111 `UngetToken`. -/
def ungetToken : P Unit := fun s =>
  .ok () { s with ungotten := s.last, last := s.prevLast }

/-- parser.go:113-133 `GetToken`; `none` is the nil pointer returned at the end. -/
def getToken : P (Option Token) := fun s =>
  match s.ungotten with
  | some t => .ok (some t) { s with last := some t, ungotten := none }
  | none =>
    match scan s.toks with
    | (some t, r) => .ok (some t) { s with toks := r, last := some t, prevLast := s.last }
    | (none, r) => .ok none { s with toks := r, prevLast := s.last }

/-- parser.go:1236-1238 `SyntaxError` -/
def syntaxError {α : Type} : P α := P.fail "Syntax error"

/-- parser.go:1240-1242 `EndOfFileError` -/
def eofError {α : Type} : P α := P.fail "Unexpected end of file"

/-- A `GetToken` whose result is dereferenced without a nil check (parser.go:412-413, 432-433,
437-438, 442-443, 464-465, 483-484, 501-502). -/
def mustToken : P Token := do
  match ← getToken with
  | some t => pure t
  | none => P.crash "nil token dereferenced"

/-- `GetToken` followed by `if tok == nil { return ... EndOfFileError() }`. -/
def nextToken : P Token := do
  match ← getToken with
  | some t => pure t
  | none => eofError

end Sadl
