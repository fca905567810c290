import Verif.Model.Parser
import Verif.Lemmas.Tactics
/-
A small program logic for the parsing functions.  `wp n p s Q`: run from `s`, the function
`p` does not hang; if it returns a value, `Q` holds of the value and the new state; if it
returns an error, at most `n` tokens are left.
-/
namespace Sadl
variable {α β σ : Type}

def wp (n : Nat) (p : P α) (s : TState) (Q : α → TState → Prop) : Prop :=
  match p s with
  | .ok a s' => Q a s'
  | .err _ s' => s'.size ≤ n
  | .panic _ => True
  | .hang => False

@[simp] theorem P.pure_apply (a : α) (s : TState) : (pure a : P α) s = .ok a s := rfl

theorem P.bind_apply (p : P α) (f : α → P β) (s : TState) :
    (p >>= f) s = match p s with
      | .ok a s' => f a s'
      | .err e s' => .err e s'
      | .panic e => .panic e
      | .hang => .hang := rfl

theorem wp_bind {n : Nat} {p : P α} {f : α → P β} {s : TState} {Q : β → TState → Prop}
    (h : wp n p s (fun a s' => wp n (f a) s' Q)) : wp n (p >>= f) s Q := by
  unfold wp at *
  rw [P.bind_apply]
  cases hp : p s <;> simp_all

theorem wp_pure {n : Nat} {a : α} {s : TState} {Q : α → TState → Prop} (h : Q a s) :
    wp n (pure a) s Q := h

theorem wp_fail {n : Nat} {e : String} {s : TState} {Q : α → TState → Prop} (h : s.size ≤ n) :
    wp n (P.fail e) s Q := h

theorem wp_crash {n : Nat} {e : String} {s : TState} {Q : α → TState → Prop} :
    wp n (P.crash e) s Q := trivial

theorem wp_syntaxError {n : Nat} {s : TState} {Q : α → TState → Prop} (h : s.size ≤ n) :
    wp n syntaxError s Q := h

theorem wp_eofError {n : Nat} {s : TState} {Q : α → TState → Prop} (h : s.size ≤ n) :
    wp n eofError s Q := h

theorem wp_mono {n : Nat} {p : P α} {s : TState} {Q Q' : α → TState → Prop}
    (h : wp n p s Q) (hq : ∀ a s', Q a s' → Q' a s') : wp n p s Q' := by
  unfold wp at *
  cases hp : p s <;> simp_all

theorem wp_attempt {n : Nat} {p : P α} {s : TState} {Q : Option α → TState → Prop}
    (h : wp s.size p s (fun a s' => Q (some a) s')) (he : ∀ s', s'.size ≤ s.size → Q none s') :
    wp n (P.attempt p) s Q := by
  unfold wp at *
  unfold P.attempt
  cases hp : p s <;> simp_all

theorem scan_length (l : List Token) :
    (scan l).2.length + (scan l).1.elim 0 (fun _ => 1) ≤ l.length := by
  induction l with
  | nil => simp [scan]
  | cons t r ih =>
    unfold scan
    split_ifs
    · simp only [List.length_cons]; omega
    · simp

theorem scan_none {l : List Token} (h : (scan l).1 = none) : (scan l).2 = [] := by
  induction l with
  | nil => rfl
  | cons t r ih =>
    unfold scan at h ⊢
    split_ifs at h ⊢
    exact ih h

theorem wp_getToken {n : Nat} {s : TState} {Q : Option Token → TState → Prop}
    (h0 : ∀ s', s'.size = 0 → Q none s')
    (h1 : ∀ t s', s'.size + 1 ≤ s.size → Q (some t) s') : wp n getToken s Q := by
  unfold wp getToken
  cases hu : s.ungotten with
  | some t =>
    simp only
    apply h1
    simp [TState.size, hu]
  | none =>
    simp only
    have hl := scan_length s.toks
    rcases hs : scan s.toks with ⟨t?, r⟩
    cases t? with
    | none =>
      simp only
      apply h0
      have := scan_none (l := s.toks) (by rw [hs])
      rw [hs] at this
      simp only at this
      simp [TState.size, hu, this]
    | some t =>
      simp only
      apply h1
      rw [hs] at hl
      simp only [Option.elim_some] at hl
      simp only [TState.size, hu, Option.elim_none]
      omega

theorem wp_unget {n : Nat} {s : TState} {Q : Unit → TState → Prop}
    (h : ∀ s', s'.size ≤ s.size + 1 → Q () s') : wp n ungetToken s Q := by
  unfold wp ungetToken
  simp only
  apply h
  simp only [TState.size]
  cases s.last <;> cases s.ungotten <;> simp only [Option.elim] <;> omega

theorem wp_nextToken {n : Nat} {s : TState} {Q : Token → TState → Prop}
    (h1 : ∀ t s', s'.size + 1 ≤ s.size → Q t s') : wp n nextToken s Q := by
  unfold nextToken
  apply wp_bind
  apply wp_getToken
  · intro s' hs'
    exact wp_eofError (by omega)
  · intro t s' hs'
    exact wp_pure (h1 t s' hs')

theorem wp_mustToken {n : Nat} {s : TState} {Q : Token → TState → Prop}
    (h1 : ∀ t s', s'.size + 1 ≤ s.size → Q t s') : wp n mustToken s Q := by
  unfold mustToken
  apply wp_bind
  apply wp_getToken
  · intro s' hs'
    exact wp_crash
  · intro t s' hs'
    exact wp_pure (h1 t s' hs')

/-- The rule for loops: every round that goes on consumes a token. -/
theorem wp_loop {n : Nat} {body : σ → P (σ ⊕ α)} {x : σ} {s : TState} {Q : α → TState → Prop}
    (hb : ∀ x s1, s1.size ≤ s.size → wp n (body x) s1 (fun r s' =>
      match r with
      | .inl _ => s'.size + 1 ≤ s1.size
      | .inr a => Q a s')) : wp n (P.loop body x) s Q := by
  have key : ∀ (k : Nat) (x : σ) (s1 : TState), s1.size ≤ s.size → s1.size < k →
      wp n (P.loopN body k x) s1 Q := by
    intro k
    induction k with
    | zero => intro x s1 _ h; omega
    | succ k ih =>
      intro x s1 h1 h2
      unfold P.loopN
      apply wp_bind
      apply wp_mono (hb x s1 h1)
      intro r s' hr
      cases r with
      | inl x' => exact ih x' s' (by simp at hr; omega) (by simp at hr; omega)
      | inr a => exact hr
  exact key (s.size + 1) x s le_rfl (by omega)

theorem wp_recursion {n : Nat} {f : Nat → P α} {s : TState} {Q : α → TState → Prop}
    (h : wp n (f (s.size + 1)) s Q) : wp n (P.recursion f) s Q := h

theorem wp_ite {n : Nat} {c : Prop} [Decidable c] {p q : P α} {s : TState} {Q : α → TState → Prop}
    (h1 : c → wp n p s Q) (h2 : ¬ c → wp n q s Q) : wp n (if c then p else q) s Q := by
  split_ifs with h
  · exact h1 h
  · exact h2 h

end Sadl
