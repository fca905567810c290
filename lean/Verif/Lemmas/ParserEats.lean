import Verif.Lemmas.ParserRun
import Verif.Spec.Tokens
/-
Soundness of parsing functions: `Eats p R` says that whenever `p` returns a value `a`, it has
read tokens `ts` with `R ts a`.  `EatsGot t p R` is the same for a function that runs when
the token `t` has just been read, and counts `t` among the tokens.
-/
namespace Sadl
open Spec
variable {α β σ : Type}

def Eats (p : P α) (R : List Token → α → Prop) : Prop :=
  ∀ s a s', p s = .ok a s' → ∃ ts, pending s = ts ++ pending s' ∧ R ts a

def EatsGot (t : Token) (p : P α) (R : List Token → α → Prop) : Prop :=
  ∀ s, s.ungotten = none → s.last = some t → ∀ a s', p s = .ok a s' → ∃ ts, t :: pending s = ts ++ pending s' ∧ R ts a

theorem scan_filter {l : List Token} {t : Token} {r : List Token} (h : scan l = (some t, r)) :
    l.filter (fun t => decide (t.type ≠ .blockComment)) = t :: r.filter (fun t => decide (t.type ≠ .blockComment)) := by
  induction l with
  | nil => simp [scan] at h
  | cons x l ih =>
    unfold scan at h
    split_ifs at h with hx
    · simpa [hx] using ih h
    · simp only [Prod.mk.injEq, Option.some.injEq] at h
      obtain ⟨rfl, rfl⟩ := h
      simp [hx]

theorem scan_filter_none {l r : List Token} (h : scan l = (none, r)) :
    l.filter (fun t => decide (t.type ≠ .blockComment)) = [] ∧ r = [] := by
  induction l with
  | nil => simp [scan] at h; simp [h]
  | cons x l ih =>
    unfold scan at h
    split_ifs at h with hx
    · simpa [hx] using ih h
    · simp at h

theorem getToken_some {s s' : TState} {t : Token} (h : getToken s = .ok (some t) s') :
    pending s = t :: pending s' ∧ s'.ungotten = none ∧ s'.last = some t := by
  unfold getToken at h
  unfold pending
  cases hu : s.ungotten with
  | some u =>
    rw [hu] at h
    simp only [PRes.ok.injEq, Option.some.injEq] at h
    obtain ⟨rfl, rfl⟩ := h
    simp
  | none =>
    rw [hu] at h
    rcases hs : scan s.toks with ⟨t?, r⟩
    rw [hs] at h
    cases t? with
    | none => simp at h
    | some u =>
      simp only [PRes.ok.injEq, Option.some.injEq] at h
      obtain ⟨rfl, rfl⟩ := h
      exact ⟨by simpa [hu] using scan_filter hs, by simp [hu], rfl⟩

theorem getToken_none {s s' : TState} (h : getToken s = .ok none s') : pending s = [] ∧ pending s' = [] := by
  unfold getToken at h
  unfold pending
  cases hu : s.ungotten with
  | some u => rw [hu] at h; simp at h
  | none =>
    rw [hu] at h
    rcases hs : scan s.toks with ⟨t?, r⟩
    rw [hs] at h
    cases t? with
    | some u => simp at h
    | none =>
      simp only [PRes.ok.injEq, true_and] at h
      subst h
      obtain ⟨h1, h2⟩ := scan_filter_none hs
      exact ⟨by simpa [hu] using h1, by simp [h2, hu]⟩

theorem At.pending {s : TState} {ts : List Token} (h : At s ts) : pending s = ts := by
  unfold Spec.pending
  have := h.pend
  rw [← this]
  congr 1
  rw [List.filter_eq_self]
  intro x hx
  simpa using h.noBlock x (by rw [← this]; simp [hx])

theorem bind_ok_inv {p : P α} {f : α → P β} {s s' : TState} {b : β} (h : (p >>= f) s = .ok b s') :
    ∃ a s1, p s = .ok a s1 ∧ f a s1 = .ok b s' := by
  rw [P.bind_apply] at h
  cases h1 : p s with
  | ok a s1 => rw [h1] at h; exact ⟨a, s1, rfl, h⟩
  | err e s1 => rw [h1] at h; cases h
  | panic e => rw [h1] at h; cases h
  | hang => rw [h1] at h; cases h

theorem eats_pure {a : α} {R : List Token → α → Prop} (h : R [] a) : Eats (pure a) R := by
  intro s b s' hb
  injection (show PRes.ok a s = .ok b s' from hb) with h1 h2
  exact ⟨[], by rw [h2]; rfl, h1 ▸ h⟩

theorem eats_fail {e : String} {R : List Token → α → Prop} : Eats (P.fail e : P α) R := by
  intro s a s' h; simp [P.fail] at h

theorem eats_mono {p : P α} {R R' : List Token → α → Prop} (h : Eats p R) (hr : ∀ ts a, R ts a → R' ts a) : Eats p R' := by
  intro s a s' ha
  obtain ⟨ts, h1, h2⟩ := h s a s' ha
  exact ⟨ts, h1, hr ts a h2⟩

theorem eats_bind {p : P α} {f : α → P β} {R1 : List Token → α → Prop} {R : List Token → β → Prop} (h : Eats p R1)
    (hf : ∀ ts a, R1 ts a → Eats (f a) (fun ts' b => R (ts ++ ts') b)) : Eats (p >>= f) R := by
  intro s b s' hb
  obtain ⟨a, s1, h1, h2⟩ := bind_ok_inv hb
  obtain ⟨ts, h3, h4⟩ := h s a s1 h1
  obtain ⟨ts', h5, h6⟩ := hf ts a h4 s1 b s' h2
  exact ⟨ts ++ ts', by rw [h3, h5, List.append_assoc], h6⟩

theorem eats_ite {c : Prop} [Decidable c] {p q : P α} {R : List Token → α → Prop} (h1 : c → Eats p R) (h2 : ¬ c → Eats q R) :
    Eats (if c then p else q) R := by
  split_ifs with h
  · exact h1 h
  · exact h2 h

/-- Reading a token that may be pushed back. -/
theorem eats_get {f : Option Token → P α} {R : List Token → α → Prop} (h0 : Eats (f none) R)
    (h1 : ∀ t, EatsGot t (f (some t)) R) : Eats (getToken >>= f) R := by
  intro s b s' hb
  obtain ⟨t?, s1, h2, h3⟩ := bind_ok_inv hb
  cases t? with
  | none =>
    obtain ⟨e1, e2⟩ := getToken_none h2
    obtain ⟨ts, h4, h5⟩ := h0 s1 b s' h3
    exact ⟨ts, by rw [e1, ← e2]; exact h4, h5⟩
  | some t =>
    obtain ⟨e1, e2, e3⟩ := getToken_some h2
    rw [e1]
    exact h1 t s1 e2 e3 b s' h3

theorem eats_next {f : Token → P α} {R : List Token → α → Prop} (h1 : ∀ t, EatsGot t (f t) R) :
    Eats (nextToken >>= f) R := by
  intro s b s' hb
  obtain ⟨t, s1, h2, h3⟩ := bind_ok_inv hb
  unfold nextToken at h2
  obtain ⟨t?, s2, h4, h5⟩ := bind_ok_inv h2
  cases t? with
  | none => simp [eofError, P.fail] at h5
  | some u =>
    injection (show PRes.ok u s2 = .ok t s1 from h5) with e1 e2
    subst e1 e2
    obtain ⟨e1, e2, e3⟩ := getToken_some h4
    rw [e1]
    exact h1 u s2 e2 e3 b s' h3

/-- The token is not pushed back. -/
theorem eatsGot_keep {t : Token} {p : P α} {R : List Token → α → Prop} (h : Eats p (fun ts a => R (t :: ts) a)) :
    EatsGot t p R := by
  intro s _ _ a s' ha
  obtain ⟨ts, h1, h2⟩ := h s a s' ha
  exact ⟨t :: ts, by rw [h1]; rfl, h2⟩

theorem eatsGot_ite {t : Token} {c : Prop} [Decidable c] {p q : P α} {R : List Token → α → Prop} (h1 : c → EatsGot t p R)
    (h2 : ¬ c → EatsGot t q R) : EatsGot t (if c then p else q) R := by
  split_ifs with h
  · exact h1 h
  · exact h2 h

/-- The token is pushed back. -/
theorem eatsGot_unget {t : Token} {f : Unit → P α} {R : List Token → α → Prop} (h : Eats (f ()) R) :
    EatsGot t (ungetToken >>= f) R := by
  intro s hu hl a s' ha
  obtain ⟨_, s1, h1, h2⟩ := bind_ok_inv ha
  unfold ungetToken at h1
  simp only [PRes.ok.injEq, true_and] at h1
  obtain ⟨ts, h3, h4⟩ := h s1 a s' h2
  refine ⟨ts, ?_, h4⟩
  rw [← h3, ← h1]
  simp [pending, hu, hl]

theorem eats_loop {body : σ → P (σ ⊕ α)} {x : σ} {I : List Token → σ → Prop} {R : List Token → α → Prop} (h0 : I [] x)
    (hb : ∀ ts x, I ts x → Eats (body x) (fun ts' r => match r with
      | .inl y => I (ts ++ ts') y
      | .inr a => R (ts ++ ts') a)) : Eats (P.loop body x) R := by
  have key : ∀ (k : Nat) (x : σ) (ts : List Token), I ts x →
      Eats (P.loopN body k x) (fun ts' a => R (ts ++ ts') a) := by
    intro k
    induction k with
    | zero => intro x ts _ s a s' h; simp [P.loopN, P.hang] at h
    | succ k ih =>
      intro x ts hx
      unfold P.loopN
      refine eats_bind (hb ts x hx) ?_
      intro ts' r hr
      cases r with
      | inl y => exact eats_mono (ih y _ hr) (fun ts2 a h => by rw [← List.append_assoc]; exact h)
      | inr a => exact eats_pure (by simpa using hr)
  intro s a s' h
  exact key _ x [] h0 s a s' h

theorem eats_any (p : P α) (hp : Eats p (fun _ _ => True)) {R : List Token → α → Prop} (h : ∀ ts a, R ts a) : Eats p R :=
  eats_mono hp (fun ts a _ => h ts a)

end Sadl
