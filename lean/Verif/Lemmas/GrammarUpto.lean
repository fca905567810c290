import Verif.Lemmas.GrammarOpts
/-
Exact descriptions of parsing functions that stop when they have read a closing token, where
the caller may put this token back.  `IsW n p K R` is `Is n p R`, but for results in `K` the
last token read is still counted among the tokens that follow.
-/
namespace Sadl
open Spec
variable {α β σ : Type}

/-- The tokens that follow; the last token read is one of them if `k`. -/
def After (k : Bool) (s : TState) (r : List Token) : Prop :=
  match k with
  | true => ∃ b, s.ungotten = none ∧ s.last = some b ∧ r = b :: pending s
  | false => r = pending s

structure IsW (n : Nat) (p : P α) (K : α → Bool) (R : Rel α) : Prop where
  sound : ∀ s a s', p s = .ok a s' → ∃ r, After (K a) s' r ∧ R (pending s) a r
  complete : ∀ s, (pending s).length < n → ∀ a r, R (pending s) a r → ∃ s', p s = .ok a s' ∧ After (K a) s' r
  shrink : ∀ ts a r, R ts a r → r.length ≤ ts.length
  held : ∀ ts a r, R ts a r → K a = true → r ≠ []

structure IsGotW (n : Nat) (t : Token) (p : P α) (K : α → Bool) (R : Rel α) : Prop where
  sound : ∀ s, s.ungotten = none → s.last = some t → ∀ a s', p s = .ok a s' → ∃ r, After (K a) s' r ∧ R (pending s) a r
  complete : ∀ s, s.ungotten = none → s.last = some t → (pending s).length + 1 < n → ∀ a r, R (pending s) a r →
    ∃ s', p s = .ok a s' ∧ After (K a) s' r
  shrink : ∀ ts a r, R ts a r → r.length ≤ ts.length + 1
  held : ∀ ts a r, R ts a r → K a = true → r ≠ []

theorem IsW.congr {n : Nat} {p : P α} {K : α → Bool} {R R' : Rel α} (h : IsW n p K R) (hr : ∀ ts a r, R ts a r ↔ R' ts a r) :
    IsW n p K R' :=
  ⟨fun s a s' h1 => let ⟨r, h2, h3⟩ := h.sound s a s' h1; ⟨r, h2, (hr _ _ _).1 h3⟩,
   fun s hs a r h1 => h.complete s hs a r ((hr _ _ _).2 h1), fun ts a r h1 => h.shrink ts a r ((hr _ _ _).2 h1),
   fun ts a r h1 => h.held ts a r ((hr _ _ _).2 h1)⟩

theorem IsGotW.congr {n : Nat} {t : Token} {p : P α} {K : α → Bool} {R R' : Rel α} (h : IsGotW n t p K R)
    (hr : ∀ ts a r, R ts a r ↔ R' ts a r) : IsGotW n t p K R' :=
  ⟨fun s h0 h0' a s' h1 => let ⟨r, h2, h3⟩ := h.sound s h0 h0' a s' h1; ⟨r, h2, (hr _ _ _).1 h3⟩,
   fun s h0 h0' hs a r h1 => h.complete s h0 h0' hs a r ((hr _ _ _).2 h1),
   fun ts a r h1 => h.shrink ts a r ((hr _ _ _).2 h1),
   fun ts a r h1 => h.held ts a r ((hr _ _ _).2 h1)⟩

theorem IsW.of_is {n : Nat} {p : P α} {K : α → Bool} {R : Rel α} (h : Is n p R) (hk : ∀ ts a r, R ts a r → K a = false) :
    IsW n p K R := by
  refine ⟨?_, ?_, h.shrink, fun ts a r h1 h2 => by rw [hk _ _ _ h1] at h2; cases h2⟩
  · intro s a s' h1
    have := h.sound s a s' h1
    exact ⟨pending s', by rw [hk _ _ _ this]; rfl, this⟩
  · intro s hs a r h1
    obtain ⟨s', e1, e2⟩ := h.complete s hs a r h1
    exact ⟨s', e1, by rw [hk _ _ _ h1]; exact e2.symm⟩

theorem IsGotW.of_is {n : Nat} {t : Token} {p : P α} {K : α → Bool} {R : Rel α} (h : IsGot n t p R)
    (hk : ∀ ts a r, R ts a r → K a = false) : IsGotW n t p K R := by
  refine ⟨?_, ?_, h.shrink, fun ts a r h1 h2 => by rw [hk _ _ _ h1] at h2; cases h2⟩
  · intro s h0 h0' a s' h1
    have := h.sound s h0 h0' a s' h1
    exact ⟨pending s', by rw [hk _ _ _ this]; rfl, this⟩
  · intro s h0 h0' hs a r h1
    obtain ⟨s', e1, e2⟩ := h.complete s h0 h0' hs a r h1
    exact ⟨s', e1, by rw [hk _ _ _ h1]; exact e2.symm⟩

theorem IsW.is {n : Nat} {p : P α} {R : Rel α} (h : IsW n p (fun _ => false) R) : Is n p R := by
  refine ⟨?_, ?_, h.shrink⟩
  · intro s a s' h1
    obtain ⟨r, rfl, h3⟩ := h.sound s a s' h1
    exact h3
  · intro s hs a r h1
    obtain ⟨s', e1, e2⟩ := h.complete s hs a r h1
    exact ⟨s', e1, Eq.symm e2⟩

theorem isGotW_stop {n : Nat} {t : Token} {K : α → Bool} {a : α} (hk : K a = true) :
    IsGotW n t (pure a) K (fun ts b r => b = a ∧ r = t :: ts) := by
  refine ⟨?_, ?_, ?_, by rintro ts b r ⟨_, rfl⟩ _; simp⟩
  · intro s h0 h0' b s' h
    injection (show PRes.ok a s = .ok b s' from h) with h1 h2
    subst h1 h2
    exact ⟨_, by rw [hk]; exact ⟨t, h0, h0', rfl⟩, rfl, rfl⟩
  · rintro s h0 h0' _ b r ⟨rfl, rfl⟩
    exact ⟨s, rfl, by rw [hk]; exact ⟨t, h0, h0', rfl⟩⟩
  · rintro ts b r ⟨_, rfl⟩; simp

theorem isGotW_keep {n : Nat} {t : Token} {p : P α} {K : α → Bool} {R : Rel α} (h : IsW n p K R) : IsGotW n t p K R :=
  ⟨fun s _ _ => h.sound s, fun s _ _ hs => h.complete s (by omega), fun ts a r hr => le_trans (h.shrink ts a r hr) (by omega), h.held⟩

theorem isGotW_ite {n : Nat} {t : Token} {c : Prop} [Decidable c] {p q : P α} {K : α → Bool} {R1 R2 : Rel α}
    (h1 : c → IsGotW n t p K R1) (h2 : ¬ c → IsGotW n t q K R2) :
    IsGotW n t (if c then p else q) K (fun ts a r => (c ∧ R1 ts a r) ∨ (¬ c ∧ R2 ts a r)) := by
  by_cases h : c
  · rw [if_pos h]; exact (h1 h).congr (by simp [h])
  · rw [if_neg h]; exact (h2 h).congr (by simp [h])

theorem isW_get {n : Nat} {f : Option Token → P α} {K : α → Bool} {R0 : Rel α} {R1 : Token → Rel α} (h0 : IsW n (f none) K R0)
    (h1 : ∀ t, IsGotW n t (f (some t)) K (R1 t)) : IsW n (getToken >>= f) K (onNext R0 R1) := by
  refine ⟨?_, ?_, ?_, ?_⟩
  · intro s b s' h
    obtain ⟨t?, s1, e1, e2⟩ := bind_ok_inv h
    cases t? with
    | none =>
      obtain ⟨g1, g2⟩ := getToken_none e1
      rw [g1]
      have := h0.sound _ _ _ e2
      rwa [g2] at this
    | some t =>
      obtain ⟨g1, g2, g3⟩ := getToken_some e1
      rw [g1]
      exact (h1 t).sound _ g2 g3 _ _ e2
  · intro s hs a r hr
    cases hp : pending s with
    | nil =>
      rw [hp] at hr
      obtain ⟨s1, g1, g2, _⟩ := getToken_nil hp
      obtain ⟨s2, g3, g4⟩ := h0.complete s1 (by rw [g2]; rw [hp] at hs; exact hs) a r (by rw [g2]; exact hr)
      exact ⟨s2, by rw [bind_ok g1, g3], g4⟩
    | cons t ts =>
      rw [hp] at hr
      obtain ⟨s1, g1, rfl, g3, g4⟩ := getToken_cons hp
      obtain ⟨s2, g5, g6⟩ := (h1 t).complete s1 g3 g4 (by rw [hp] at hs; simpa using hs) a r hr
      exact ⟨s2, by rw [bind_ok g1, g5], g6⟩
  · intro ts a r hr
    cases ts with
    | nil => exact h0.shrink _ _ _ hr
    | cons t ts => simpa using (h1 t).shrink _ _ _ hr
  · intro ts a r hr
    cases ts with
    | nil => exact h0.held _ _ _ hr
    | cons t ts => exact (h1 t).held _ _ _ hr

theorem isW_next {n : Nat} {f : Token → P α} {K : α → Bool} {R1 : Token → Rel α}
    (h1 : ∀ t, IsGotW n t (f t) K (R1 t)) : IsW n (nextToken >>= f) K (onNext (fun _ _ _ => False) R1) := by
  have e : (nextToken >>= f) = (getToken >>= fun t? => match t? with | some t => f t | none => eofError) := by
    funext s
    unfold nextToken
    simp only [P.bind_apply]
    cases getToken s with
    | ok t? s1 => cases t? <;> rfl
    | err e s1 => rfl
    | panic e => rfl
    | hang => rfl
  rw [e]
  exact isW_get (.of_is (is_eofError n) (fun _ _ _ h => h.elim)) h1

theorem isW_bind {n : Nat} {p : P α} {f : α → P β} {K1 : α → Bool} {K : β → Bool} {R1 : Rel α} {R2 : α → Rel β}
    (h1 : IsW n p K1 R1) (h2 : ∀ a, K1 a = false → IsW n (f a) K (R2 a))
    (h3 : ∀ a, K1 a = true → ∀ b, IsGotW n b (f a) K (fun ts c r => R2 a (b :: ts) c r)) :
    IsW n (p >>= f) K (fun ts b r => ∃ a m, R1 ts a m ∧ R2 a m b r) := by
  refine ⟨?_, ?_, ?_, ?_⟩
  · intro s b s' h
    obtain ⟨a, s1, e1, e2⟩ := bind_ok_inv h
    obtain ⟨m, g1, g2⟩ := h1.sound _ _ _ e1
    cases hk : K1 a with
    | false =>
      rw [hk] at g1
      obtain ⟨r, g3, g4⟩ := (h2 a hk).sound _ _ _ e2
      exact ⟨r, g3, a, m, g2, by rw [show m = pending s1 from g1]; exact g4⟩
    | true =>
      rw [hk] at g1
      obtain ⟨t, g3, g4, g5⟩ := g1
      obtain ⟨r, g6, g7⟩ := (h3 a hk t).sound _ g3 g4 _ _ e2
      exact ⟨r, g6, a, m, g2, by rw [g5]; exact g7⟩
  · rintro s hs b r ⟨a, m, e1, e2⟩
    obtain ⟨s1, g1, g2⟩ := h1.complete s hs a m e1
    have hl := h1.shrink _ _ _ e1
    cases hk : K1 a with
    | false =>
      rw [hk] at g2
      have g2 : m = pending s1 := g2
      subst g2
      obtain ⟨s2, g3, g4⟩ := (h2 a hk).complete s1 (lt_of_le_of_lt hl hs) b r e2
      exact ⟨s2, by rw [bind_ok g1, g3], g4⟩
    | true =>
      rw [hk] at g2
      obtain ⟨t, g3, g4, rfl⟩ := g2
      obtain ⟨s2, g5, g6⟩ := (h3 a hk t).complete s1 g3 g4 (by simp only [List.length_cons] at hl; omega) b r e2
      exact ⟨s2, by rw [bind_ok g1, g5], g6⟩
  · rintro ts b r ⟨a, m, e1, e2⟩
    have hl := h1.shrink _ _ _ e1
    cases hk : K1 a with
    | false => exact le_trans ((h2 a hk).shrink _ _ _ e2) hl
    | true =>
      cases m with
      | nil => exact absurd rfl (h1.held _ _ _ e1 hk)
      | cons t m => exact le_trans ((h3 a hk t).shrink _ _ _ e2) (by simpa using hl)
  · rintro ts b r ⟨a, m, e1, e2⟩
    cases hk : K1 a with
    | false => exact (h2 a hk).held _ _ _ e2
    | true =>
      cases m with
      | nil => exact absurd rfl (h1.held _ _ _ e1 hk)
      | cons t m => exact (h3 a hk t).held _ _ _ e2

/-- The results of a round of a loop, of which only the last may stop. -/
def stops (K : α → Bool) : σ ⊕ α → Bool
  | .inl _ => false
  | .inr a => K a

theorem isW_loop {n : Nat} {K : α → Bool} {body : σ → P (σ ⊕ α)} {B : σ → Rel (σ ⊕ α)} (hb : ∀ x, IsW n (body x) (stops K) (B x))
    (hp : ∀ x ts y m, B x ts (.inl y) m → m.length < ts.length) (x : σ) : IsW n (P.loop body x) K (LoopRel B x) := by
  refine ⟨?_, ?_, ?_, ?_⟩
  · have key : ∀ (k : Nat) (x : σ) (s : TState) (a : α) (s' : TState), P.loopN body k x s = .ok a s' →
        ∃ r, After (K a) s' r ∧ LoopRel B x (pending s) a r := by
      intro k
      induction k with
      | zero => intro x s a s' h; cases h
      | succ k ih =>
        intro x s a s' h
        unfold P.loopN at h
        obtain ⟨o, s1, e1, e2⟩ := bind_ok_inv h
        obtain ⟨m, g1, g2⟩ := (hb x).sound _ _ _ e1
        cases o with
        | inl y =>
          obtain ⟨r, g3, g4⟩ := ih y s1 a s' e2
          have g1 : m = pending s1 := g1
          subst g1
          exact ⟨r, g3, .again g2 g4⟩
        | inr b =>
          injection (show PRes.ok b s1 = .ok a s' from e2) with g3 g4
          subst g3 g4
          exact ⟨m, g1, .done g2⟩
    intro s a s' h
    exact key _ x s a s' h
  · have key : ∀ (x : σ) (ts : List Token) (a : α) (r : List Token), LoopRel B x ts a r → ∀ (s : TState) (k : Nat),
        pending s = ts → ts.length < n → ts.length < k → ∃ s', P.loopN body k x s = .ok a s' ∧ After (K a) s' r := by
      intro x ts a r h
      induction h with
      | @again x y ts m a r h1 _ ih =>
        intro s k hs hn hk
        obtain ⟨k, rfl⟩ : ∃ j, k = j + 1 := ⟨k - 1, by omega⟩
        obtain ⟨s1, e1, e2⟩ := (hb x).complete s (by rw [hs]; exact hn) _ m (by rw [hs]; exact h1)
        have hl := hp x ts y m h1
        obtain ⟨s2, e3, e4⟩ := ih s1 k (Eq.symm e2) (by omega) (by omega)
        exact ⟨s2, by unfold P.loopN; rw [bind_ok e1]; exact e3, e4⟩
      | @done x ts a r h1 =>
        intro s k hs hn hk
        obtain ⟨k, rfl⟩ : ∃ j, k = j + 1 := ⟨k - 1, by omega⟩
        obtain ⟨s1, e1, e2⟩ := (hb x).complete s (by rw [hs]; exact hn) _ r (by rw [hs]; exact h1)
        exact ⟨s1, by unfold P.loopN; rw [bind_ok e1]; rfl, e2⟩
    intro s hs a r hr
    exact key x _ a r hr s _ rfl hs (Nat.lt_succ_of_le (pending_size s))
  · intro ts a r h
    induction h with
    | again h1 _ ih => exact le_trans ih (le_of_lt (hp _ _ _ _ h1))
    | done h1 => exact (hb _).shrink _ _ _ h1
  · intro ts a r h
    induction h with
    | again h1 _ ih => exact ih
    | done h1 => exact (hb _).held _ _ _ h1

end Sadl
