import Verif.Lemmas.ParserEats
/-
Exact descriptions of parsing functions.  `Is n p R`: when `p` returns, what it has read and
returned is in `R`; and when fewer than `n` tokens are to be read and `R` relates them to a
result, `p` returns it.  `IsGot n t p R` is the same when the token `t` has just been read.
-/
namespace Sadl
open Spec
variable {α β σ : Type}

/-- A relation between the tokens before, the result and the tokens after. -/
abbrev Rel (α : Type) := List Token → α → List Token → Prop

structure Is (n : Nat) (p : P α) (R : Rel α) : Prop where
  sound : ∀ s a s', p s = .ok a s' → R (pending s) a (pending s')
  complete : ∀ s, (pending s).length < n → ∀ a r, R (pending s) a r → ∃ s', p s = .ok a s' ∧ pending s' = r
  shrink : ∀ ts a r, R ts a r → r.length ≤ ts.length

structure IsGot (n : Nat) (t : Token) (p : P α) (R : Rel α) : Prop where
  sound : ∀ s, s.ungotten = none → s.last = some t → ∀ a s', p s = .ok a s' → R (pending s) a (pending s')
  complete : ∀ s, s.ungotten = none → s.last = some t → (pending s).length + 1 < n → ∀ a r, R (pending s) a r →
    ∃ s', p s = .ok a s' ∧ pending s' = r
  shrink : ∀ ts a r, R ts a r → r.length ≤ ts.length + 1

theorem getToken_cons {s : TState} {t : Token} {ts : List Token} (h : pending s = t :: ts) :
    ∃ s', getToken s = .ok (some t) s' ∧ pending s' = ts ∧ s'.ungotten = none ∧ s'.last = some t := by
  rcases hg : getToken s with ⟨t?, s'⟩ | _ | _ | _
  · cases t? with
    | none => have := getToken_none hg; rw [h] at this; simp at this
    | some u =>
      obtain ⟨h1, h2, h3⟩ := getToken_some hg
      rw [h] at h1
      injection h1 with e1 e2
      subst e1
      exact ⟨s', rfl, e2.symm, h2, h3⟩
  all_goals
    unfold getToken at hg
    split at hg
    · cases hg
    · split at hg <;> cases hg

theorem getToken_nil {s : TState} (h : pending s = []) :
    ∃ s', getToken s = .ok none s' ∧ pending s' = [] ∧ s'.ungotten = none ∧ s'.last = s.last := by
  rcases hg : getToken s with ⟨t?, s'⟩ | _ | _ | _
  · cases t? with
    | some u => have := (getToken_some hg).1; rw [h] at this; simp at this
    | none =>
      refine ⟨s', rfl, (getToken_none hg).2, ?_⟩
      unfold getToken at hg
      split at hg
      · cases hg
      · rename_i hu
        split at hg
        · cases hg
        · injection hg with _ e; subst e; exact ⟨hu, rfl⟩
  all_goals
    unfold getToken at hg
    split at hg
    · cases hg
    · split at hg <;> cases hg

theorem unget_pending {s : TState} {t : Token} (h1 : s.ungotten = none) (h2 : s.last = some t) :
    ∃ s', ungetToken s = .ok () s' ∧ pending s' = t :: pending s := by
  refine ⟨_, rfl, ?_⟩
  simp [pending, h1, h2]

theorem Is.mono {n : Nat} {p : P α} {R : Rel α} (h : Is n p R) {m : Nat} (hm : m ≤ n) : Is m p R :=
  ⟨h.sound, fun s hs => h.complete s (by omega), h.shrink⟩

theorem Is.congr {n : Nat} {p : P α} {R R' : Rel α} (h : Is n p R) (hr : ∀ ts a r, R ts a r ↔ R' ts a r) : Is n p R' :=
  ⟨fun s a s' h1 => (hr _ _ _).1 (h.sound s a s' h1), fun s hs a r h1 => h.complete s hs a r ((hr _ _ _).2 h1),
   fun ts a r h1 => h.shrink ts a r ((hr _ _ _).2 h1)⟩

theorem IsGot.congr {n : Nat} {t : Token} {p : P α} {R R' : Rel α} (h : IsGot n t p R)
    (hr : ∀ ts a r, R ts a r ↔ R' ts a r) : IsGot n t p R' :=
  ⟨fun s h0 h0' a s' h1 => (hr _ _ _).1 (h.sound s h0 h0' a s' h1),
   fun s h0 h0' hs a r h1 => h.complete s h0 h0' hs a r ((hr _ _ _).2 h1),
   fun ts a r h1 => h.shrink ts a r ((hr _ _ _).2 h1)⟩

theorem is_pure (n : Nat) (a : α) : Is n (pure a) (fun ts b r => b = a ∧ r = ts) := by
  refine ⟨?_, ?_, ?_⟩
  · intro s b s' h
    injection (show PRes.ok a s = .ok b s' from h) with h1 h2
    exact ⟨h1.symm, by rw [h2]⟩
  · rintro s _ b r ⟨rfl, rfl⟩
    exact ⟨s, rfl, rfl⟩
  · rintro ts b r ⟨_, rfl⟩; exact le_refl _

theorem is_fail (n : Nat) (e : String) : Is n (P.fail e : P α) (fun _ _ _ => False) :=
  ⟨fun s a s' h => by simp [P.fail] at h, fun _ _ _ _ h => h.elim, fun _ _ _ h => h.elim⟩

theorem is_syntaxError (n : Nat) : Is n (syntaxError : P α) (fun _ _ _ => False) := is_fail n _
theorem is_eofError (n : Nat) : Is n (eofError : P α) (fun _ _ _ => False) := is_fail n _

theorem is_crash (n : Nat) (e : String) : Is n (P.crash e : P α) (fun _ _ _ => False) :=
  ⟨fun s a s' h => by simp [P.crash] at h, fun _ _ _ _ h => h.elim, fun _ _ _ h => h.elim⟩

theorem is_hang (n : Nat) : Is n (P.hang : P α) (fun _ _ _ => False) :=
  ⟨fun s a s' h => by simp [P.hang] at h, fun _ _ _ _ h => h.elim, fun _ _ _ h => h.elim⟩

theorem is_bind {n : Nat} {p : P α} {f : α → P β} {R1 : Rel α} {R2 : α → Rel β} (h1 : Is n p R1)
    (h2 : ∀ a, Is n (f a) (R2 a)) : Is n (p >>= f) (fun ts b r => ∃ a m, R1 ts a m ∧ R2 a m b r) := by
  refine ⟨?_, ?_, ?_⟩
  · intro s b s' h
    obtain ⟨a, s1, e1, e2⟩ := bind_ok_inv h
    exact ⟨a, pending s1, h1.sound _ _ _ e1, (h2 a).sound _ _ _ e2⟩
  · rintro s hs b r ⟨a, m, e1, e2⟩
    obtain ⟨s1, g1, rfl⟩ := h1.complete s hs a m e1
    obtain ⟨s2, g2, g3⟩ := (h2 a).complete s1 (lt_of_le_of_lt (h1.shrink _ _ _ e1) hs) b r e2
    exact ⟨s2, by rw [bind_ok g1, g2], g3⟩
  · rintro ts b r ⟨a, m, e1, e2⟩
    exact le_trans ((h2 a).shrink _ _ _ e2) (h1.shrink _ _ _ e1)

/-- As `is_bind`, where something is known about the result of the first call. -/
theorem is_bind_of {n : Nat} {p : P α} {f : α → P β} {R1 : Rel α} {R2 : α → Rel β} (h1 : Is n p R1)
    (h2 : ∀ a, (∃ ts r, R1 ts a r) → Is n (f a) (R2 a)) : Is n (p >>= f) (fun ts b r => ∃ a m, R1 ts a m ∧ R2 a m b r) := by
  refine ⟨?_, ?_, ?_⟩
  · intro s b s' h
    obtain ⟨a, s1, e1, e2⟩ := bind_ok_inv h
    have := h1.sound _ _ _ e1
    exact ⟨a, pending s1, this, (h2 a ⟨_, _, this⟩).sound _ _ _ e2⟩
  · rintro s hs b r ⟨a, m, e1, e2⟩
    obtain ⟨s1, g1, rfl⟩ := h1.complete s hs a m e1
    obtain ⟨s2, g2, g3⟩ := (h2 a ⟨_, _, e1⟩).complete s1 (lt_of_le_of_lt (h1.shrink _ _ _ e1) hs) b r e2
    exact ⟨s2, by rw [bind_ok g1, g2], g3⟩
  · rintro ts b r ⟨a, m, e1, e2⟩
    exact le_trans ((h2 a ⟨_, _, e1⟩).shrink _ _ _ e2) (h1.shrink _ _ _ e1)

theorem is_ite {n : Nat} {c : Prop} [Decidable c] {p q : P α} {R1 R2 : Rel α} (h1 : c → Is n p R1) (h2 : ¬ c → Is n q R2) :
    Is n (if c then p else q) (fun ts a r => (c ∧ R1 ts a r) ∨ (¬ c ∧ R2 ts a r)) := by
  by_cases h : c
  · rw [if_pos h]; exact (h1 h).congr (by simp [h])
  · rw [if_neg h]; exact (h2 h).congr (by simp [h])

theorem isGot_ite {n : Nat} {t : Token} {c : Prop} [Decidable c] {p q : P α} {R1 R2 : Rel α} (h1 : c → IsGot n t p R1)
    (h2 : ¬ c → IsGot n t q R2) : IsGot n t (if c then p else q) (fun ts a r => (c ∧ R1 ts a r) ∨ (¬ c ∧ R2 ts a r)) := by
  by_cases h : c
  · rw [if_pos h]; exact (h1 h).congr (by simp [h])
  · rw [if_neg h]; exact (h2 h).congr (by simp [h])

theorem isGot_keep {n : Nat} {t : Token} {p : P α} {R : Rel α} (h : Is n p R) : IsGot n t p R :=
  ⟨fun s _ _ => h.sound s, fun s _ _ hs => h.complete s (by omega), fun ts a r hr => le_trans (h.shrink ts a r hr) (by omega)⟩

theorem isGot_keep_succ {n : Nat} {t : Token} {p : P α} {R : Rel α} (h : Is n p R) : IsGot (n + 1) t p R :=
  ⟨fun s _ _ => h.sound s, fun s _ _ hs => h.complete s (by omega), fun ts a r hr => le_trans (h.shrink ts a r hr) (by omega)⟩

theorem isGot_unget {n : Nat} {t : Token} {p : P α} {R : Rel α} (h : Is n p R) :
    IsGot n t (ungetToken >>= fun _ => p) (fun ts a r => R (t :: ts) a r) := by
  refine ⟨?_, ?_, ?_⟩
  · intro s h0 h1 a s' h2
    obtain ⟨s1, e1, e2⟩ := unget_pending h0 h1
    rw [bind_ok e1] at h2
    rw [← e2]; exact h.sound _ _ _ h2
  · intro s h0 h1 hs a r hr
    obtain ⟨s1, e1, e2⟩ := unget_pending h0 h1
    obtain ⟨s2, e3, e4⟩ := h.complete s1 (by rw [e2]; simpa using hs) a r (by rw [e2]; exact hr)
    exact ⟨s2, by rw [bind_ok e1, e3], e4⟩
  · intro ts a r hr; simpa using h.shrink _ _ _ hr

/-- What a relation says of the next token. -/
def onNext (R0 : Rel α) (R1 : Token → Rel α) : Rel α := fun ts a r =>
  match ts with
  | [] => R0 [] a r
  | t :: ts => R1 t ts a r

@[simp] theorem onNext_nil {R0 : Rel α} {R1 : Token → Rel α} {a : α} {r : List Token} : onNext R0 R1 [] a r = R0 [] a r := rfl
@[simp] theorem onNext_cons {R0 : Rel α} {R1 : Token → Rel α} {a : α} {t : Token} {ts r : List Token} :
    onNext R0 R1 (t :: ts) a r = R1 t ts a r := rfl

theorem is_get {n : Nat} {f : Option Token → P α} {R0 : Rel α} {R1 : Token → Rel α} (h0 : Is n (f none) R0)
    (h1 : ∀ t, IsGot n t (f (some t)) (R1 t)) : Is n (getToken >>= f) (onNext R0 R1) := by
  refine ⟨?_, ?_, ?_⟩
  · intro s b s' h
    obtain ⟨t?, s1, e1, e2⟩ := bind_ok_inv h
    cases t? with
    | none =>
      obtain ⟨g1, g2⟩ := getToken_none e1
      rw [g1]
      have := h0.sound _ _ _ e2
      rwa [g2] at this
    | some t =>
      obtain ⟨g1, g2, g3⟩ := getToken_some e1
      rw [g1]
      exact (h1 t).sound _ g2 g3 _ _ e2
  · intro s hs a r hr
    cases hp : pending s with
    | nil =>
      rw [hp] at hr
      obtain ⟨s1, g1, g2, _⟩ := getToken_nil hp
      obtain ⟨s2, g3, g4⟩ := h0.complete s1 (by rw [g2]; rw [hp] at hs; exact hs) a r (by rw [g2]; exact hr)
      exact ⟨s2, by rw [bind_ok g1, g3], g4⟩
    | cons t ts =>
      rw [hp] at hr
      obtain ⟨s1, g1, rfl, g3, g4⟩ := getToken_cons hp
      obtain ⟨s2, g5, g6⟩ := (h1 t).complete s1 g3 g4 (by rw [hp] at hs; simpa using hs) a r hr
      exact ⟨s2, by rw [bind_ok g1, g5], g6⟩
  · intro ts a r hr
    cases ts with
    | nil => exact h0.shrink _ _ _ hr
    | cons t ts => simpa using (h1 t).shrink _ _ _ hr

theorem is_next {n : Nat} {f : Token → P α} {R1 : Token → Rel α}
    (h1 : ∀ t, IsGot n t (f t) (R1 t)) : Is n (nextToken >>= f) (onNext (fun _ _ _ => False) R1) := by
  have e : (nextToken >>= f) = (getToken >>= fun t? => match t? with | some t => f t | none => eofError) := by
    funext s
    unfold nextToken
    simp only [P.bind_apply]
    cases getToken s with
    | ok t? s1 => cases t? <;> rfl
    | err e s1 => rfl
    | panic e => rfl
    | hang => rfl
  rw [e]
  exact is_get (is_eofError n) h1

theorem is_must {n : Nat} {f : Token → P α} {R1 : Token → Rel α}
    (h1 : ∀ t, IsGot n t (f t) (R1 t)) : Is n (mustToken >>= f) (onNext (fun _ _ _ => False) R1) := by
  have e : (mustToken >>= f) = (getToken >>= fun t? => match t? with | some t => f t | none => P.crash "nil token dereferenced") := by
    funext s
    unfold mustToken
    simp only [P.bind_apply]
    cases getToken s with
    | ok t? s1 => cases t? <;> rfl
    | err e s1 => rfl
    | panic e => rfl
    | hang => rfl
  rw [e]
  exact is_get (is_crash n _) h1

/-- The relation of a loop, given that of its body. -/
inductive LoopRel (B : σ → Rel (σ ⊕ α)) : σ → Rel α
  | again {x y ts m a r} : B x ts (.inl y) m → LoopRel B y m a r → LoopRel B x ts a r
  | done {x ts a r} : B x ts (.inr a) r → LoopRel B x ts a r

theorem pending_size (s : TState) : (pending s).length ≤ s.size := by
  unfold pending TState.size
  rw [List.length_append]
  have := List.length_filter_le (fun t : Token => decide (t.type ≠ .blockComment)) s.toks
  cases s.ungotten <;> simp <;> simp at this <;> omega

theorem is_loop {n : Nat} {body : σ → P (σ ⊕ α)} {B : σ → Rel (σ ⊕ α)} (hb : ∀ x, Is n (body x) (B x))
    (hp : ∀ x ts y m, B x ts (.inl y) m → m.length < ts.length) (x : σ) : Is n (P.loop body x) (LoopRel B x) := by
  refine ⟨?_, ?_, ?_⟩
  · have key : ∀ (k : Nat) (x : σ) (s : TState) (a : α) (s' : TState), P.loopN body k x s = .ok a s' →
        LoopRel B x (pending s) a (pending s') := by
      intro k
      induction k with
      | zero => intro x s a s' h; cases h
      | succ k ih =>
        intro x s a s' h
        unfold P.loopN at h
        obtain ⟨o, s1, e1, e2⟩ := bind_ok_inv h
        cases o with
        | inl y => exact .again ((hb x).sound _ _ _ e1) (ih y s1 a s' e2)
        | inr b =>
          injection (show PRes.ok b s1 = .ok a s' from e2) with g1 g2
          subst g1 g2
          exact .done ((hb x).sound _ _ _ e1)
    intro s a s' h
    exact key _ x s a s' h
  · have key : ∀ (x : σ) (ts : List Token) (a : α) (r : List Token), LoopRel B x ts a r → ∀ (s : TState) (k : Nat),
        pending s = ts → ts.length < n → ts.length < k → ∃ s', P.loopN body k x s = .ok a s' ∧ pending s' = r := by
      intro x ts a r h
      induction h with
      | @again x y ts m a r h1 _ ih =>
        intro s k hs hn hk
        obtain ⟨k, rfl⟩ : ∃ j, k = j + 1 := ⟨k - 1, by omega⟩
        obtain ⟨s1, e1, e2⟩ := (hb x).complete s (by rw [hs]; exact hn) _ m (by rw [hs]; exact h1)
        have hl := hp x ts y m h1
        obtain ⟨s2, e3, e4⟩ := ih s1 k e2 (by omega) (by omega)
        exact ⟨s2, by unfold P.loopN; rw [bind_ok e1]; exact e3, e4⟩
      | @done x ts a r h1 =>
        intro s k hs hn hk
        obtain ⟨k, rfl⟩ : ∃ j, k = j + 1 := ⟨k - 1, by omega⟩
        obtain ⟨s1, e1, e2⟩ := (hb x).complete s (by rw [hs]; exact hn) _ r (by rw [hs]; exact h1)
        exact ⟨s1, by unfold P.loopN; rw [bind_ok e1]; rfl, e2⟩
    intro s hs a r hr
    exact key x _ a r hr s _ rfl hs (Nat.lt_succ_of_le (pending_size s))
  · intro ts a r h
    induction h with
    | again h1 _ ih => exact le_trans ih (le_of_lt (hp _ _ _ _ h1))
    | done h1 => exact (hb _).shrink _ _ _ h1

/-- Recursion over the tokens. -/
theorem is_recursion {f : Nat → P α} {R : Rel α} (h : ∀ k, Is k (f k) R) (n : Nat) : Is n (P.recursion f) R :=
  ⟨fun s a s' h1 => (h _).sound s a s' h1,
   fun s _ a r h1 => (h _).complete s (Nat.lt_succ_of_le (pending_size s)) a r h1, (h 0).shrink⟩

/-- As `is_bind`, where the first call reads something. -/
theorem is_bind_succ {n : Nat} {p : P α} {f : α → P β} {R1 : Rel α} {R2 : α → Rel β} (h1 : Is (n + 1) p R1)
    (hl : ∀ ts a r, R1 ts a r → r.length < ts.length)
    (h2 : ∀ a, Is n (f a) (R2 a)) : Is (n + 1) (p >>= f) (fun ts b r => ∃ a m, R1 ts a m ∧ R2 a m b r) := by
  refine ⟨?_, ?_, ?_⟩
  · intro s b s' h
    obtain ⟨a, s1, e1, e2⟩ := bind_ok_inv h
    exact ⟨a, pending s1, h1.sound _ _ _ e1, (h2 a).sound _ _ _ e2⟩
  · rintro s hs b r ⟨a, m, e1, e2⟩
    obtain ⟨s1, g1, rfl⟩ := h1.complete s hs a m e1
    have := hl _ _ _ e1
    obtain ⟨s2, g2, g3⟩ := (h2 a).complete s1 (by omega) b r e2
    exact ⟨s2, by rw [bind_ok g1, g2], g3⟩
  · rintro ts b r ⟨a, m, e1, e2⟩
    exact le_trans ((h2 a).shrink _ _ _ e2) (h1.shrink _ _ _ e1)

/-- A relation on the tokens read, as a relation on the tokens before and after. -/
def app (R : List Token → α → Prop) : Rel α := fun ts a r => ∃ us, ts = us ++ r ∧ R us a

theorem Is.of_eats {n : Nat} {p : P α} {R : List Token → α → Prop} (h : Eats p R)
    (hc : ∀ s, (pending s).length < n → ∀ us a r, pending s = us ++ r → R us a → ∃ s', p s = .ok a s' ∧ pending s' = r) :
    Is n p (app R) := by
  refine ⟨fun s a s' h1 => ?_, fun s hs a r ⟨us, h1, h2⟩ => hc s hs us a r h1 h2, ?_⟩
  · obtain ⟨ts, h2, h3⟩ := h s a s' h1
    exact ⟨ts, h2, h3⟩
  · rintro ts a r ⟨us, rfl, _⟩; simp

end Sadl
