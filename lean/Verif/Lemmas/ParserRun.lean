import Verif.Lemmas.ParserLoop
/-
Running parsing functions on given tokens.

`At s ts`: in the state `s` the tokens `ts` are to be read.
`Got s t ts`: moreover `t` has just been read (so that it can be pushed back).
`Run p s Q`: the function `p`, run in `s`, returns a value and a state satisfying `Q`.
-/
namespace Sadl
variable {α β σ : Type}

structure At (s : TState) (ts : List Token) : Prop where
  pend : s.ungotten.toList ++ s.toks = ts
  noBlock : ∀ t ∈ ts, t.type ≠ .blockComment

structure Got (s : TState) (t : Token) (ts : List Token) : Prop where
  at' : At s ts
  fresh : s.ungotten = none
  last : s.last = some t
  noBlock : t.type ≠ .blockComment

def Run (p : P α) (s : TState) (Q : α → TState → Prop) : Prop := ∃ a s', p s = .ok a s' ∧ Q a s'

theorem At.size {s : TState} {ts : List Token} (h : At s ts) : s.size = ts.length := by
  rw [← h.pend]; unfold TState.size
  cases s.ungotten <;> simp <;> omega

theorem bind_ok {p : P α} {f : α → P β} {s s' : TState} {a : α} (h : p s = .ok a s') : (p >>= f) s = f a s' := by
  rw [P.bind_apply, h]

theorem bind_err {p : P α} {f : α → P β} {s s' : TState} {e : String} (h : p s = .err e s') : (p >>= f) s = .err e s' := by
  rw [P.bind_apply, h]

theorem run_bind {p : P α} {f : α → P β} {s : TState} {Q : β → TState → Prop}
    (h : Run p s (fun a s' => Run (f a) s' Q)) : Run (p >>= f) s Q := by
  obtain ⟨a, s', h1, b, s'', h2, h3⟩ := h
  exact ⟨b, s'', by rw [bind_ok h1, h2], h3⟩

theorem run_pure {a : α} {s : TState} {Q : α → TState → Prop} (h : Q a s) : Run (pure a) s Q := ⟨a, s, rfl, h⟩

theorem run_mono {p : P α} {s : TState} {Q Q' : α → TState → Prop} (h : Run p s Q) (hq : ∀ a s', Q a s' → Q' a s') :
    Run p s Q' := by
  obtain ⟨a, s', h1, h2⟩ := h
  exact ⟨a, s', h1, hq a s' h2⟩

theorem getToken_at {s : TState} {t : Token} {ts : List Token} (h : At s (t :: ts)) :
    ∃ s', getToken s = .ok (some t) s' ∧ Got s' t ts := by
  obtain ⟨h1, h2⟩ := h
  have hb : t.type ≠ .blockComment := h2 t (by simp)
  have hr : ∀ x ∈ ts, x.type ≠ .blockComment := fun x hx => h2 x (by simp [hx])
  unfold getToken
  cases hu : s.ungotten with
  | some u =>
    rw [hu] at h1
    simp only [Option.toList_some, List.singleton_append, List.cons.injEq] at h1
    obtain ⟨rfl, rfl⟩ := h1
    exact ⟨_, rfl, ⟨by simp, hr⟩, rfl, rfl, hb⟩
  | none =>
    rw [hu] at h1
    simp only [Option.toList_none, List.nil_append] at h1
    rw [h1]
    simp only [scan, hb, if_false]
    exact ⟨_, rfl, ⟨by simp, hr⟩, rfl, rfl, hb⟩

theorem getToken_end {s : TState} (h : At s []) : ∃ s', getToken s = .ok none s' ∧ At s' [] := by
  obtain ⟨h1, h2⟩ := h
  have hu : s.ungotten = none := by cases hu : s.ungotten <;> simp [hu] at h1; rfl
  have ht : s.toks = [] := by simpa [hu] using h1
  unfold getToken
  rw [hu, ht]
  exact ⟨_, rfl, by simp, by simp⟩

theorem unget_got {s : TState} {t : Token} {ts : List Token} (h : Got s t ts) :
    ∃ s', ungetToken s = .ok () s' ∧ At s' (t :: ts) := by
  obtain ⟨⟨h1, h2⟩, h3, h4, h5⟩ := h
  unfold ungetToken
  refine ⟨_, rfl, ?_, ?_⟩
  · simp only [h4, Option.toList_some, List.singleton_append, List.cons.injEq, true_and]
    simpa [h3] using h1
  · intro x hx
    rcases List.mem_cons.1 hx with rfl | hx
    · exact h5
    · exact h2 x hx

theorem run_get {s : TState} {t : Token} {ts : List Token} {Q : Option Token → TState → Prop} (h : At s (t :: ts))
    (hq : ∀ s', Got s' t ts → Q (some t) s') : Run getToken s Q := by
  obtain ⟨s', h1, h2⟩ := getToken_at h
  exact ⟨_, s', h1, hq s' h2⟩

theorem run_get_end {s : TState} {Q : Option Token → TState → Prop} (h : At s [])
    (hq : ∀ s', At s' [] → Q none s') : Run getToken s Q := by
  obtain ⟨s', h1, h2⟩ := getToken_end h
  exact ⟨_, s', h1, hq s' h2⟩

theorem run_unget {s : TState} {t : Token} {ts : List Token} {Q : Unit → TState → Prop} (h : Got s t ts)
    (hq : ∀ s', At s' (t :: ts) → Q () s') : Run ungetToken s Q := by
  obtain ⟨s', h1, h2⟩ := unget_got h
  exact ⟨_, s', h1, hq s' h2⟩

theorem run_next {s : TState} {t : Token} {ts : List Token} {Q : Token → TState → Prop} (h : At s (t :: ts))
    (hq : ∀ s', Got s' t ts → Q t s') : Run nextToken s Q := by
  unfold nextToken
  exact run_bind (run_get h (fun s' hs' => run_pure (hq s' hs')))

theorem run_must {s : TState} {t : Token} {ts : List Token} {Q : Token → TState → Prop} (h : At s (t :: ts))
    (hq : ∀ s', Got s' t ts → Q t s') : Run mustToken s Q := by
  unfold mustToken
  exact run_bind (run_get h (fun s' hs' => run_pure (hq s' hs')))

/-- One round of a loop that goes on, having read at least one token. -/
theorem run_loop_again {body : σ → P (σ ⊕ α)} {x : σ} {s : TState} {ts : List Token} {Q : α → TState → Prop} (h : At s ts)
    (hb : Run (body x) s (fun r s' => ∃ y ts', r = .inl y ∧ At s' ts' ∧ ts'.length < ts.length ∧ Run (P.loop body y) s' Q)) :
    Run (P.loop body x) s Q := by
  obtain ⟨r, s', h1, y, ts', rfl, h2, h3, a, s'', h4, h5⟩ := hb
  refine ⟨a, s'', ?_, h5⟩
  have e : s.size = (s'.size + 1) + (s.size - (s'.size + 1)) := by rw [h.size, h2.size]; omega
  unfold P.loop at h4 ⊢
  unfold P.loopN
  rw [bind_ok h1]
  simp only
  rw [e, loopN_mono body _ _ y s' (by rw [h4]; simp), h4]

/-- The last round of a loop. -/
theorem run_loop_done {body : σ → P (σ ⊕ α)} {x : σ} {s : TState} {Q : α → TState → Prop}
    (hb : Run (body x) s (fun r s' => ∃ a, r = .inr a ∧ Q a s')) : Run (P.loop body x) s Q := by
  obtain ⟨r, s', h1, a, rfl, h2⟩ := hb
  refine ⟨a, s', ?_, h2⟩
  unfold P.loop P.loopN
  rw [bind_ok h1]
  rfl

end Sadl
