import Verif.Spec.Trace
import Verif.Spec.Valid
import Verif.Lemmas.Basic
import Verif.Lemmas.Text
/-
Lemmas on the traces of HTTP exchanges.
-/
namespace Sadl
open Spec

/-! ### HTTP messages -/

theorem append_cons_inj {c : Char} {a b a' b' : List Char} (h : a ++ c :: b = a' ++ c :: b') (h1 : c ∉ a) (h2 : c ∉ a') :
    a = a' ∧ b = b' := by
  induction a generalizing a' with
  | nil =>
    cases a' with
    | nil => simpa using h
    | cons y r =>
      simp only [List.nil_append, List.cons_append, List.cons.injEq] at h
      exact absurd (h.1 ▸ List.mem_cons_self) h2
  | cons x r ih =>
    cases a' with
    | nil =>
      simp only [List.nil_append, List.cons_append, List.cons.injEq] at h
      exact absurd (h.1 ▸ List.mem_cons_self) h1
    | cons y r' =>
      simp only [List.cons_append, List.cons.injEq] at h
      simp only [List.mem_cons, not_or] at h1 h2
      obtain ⟨e1, e2⟩ := ih h.2 h1.2 h2.2
      exact ⟨by rw [h.1, e1], e2⟩

/-- A text is at most one HTTP message. -/
theorem isHttp_unique {text : List Char} {a b : HttpMsg} (ha : IsHttp text a) (hb : IsHttp text b) : a = b := by
  obtain ⟨s, fs, y⟩ := a
  obtain ⟨s', fs', y'⟩ := b
  have e := ha.text.symm.trans hb.text
  simp only [List.append_assoc, List.cons_append] at e
  obtain ⟨e1, e2⟩ := append_cons_inj e ha.start hb.start
  subst e1
  have hf := ha.fields
  have hf' := hb.fields
  simp only at hf hf'
  clear ha hb e
  have : fs = fs' ∧ y = y' := by
    induction fs generalizing fs' with
    | nil =>
      cases fs' with
      | nil => simpa using e2
      | cons f r =>
        obtain ⟨n, v⟩ := f
        obtain ⟨h1, _, h2, _⟩ := hf' (n, v) List.mem_cons_self
        cases n with
        | nil => exact absurd rfl h1
        | cons c n =>
          simp only [List.flatMap_nil, List.nil_append, List.flatMap_cons, List.cons_append, List.append_assoc, List.cons.injEq] at e2
          exact absurd (e2.1 ▸ List.mem_cons_self) h2
    | cons f r ih =>
      obtain ⟨n, v⟩ := f
      obtain ⟨g1, g2, g3, g4⟩ := hf (n, v) List.mem_cons_self
      cases fs' with
      | nil =>
        cases n with
        | nil => exact absurd rfl g1
        | cons c n =>
          simp only [List.flatMap_nil, List.nil_append, List.flatMap_cons, List.cons_append, List.append_assoc, List.cons.injEq] at e2
          exact absurd (e2.1 ▸ List.mem_cons_self) g3
      | cons f' r' =>
        obtain ⟨n', v'⟩ := f'
        obtain ⟨k1, k2, k3, k4⟩ := hf' (n', v') List.mem_cons_self
        have e3 : n ++ ':' :: (' ' :: (v ++ '\n' :: (r.flatMap (fun f => f.1 ++ ": ".toList ++ f.2 ++ ['\n']) ++ '\n' :: y))) =
            n' ++ ':' :: (' ' :: (v' ++ '\n' :: (r'.flatMap (fun f => f.1 ++ ": ".toList ++ f.2 ++ ['\n']) ++ '\n' :: y'))) := by
          simpa [List.flatMap_cons] using e2
        obtain ⟨e4, e5⟩ := append_cons_inj e3 g2 k2
        simp only [List.cons.injEq, true_and] at e5
        obtain ⟨e6, e7⟩ := append_cons_inj e5 g4 k4
        obtain ⟨e8, e9⟩ := ih r' (by simpa using e7) (fun f hfm => hf f (List.mem_cons_of_mem _ hfm))
          (fun f hfm => hf' f (List.mem_cons_of_mem _ hfm))
        exact ⟨by rw [e4, e6, e8], e9⟩
  rw [this.1, this.2]

/-! ### Replacing a variable -/

theorem replaceFrom_skip (pat val a s : List Char) : replaceFrom pat val a.length (a ++ s) = replaceFrom pat val 0 s := by
  induction a with
  | nil => rfl
  | cons c r ih => simpa [replaceFrom] using ih

theorem replaceFrom_lit (n val a s : List Char) (h : '{' ∉ a) :
    replaceFrom ('{' :: n ++ ['}']) val 0 (a ++ s) = a ++ replaceFrom ('{' :: n ++ ['}']) val 0 s := by
  induction a with
  | nil => rfl
  | cons c r ih =>
    simp only [List.mem_cons, not_or] at h
    have hp : ('{' :: n ++ ['}']).isPrefixOf (c :: (r ++ s)) = false := by
      simp [List.isPrefixOf, h.1]
    simp only [List.cons_append] at hp ih ⊢
    rw [replaceFrom, if_neg (by simp [hp]), ih h.2]

theorem replaceFrom_hit (n val s : List Char) :
    replaceFrom ('{' :: n ++ ['}']) val 0 (('{' :: n ++ ['}']) ++ s) = val ++ replaceFrom ('{' :: n ++ ['}']) val 0 s := by
  have hp : ('{' :: (n ++ ['}'])).isPrefixOf ('{' :: (n ++ ['}'] ++ s)) = true := by
    rw [List.isPrefixOf_iff_prefix]
    exact ⟨s, by simp⟩
  simp only [List.cons_append] at *
  rw [replaceFrom, if_pos hp]
  congr 1
  simpa using replaceFrom_skip ('{' :: (n ++ ['}'])) val (n ++ ['}']) s

theorem replaceFrom_miss (n n' val s : List Char) (h1 : '}' ∉ n) (h2 : '}' ∉ n') (h3 : '{' ∉ n') (hne : n ≠ n') :
    replaceFrom ('{' :: n ++ ['}']) val 0 (('{' :: n' ++ ['}']) ++ s) =
      ('{' :: n' ++ ['}']) ++ replaceFrom ('{' :: n ++ ['}']) val 0 s := by
  have hp : ¬ ('{' :: (n ++ ['}'])).isPrefixOf ('{' :: (n' ++ ['}'] ++ s)) = true := by
    rw [List.isPrefixOf_iff_prefix]
    rintro ⟨t, ht⟩
    simp only [List.cons_append, List.append_assoc, List.cons.injEq, true_and, List.nil_append] at ht
    exact hne (append_cons_inj ht h1 h2).1
  have hl := replaceFrom_lit n val (n' ++ ['}']) s (by simp [h3])
  simp only [List.cons_append] at *
  rw [replaceFrom, if_neg hp, hl]

/-- The text of pieces in which some variables have a value. -/
def showPiece (f : String → Option (List Char)) : Piece → List Char
  | .lit s => s
  | .var n => (f n).getD (Piece.var n).text

theorem replaceAll_pieces (n : String) (val : List Char) (f : String → Option (List Char)) (ps : List Piece)
    (hn : '}' ∉ n.toList) (hl : ∀ s, Piece.lit s ∈ ps → '{' ∉ s)
    (hv : ∀ x, Piece.var x ∈ ps → '{' ∉ x.toList ∧ '}' ∉ x.toList) (hf : ∀ x v, Piece.var x ∈ ps → f x = some v → '{' ∉ v) :
    replaceAll ('{' :: n.toList ++ ['}']) val (ps.flatMap (showPiece f)) =
      ps.flatMap (showPiece fun x => (f x).or (if x = n then some val else none)) := by
  unfold replaceAll
  induction ps with
  | nil => rfl
  | cons p r ih =>
    have ih := ih (fun s hs => hl s (List.mem_cons_of_mem _ hs)) (fun s hs => hv s (List.mem_cons_of_mem _ hs))
      (fun s v hs => hf s v (List.mem_cons_of_mem _ hs))
    rw [List.flatMap_cons, List.flatMap_cons]
    cases p with
    | lit s =>
      rw [showPiece, replaceFrom_lit _ _ _ _ (hl s List.mem_cons_self), ih]
      simp [showPiece]
    | var x =>
      cases hx : f x with
      | some v =>
        have e1 : showPiece f (.var x) = v := by simp [showPiece, hx]
        have e2 : showPiece (fun x => (f x).or (if x = n then some val else none)) (.var x) = v := by simp [showPiece, hx]
        rw [e1, e2, replaceFrom_lit _ _ _ _ (hf x v List.mem_cons_self hx), ih]
      | none =>
        have e1 : showPiece f (.var x) = '{' :: x.toList ++ ['}'] := by simp [showPiece, hx, Piece.text]
        by_cases h : x = n
        · subst h
          have e2 : showPiece (fun y => (f y).or (if y = x then some val else none)) (.var x) = val := by simp [showPiece, hx]
          rw [e1, e2, replaceFrom_hit, ih]
        · have e2 : showPiece (fun y => (f y).or (if y = n then some val else none)) (.var x) = '{' :: x.toList ++ ['}'] := by
            simp [showPiece, hx, h, Piece.text]
          obtain ⟨h1, h2⟩ := hv x List.mem_cons_self
          rw [e1, e2, replaceFrom_miss _ _ _ _ hn h2 h1 (fun e => h (String.toList_inj.1 e).symm), ih]

/-! ### The inputs -/

theorem traceInputs_headers (L : TLib) (req : GoMap Value) (ins : List HttpParamSpec) (t : TraceReq) :
    (traceInputs L req ins t).headers = t.headers ++ (ins.filter (fun p => decide (InHeader p))).flatMap
      (fun p => p.header.toList ++ ": ".toList ++ (stringExample L (mget req p.field.name)).toList ++ ['\n']) := by
  induction ins generalizing t with
  | nil => simp [traceInputs]
  | cons p r ih =>
    rw [traceInputs, ih]
    by_cases h1 : InUri p
    · have : p.path = true ∨ p.query ≠ "" := h1
      simp [if_pos this, InHeader, h1]
    · have h1' : ¬ (p.path = true ∨ p.query ≠ "") := h1
      by_cases h2 : p.header = ""
      · simp [if_neg h1', InHeader, h2]
      · simp [if_neg h1', InHeader, h1, h2]

theorem traceInputs_body (L : TLib) (req : GoMap Value) (ins : List HttpParamSpec) (t : TraceReq) :
    (traceInputs L req ins t).body = match (ins.filter BodyInput).getLast? with
      | none => t.body
      | some p => (prettyText L.json ((mget req p.field.name).getD .null)).toList := by
  induction ins generalizing t with
  | nil => simp [traceInputs]
  | cons p r ih =>
    rw [traceInputs, ih]
    by_cases h1 : (p.path = true ∨ p.query ≠ "")
    · have hb : BodyInput p = false := by
        simp only [BodyInput, decide_eq_false_iff_not]
        rintro ⟨a, b, _⟩
        rcases h1 with h1 | h1
        · rw [a] at h1; cases h1
        · exact h1 b
      simp [if_pos h1, hb]
    · by_cases h2 : p.header = ""
      · have hb : BodyInput p = true := by
          simp only [not_or, Bool.not_eq_true, ne_eq, not_not] at h1
          simp [BodyInput, h1.1, h1.2, h2]
        simp only [if_neg h1, h2, ne_eq, not_true, if_false, List.filter_cons, hb, if_true]
        rw [List.getLast?_cons]
        cases (r.filter BodyInput).getLast? <;> simp
      · have hb : BodyInput p = false := by
          simp [BodyInput, h2]
        simp [if_neg h1, h2, hb]

theorem traceInputs_path (L : TLib) (req : GoMap Value) (ps : List Piece)
    (hl : ∀ s, Piece.lit s ∈ ps → '{' ∉ s)
    (hv : ∀ x, Piece.var x ∈ ps → '{' ∉ x.toList ∧ '}' ∉ x.toList)
    (hs : ∀ x, Piece.var x ∈ ps → '{' ∉ (stringExample L (mget req x)).toList)
    (ins : List HttpParamSpec)
    (hn : ∀ p ∈ ins, InUri p → '}' ∉ p.field.name.toList)
    (t : TraceReq) (f : String → Option (List Char))
    (hf : ∀ x v, f x = some v → v = (stringExample L (mget req x)).toList)
    (ht : t.path = ps.flatMap (showPiece f)) :
    (traceInputs L req ins t).path = ps.flatMap (showPiece fun x =>
      if (f x).isSome ∨ ∃ p ∈ ins, InUri p ∧ p.field.name = x then some (stringExample L (mget req x)).toList else none) := by
  induction ins generalizing t f with
  | nil =>
    rw [traceInputs, ht]
    congr 1
    funext p
    cases p with
    | lit s => rfl
    | var x =>
      simp only [showPiece]
      cases hx : f x with
      | none => simp
      | some v => simp [hf x v hx]
  | cons p r ih =>
    have hn' : ∀ q ∈ r, InUri q → '}' ∉ q.field.name.toList := fun q hq => hn q (List.mem_cons_of_mem _ hq)
    rw [traceInputs]
    by_cases h1 : InUri p
    · have h1' : p.path = true ∨ p.query ≠ "" := h1
      rw [if_pos h1']
      have key := replaceAll_pieces p.field.name (stringExample L (mget req p.field.name)).toList f ps
        (hn p List.mem_cons_self h1) hl hv (fun x v hx hfx => by rw [hf x v hfx]; exact hs x hx)
      rw [ih hn' _ (fun x => (f x).or (if x = p.field.name then some (stringExample L (mget req p.field.name)).toList else none)) ?_
        (by rw [← key, ← ht])]
      · congr 2
        funext x
        by_cases hx : x = p.field.name
        · subst hx
          rw [if_pos (by cases f p.field.name <;> simp), if_pos (.inr ⟨p, by simp, h1, rfl⟩)]
        · have : ((f x).or (if x = p.field.name then some (stringExample L (mget req p.field.name)).toList else none)) = f x := by
            simp [hx]
          simp only [this, List.mem_cons, exists_eq_or_imp]
          congr 1
          simp [h1, Ne.symm hx]
      · intro x v hx
        cases hfx : f x with
        | some w =>
          have : w = v := by simpa [hfx] using hx
          rw [← this]; exact hf x w hfx
        | none =>
          by_cases hxn : x = p.field.name
          · subst hxn; simpa [hfx] using hx.symm
          · simp [hfx, hxn] at hx
    · have h1' : ¬ (p.path = true ∨ p.query ≠ "") := h1
      rw [if_neg h1', ih hn' _ f hf]
      · congr 2
        funext x
        simp [h1]
      · split <;> exact ht

/-! ### The outputs -/

theorem traceOutputs_eq (L : TLib) (status : Int) (res : GoMap Value) (outs : List HttpParamSpec) (hd bd : List Char) :
    traceOutputs L status res outs (hd, bd) =
      (hd ++ (outs.filter (fun p => !BodyOutput p)).flatMap
        (fun p => p.header.toList ++ ": ".toList ++ (stringExample L (mget res p.field.name)).toList ++ ['\n']),
       if status = 204 then bd else match (outs.filter BodyOutput).getLast? with
         | none => bd
         | some p => (prettyText L.json ((mget res p.field.name).getD .null)).toList) := by
  induction outs generalizing hd bd with
  | nil => simp [traceOutputs]
  | cons p r ih =>
    rw [traceOutputs]
    by_cases h2 : p.header = ""
    · by_cases h3 : status = 204
      · simp only [h2, h3, ne_eq, not_true, if_false, if_true]
        subst h3
        rw [ih]
        simp [BodyOutput, h2]
      · simp only [h2, h3, ne_eq, not_true, if_false, not_false_eq_true, if_true]
        rw [ih]
        have hb : BodyOutput p = true := by simp [BodyOutput, h2]
        simp only [h3, if_false, List.filter_cons, hb, if_true, Bool.not_true, Bool.false_eq_true, Prod.mk.injEq, true_and]
        rw [List.getLast?_cons]
        cases (r.filter BodyOutput).getLast? <;> simp
    · simp only [ne_eq, h2, not_false_eq_true, if_true]
      rw [ih]
      simp [BodyOutput, h2]

/-! ### Which examples -/

theorem lastWith_cons {α : Type} {p : α → Prop} {a : α} {l : List α} {x : α} :
    LastWith p (a :: l) x ↔ LastWith p l x ∨ (a = x ∧ p x ∧ ∀ y ∈ l, ¬ p y) := by
  constructor
  · rintro ⟨u, v, h1, h2, h3⟩
    cases u with
    | nil =>
      simp only [List.nil_append, List.cons.injEq] at h1
      exact .inr ⟨h1.1, h2, by rw [h1.2]; exact h3⟩
    | cons b u =>
      simp only [List.cons_append, List.cons.injEq] at h1
      exact .inl ⟨u, v, h1.2, h2, h3⟩
  · rintro (⟨u, v, h1, h2, h3⟩ | ⟨h1, h2, h3⟩)
    · exact ⟨a :: u, v, by simp [h1], h2, h3⟩
    · exact ⟨[], l, by simp [h1], h2, h3⟩

theorem lastWith_nil {α : Type} {p : α → Prop} {x : α} : ¬ LastWith p [] x := by
  rintro ⟨u, v, h, _⟩
  simp at h

theorem lastWith_unique {α : Type} {p : α → Prop} {l : List α} {x y : α} (h1 : LastWith p l x) (h2 : LastWith p l y) : x = y := by
  induction l with
  | nil => exact absurd h1 lastWith_nil
  | cons a r ih =>
    have mem : ∀ {z}, LastWith p r z → z ∈ r ∧ p z := by
      rintro z ⟨u, v, e, hp, _⟩
      exact ⟨by simp [e], hp⟩
    rw [lastWith_cons] at h1 h2
    rcases h1 with h1 | h1 <;> rcases h2 with h2 | h2
    · exact ih h1 h2
    · exact absurd (mem h1).2 (h2.2.2 _ (mem h1).1)
    · exact absurd (mem h2).2 (h1.2.2 _ (mem h2).1)
    · rw [← h1.1, ← h2.1]

theorem lastWith_mem {α : Type} {p : α → Prop} {l : List α} {x : α} (h : LastWith p l x) : x ∈ l ∧ p x := by
  obtain ⟨u, v, e, hp, _⟩ := h
  exact ⟨by simp [e], hp⟩

theorem lastWith_exists {α : Type} {p : α → Prop} {l : List α} (h : ∃ x ∈ l, p x) : ∃ x, LastWith p l x := by
  induction l with
  | nil => simp at h
  | cons a r ih =>
    by_cases hr : ∃ x ∈ r, p x
    · obtain ⟨x, hx⟩ := ih hr
      exact ⟨x, lastWith_cons.2 (.inl hx)⟩
    · obtain ⟨x, hx, hp⟩ := h
      rcases List.mem_cons.1 hx with rfl | hx
      · exact ⟨x, lastWith_cons.2 (.inr ⟨rfl, hp, fun y hy hpy => hr ⟨y, hy, hpy⟩⟩)⟩
      · exact absurd ⟨x, hx, hp⟩ hr

/-- The request examples: all are objects, and the last one of each name is kept. -/
theorem traceRequests_ok {rt : String} {l : List ExampleDef} {acc acc' : GoMap TraceEx}
    (h : traceRequests rt l acc = .ok acc') :
    (∀ e ∈ l, e.target = rt → ∃ kvs, e.example = .obj kvs) ∧
    (acc.Distinct → acc'.Distinct) ∧
    (∀ n, (∀ e ∈ l, ¬ (e.target = rt ∧ e.name = n)) → mget acc' n = mget acc n) ∧
    (∀ n e kvs, LastWith (fun e => e.target = rt ∧ e.name = n) l e → e.example = .obj kvs → mget acc' n = some { req := kvs }) := by
  induction l generalizing acc with
  | nil =>
    simp only [traceRequests, Out.ok.injEq] at h
    subst h
    exact ⟨by simp, id, by simp, fun n e kvs hl => absurd hl lastWith_nil⟩
  | cons x r ih =>
    unfold traceRequests at h
    by_cases hx : x.target = rt
    · rw [if_pos hx] at h
      split at h
      · next kvs hk =>
        obtain ⟨i1, i2, i3, i4⟩ := ih h
        refine ⟨?_, fun hd => i2 (distinct_mset hd _ _), ?_, ?_⟩
        · intro e he ht
          rcases List.mem_cons.1 he with rfl | he
          · exact ⟨kvs, hk⟩
          · exact i1 e he ht
        · intro n hn
          rw [i3 n (fun e he => hn e (List.mem_cons_of_mem _ he)), mget_mset_other]
          intro e
          exact hn x List.mem_cons_self ⟨hx, e.symm⟩
        · intro n e kvs' hl hobj
          rcases lastWith_cons.1 hl with hl | ⟨rfl, ⟨_, hn⟩, hno⟩
          · exact i4 n e kvs' hl hobj
          · rw [i3 n hno, ← hn, mget_mset_same]
            rw [hk] at hobj
            cases hobj
            rfl
      · simp at h
    · rw [if_neg hx] at h
      obtain ⟨i1, i2, i3, i4⟩ := ih h
      refine ⟨?_, i2, ?_, ?_⟩
      · intro e he ht
        rcases List.mem_cons.1 he with rfl | he
        · exact absurd ht hx
        · exact i1 e he ht
      · intro n hn
        exact i3 n (fun e he => hn e (List.mem_cons_of_mem _ he))
      · intro n e kvs hl hobj
        rcases lastWith_cons.1 hl with hl | ⟨rfl, ⟨ht, hn⟩, hno⟩
        · exact i4 n e kvs hl hobj
        · exact absurd ht hx

theorem traceRequests_fails {rt : String} {l : List ExampleDef} {acc : GoMap TraceEx} :
    (∃ acc', traceRequests rt l acc = .ok acc') ∨
    ((∃ msg, traceRequests rt l acc = .panic msg) ∧ ∃ e ∈ l, e.target = rt ∧ ∀ kvs, e.example ≠ .obj kvs) := by
  induction l generalizing acc with
  | nil => exact .inl ⟨acc, rfl⟩
  | cons x r ih =>
    unfold traceRequests
    by_cases hx : x.target = rt
    · rw [if_pos hx]
      split
      · next kvs hk =>
        rcases ih (acc := mset acc x.name { req := kvs }) with i | ⟨i, e, he, h⟩
        · exact .inl i
        · exact .inr ⟨i, e, List.mem_cons_of_mem _ he, h⟩
      · next hno => exact .inr ⟨⟨_, rfl⟩, x, List.mem_cons_self, hx, fun kvs hk => hno kvs hk⟩
    · rw [if_neg hx]
      rcases ih (acc := acc) with i | ⟨i, e, he, h⟩
      · exact .inl i
      · exact .inr ⟨i, e, List.mem_cons_of_mem _ he, h⟩

theorem traceExceptions_none {ex : ExampleDef} {xs : List HttpExceptionSpec} (h : ∀ x ∈ xs, x.type ≠ ex.target) (d : TraceEx) :
    traceExceptions ex xs d = .ok d := by
  induction xs generalizing d with
  | nil => rfl
  | cons x r ih =>
    rw [traceExceptions, if_neg (h x List.mem_cons_self)]
    exact ih (fun y hy => h y (List.mem_cons_of_mem _ hy)) d

theorem traceExceptions_obj {ex : ExampleDef} {xs : List HttpExceptionSpec} {kvs : GoMap Value} (hk : ex.example = .obj kvs)
    {x : HttpExceptionSpec} (hx : LastWith (fun x => x.type = ex.target) xs x) (d : TraceEx) :
    traceExceptions ex xs d = .ok { d with res := some kvs, exc := some x } := by
  induction xs generalizing d with
  | nil => exact absurd hx lastWith_nil
  | cons y r ih =>
    rcases lastWith_cons.1 hx with hl | ⟨rfl, ht, hno⟩
    · by_cases hy : y.type = ex.target
      · rw [traceExceptions, if_pos hy, hk]
        simpa using ih hl _
      · rw [traceExceptions, if_neg hy]
        exact ih hl d
    · rw [traceExceptions, if_pos ht, hk]
      exact traceExceptions_none hno _

theorem traceExceptions_panic {ex : ExampleDef} {xs : List HttpExceptionSpec} (hk : ∀ kvs, ex.example ≠ .obj kvs)
    (hx : ∃ x ∈ xs, x.type = ex.target) (d : TraceEx) : ∃ msg, traceExceptions ex xs d = .panic msg := by
  induction xs with
  | nil => simp at hx
  | cons y r ih =>
    by_cases hy : y.type = ex.target
    · rw [traceExceptions, if_pos hy]
      split
      · next kvs h => exact absurd h (hk kvs)
      · exact ⟨_, rfl⟩
    · rw [traceExceptions, if_neg hy]
      obtain ⟨x, hx, ht⟩ := hx
      rcases List.mem_cons.1 hx with rfl | hx
      · exact absurd ht hy
      · exact ih ⟨x, hx, ht⟩

/-- The example is a response, expected or not, of an action. -/
def traceAnswer (rt st : String) (xs : List HttpExceptionSpec) (e : ExampleDef) : Prop :=
  e.target ≠ rt ∧ (e.target = st ∨ ∃ x ∈ xs, x.type = e.target)

/-- The responses. -/
theorem traceResponses_ok {rt st : String} {xs : List HttpExceptionSpec} {l : List ExampleDef} {acc acc' : GoMap TraceEx}
    (h : traceResponses rt st xs l acc = .ok acc') :
    acc'.map Prod.fst = acc.map Prod.fst ∧
    (∀ e ∈ l, traceAnswer rt st xs e → (mget acc e.name).isSome → ∃ kvs, e.example = .obj kvs) ∧
    ∀ n d, mget acc n = some d → ∃ d', mget acc' n = some d' ∧ d'.req = d.req ∧
      ((∀ e ∈ l, ¬ (traceAnswer rt st xs e ∧ e.name = n)) → d'.res = d.res) ∧
      (∀ e kvs, LastWith (fun e => traceAnswer rt st xs e ∧ e.name = n) l e → e.example = .obj kvs → d'.res = some kvs) ∧
      ((∀ e ∈ l, ¬ (traceAnswer rt st xs e ∧ e.target ≠ st ∧ e.name = n)) → d'.exc = d.exc) ∧
      (∀ e x, LastWith (fun e => traceAnswer rt st xs e ∧ e.target ≠ st ∧ e.name = n) l e →
        LastWith (fun x => x.type = e.target) xs x → d'.exc = some x) := by
  induction l generalizing acc with
  | nil =>
    simp only [traceResponses, Out.ok.injEq] at h
    subst h
    refine ⟨rfl, by simp, fun n d hd => ⟨d, hd, rfl, by simp, ?_, by simp, ?_⟩⟩
    · intro e kvs hl; exact absurd hl lastWith_nil
    · intro e kvs hl; exact absurd hl lastWith_nil
  | cons a r ih =>
    -- an example that changes nothing
    have skip : ∀ {acc2 : GoMap TraceEx}, acc2 = acc → traceResponses rt st xs r acc2 = .ok acc' →
        ((mget acc a.name).isSome → ¬ traceAnswer rt st xs a) →
        acc'.map Prod.fst = acc.map Prod.fst ∧
        (∀ e ∈ a :: r, traceAnswer rt st xs e → (mget acc e.name).isSome → ∃ kvs, e.example = .obj kvs) ∧
        ∀ n d, mget acc n = some d → ∃ d', mget acc' n = some d' ∧ d'.req = d.req ∧
          ((∀ e ∈ a :: r, ¬ (traceAnswer rt st xs e ∧ e.name = n)) → d'.res = d.res) ∧
          (∀ e kvs, LastWith (fun e => traceAnswer rt st xs e ∧ e.name = n) (a :: r) e → e.example = .obj kvs → d'.res = some kvs) ∧
          ((∀ e ∈ a :: r, ¬ (traceAnswer rt st xs e ∧ e.target ≠ st ∧ e.name = n)) → d'.exc = d.exc) ∧
          (∀ e x, LastWith (fun e => traceAnswer rt st xs e ∧ e.target ≠ st ∧ e.name = n) (a :: r) e →
            LastWith (fun x => x.type = e.target) xs x → d'.exc = some x) := by
      intro acc2 e2 h2 hskip
      subst e2
      obtain ⟨i1, i2, i3⟩ := ih h2
      refine ⟨i1, ?_, ?_⟩
      · intro e he ha hs
        rcases List.mem_cons.1 he with rfl | he
        · exact absurd ha (hskip hs)
        · exact i2 e he ha hs
      · intro n d hd
        obtain ⟨d', j1, j2, j3, j4, j5, j6⟩ := i3 n d hd
        refine ⟨d', j1, j2, ?_, ?_, ?_, ?_⟩
        · intro hno; exact j3 (fun e he => hno e (List.mem_cons_of_mem _ he))
        · intro e kvs hl
          rcases lastWith_cons.1 hl with hl | ⟨rfl, ⟨ht, hn⟩, _⟩
          · exact j4 e kvs hl
          · exact absurd ht (hskip (by rw [hn, hd]; rfl))
        · intro hno; exact j5 (fun e he => hno e (List.mem_cons_of_mem _ he))
        · intro e x hl
          rcases lastWith_cons.1 hl with hl | ⟨rfl, ⟨ht, _, hn⟩, _⟩
          · exact j6 e x hl
          · exact absurd ht (hskip (by rw [hn, hd]; rfl))
    unfold traceResponses at h
    by_cases h1 : a.target = rt
    · rw [if_pos h1] at h
      exact skip rfl h (fun _ hh => hh.1 h1)
    · rw [if_neg h1] at h
      cases h2 : mget acc a.name with
      | none =>
        simp only [h2] at h
        exact skip rfl h (by simp [h2])
      | some d0 =>
        simp only [h2] at h
        -- an example that is a response
        have hit : ∀ (kvs : GoMap Value) (d1 : TraceEx), a.example = .obj kvs → traceAnswer rt st xs a → d1.req = d0.req →
            d1.res = some kvs → (a.target = st → d1.exc = d0.exc) →
            (a.target ≠ st → ∀ x, LastWith (fun x => x.type = a.target) xs x → d1.exc = some x) →
            traceResponses rt st xs r (mset acc a.name d1) = .ok acc' →
            acc'.map Prod.fst = acc.map Prod.fst ∧
            (∀ e ∈ a :: r, traceAnswer rt st xs e → (mget acc e.name).isSome → ∃ kvs, e.example = .obj kvs) ∧
            ∀ n d, mget acc n = some d → ∃ d', mget acc' n = some d' ∧ d'.req = d.req ∧
              ((∀ e ∈ a :: r, ¬ (traceAnswer rt st xs e ∧ e.name = n)) → d'.res = d.res) ∧
              (∀ e kvs, LastWith (fun e => traceAnswer rt st xs e ∧ e.name = n) (a :: r) e → e.example = .obj kvs → d'.res = some kvs) ∧
              ((∀ e ∈ a :: r, ¬ (traceAnswer rt st xs e ∧ e.target ≠ st ∧ e.name = n)) → d'.exc = d.exc) ∧
              (∀ e x, LastWith (fun e => traceAnswer rt st xs e ∧ e.target ≠ st ∧ e.name = n) (a :: r) e →
                LastWith (fun x => x.type = e.target) xs x → d'.exc = some x) := by
          intro kvs d1 hk hta hreq hres hexc1 hexc2 h3
          obtain ⟨i1, i2, i3⟩ := ih h3
          have hmem : a.name ∈ acc.map Prod.fst := by
            by_contra hc
            rw [(mget_none_iff _ _).2 hc] at h2
            cases h2
          refine ⟨?_, ?_, ?_⟩
          · rw [i1, keys_mset, if_pos hmem]
          · intro e he ha hs
            rcases List.mem_cons.1 he with rfl | he
            · exact ⟨kvs, hk⟩
            · refine i2 e he ha ?_
              rw [mget_mset]
              split <;> simp_all
          · intro n d hd
            by_cases hn : n = a.name
            · subst hn
              rw [h2] at hd
              cases hd
              obtain ⟨d', j1, j2, j3, j4, j5, j6⟩ := i3 a.name d1 (mget_mset_same _ _ _)
              refine ⟨d', j1, j2.trans hreq, ?_, ?_, ?_, ?_⟩
              · intro hno; exact absurd ⟨hta, rfl⟩ (hno a List.mem_cons_self)
              · intro e kvs' hl hobj
                rcases lastWith_cons.1 hl with hl | ⟨rfl, _, hno⟩
                · exact j4 e kvs' hl hobj
                · rw [j3 hno, hres]
                  rw [hk] at hobj
                  cases hobj
                  rfl
              · intro hno
                rw [j5 (fun e he => hno e (List.mem_cons_of_mem _ he))]
                refine hexc1 ?_
                by_contra hc
                exact hno a List.mem_cons_self ⟨hta, hc, rfl⟩
              · intro e x hl hx
                rcases lastWith_cons.1 hl with hl | ⟨rfl, ⟨_, hst, _⟩, hno⟩
                · exact j6 e x hl hx
                · rw [j5 hno]; exact hexc2 hst x hx
            · obtain ⟨d', j1, j2, j3, j4, j5, j6⟩ := i3 n d (by rw [mget_mset_other _ _ _ _ hn]; exact hd)
              refine ⟨d', j1, j2, ?_, ?_, ?_, ?_⟩
              · intro hno; exact j3 (fun e he => hno e (List.mem_cons_of_mem _ he))
              · intro e kvs' hl hobj
                rcases lastWith_cons.1 hl with hl | ⟨rfl, ⟨_, hn'⟩, _⟩
                · exact j4 e kvs' hl hobj
                · exact absurd hn'.symm hn
              · intro hno; exact j5 (fun e he => hno e (List.mem_cons_of_mem _ he))
              · intro e x hl hx
                rcases lastWith_cons.1 hl with hl | ⟨rfl, ⟨_, _, hn'⟩, _⟩
                · exact j6 e x hl hx
                · exact absurd hn'.symm hn
        by_cases h3 : a.target = st
        · rw [if_pos h3] at h
          split at h
          · next kvs hk =>
            exact hit kvs { d0 with res := some kvs } hk ⟨h1, .inl h3⟩ rfl rfl (fun _ => rfl) (fun hc => absurd h3 hc) h
          · simp at h
        · rw [if_neg h3] at h
          by_cases h4 : ∃ x ∈ xs, x.type = a.target
          · obtain ⟨x, hx⟩ := lastWith_exists h4
            by_cases h5 : ∃ kvs, a.example = .obj kvs
            · obtain ⟨kvs, hk⟩ := h5
              rw [traceExceptions_obj hk hx, Out.bind_ok] at h
              exact hit kvs { d0 with res := some kvs, exc := some x } hk ⟨h1, .inr h4⟩ rfl rfl (fun hc => absurd hc h3)
                (fun _ y hy => by rw [lastWith_unique hy hx]) h
            · obtain ⟨msg, hm⟩ := traceExceptions_panic (fun kvs hk => h5 ⟨kvs, hk⟩) h4 d0
              rw [hm] at h
              simp at h
          · rw [traceExceptions_none (fun x hx hc => h4 ⟨x, hx, hc⟩), Out.bind_ok] at h
            have hset : mset acc a.name d0 = acc := by
              clear h skip hit ih
              induction acc with
              | nil => simp [mget] at h2
              | cons p q ihm =>
                obtain ⟨k, v⟩ := p
                simp only [mget, mset] at h2 ⊢
                split at h2
                · cases h2; simp_all
                · next hne => rw [if_neg hne, ihm h2]
            exact skip hset h (fun _ hh => by
              rcases hh.2 with hc | hc
              · exact h3 hc
              · exact h4 hc)

theorem traceResponses_fails {rt st : String} {xs : List HttpExceptionSpec} {l : List ExampleDef} {acc : GoMap TraceEx} :
    (∃ acc', traceResponses rt st xs l acc = .ok acc') ∨
    ((∃ msg, traceResponses rt st xs l acc = .panic msg) ∧
      ∃ e ∈ l, traceAnswer rt st xs e ∧ e.name ∈ acc.map Prod.fst ∧ ∀ kvs, e.example ≠ .obj kvs) := by
  induction l generalizing acc with
  | nil => exact .inl ⟨acc, rfl⟩
  | cons a r ih =>
    have go : ∀ acc2 : GoMap TraceEx, acc2.map Prod.fst = acc.map Prod.fst →
        (∃ acc', traceResponses rt st xs r acc2 = .ok acc') ∨
        ((∃ msg, traceResponses rt st xs r acc2 = .panic msg) ∧
          ∃ e ∈ a :: r, traceAnswer rt st xs e ∧ e.name ∈ acc.map Prod.fst ∧ ∀ kvs, e.example ≠ .obj kvs) := by
      intro acc2 he
      rcases ih (acc := acc2) with i | ⟨i, e, he1, h1, h2, h3⟩
      · exact .inl i
      · exact .inr ⟨i, e, List.mem_cons_of_mem _ he1, h1, he ▸ h2, h3⟩
    unfold traceResponses
    by_cases h1 : a.target = rt
    · rw [if_pos h1]; exact go acc rfl
    · rw [if_neg h1]
      cases h2 : mget acc a.name with
      | none => exact go acc rfl
      | some d0 =>
        have hmem : a.name ∈ acc.map Prod.fst := by
          by_contra hc
          rw [(mget_none_iff _ _).2 hc] at h2
          cases h2
        have hkeys : ∀ d : TraceEx, (mset acc a.name d).map Prod.fst = acc.map Prod.fst := by
          intro d; rw [keys_mset, if_pos hmem]
        simp only
        by_cases h3 : a.target = st
        · rw [if_pos h3]
          split
          · exact go _ (hkeys _)
          · next hno => exact .inr ⟨⟨_, rfl⟩, a, List.mem_cons_self, ⟨h1, .inl h3⟩, hmem, fun kvs hk => hno kvs hk⟩
        · rw [if_neg h3]
          by_cases h4 : ∃ x ∈ xs, x.type = a.target
          · by_cases h5 : ∃ kvs, a.example = .obj kvs
            · obtain ⟨kvs, hk⟩ := h5
              obtain ⟨x, hx⟩ := lastWith_exists h4
              rw [traceExceptions_obj hk hx, Out.bind_ok]
              exact go _ (hkeys _)
            · obtain ⟨msg, hm⟩ := traceExceptions_panic (fun kvs hk => h5 ⟨kvs, hk⟩) h4 d0
              rw [hm]
              exact .inr ⟨⟨_, rfl⟩, a, List.mem_cons_self, ⟨h1, .inr h4⟩, hmem, fun kvs hk => h5 ⟨kvs, hk⟩⟩
          · rw [traceExceptions_none (fun x hx hc => h4 ⟨x, hx, hc⟩), Out.bind_ok]
            exact go _ (hkeys _)

end Sadl
