import Verif.Lemmas.UnparseTop
/-
The printed source has no block comments, which the lexer would skip.
-/
namespace Sadl.Props
open Sadl Sadl.Spec

/-- There is no block comment among the tokens. -/
def NB (l : List Token) : Prop := ∀ t ∈ l, t.type ≠ .blockComment

theorem nb_nil : NB [] := by intro t h; simp at h
theorem nb_cons {t : Token} {l : List Token} : NB (t :: l) ↔ t.type ≠ .blockComment ∧ NB l := by simp [NB]
theorem nb_append {l r : List Token} : NB (l ++ r) ↔ NB l ∧ NB r := by
  simp only [NB, List.mem_append]
  exact ⟨fun h => ⟨fun t ht => h t (.inl ht), fun t ht => h t (.inr ht)⟩, fun h t ht => ht.elim (h.1 t) (h.2 t)⟩
theorem nb_flatMap {α : Type} {l : List α} {f : α → List Token} (h : ∀ x ∈ l, NB (f x)) : NB (l.flatMap f) := by
  intro t ht
  obtain ⟨x, hx, h'⟩ := List.mem_flatMap.1 ht
  exact h x hx t h'
theorem nb_sep {l : List (List Token)} {sep : List Token} (hs : NB sep) (h : ∀ x ∈ l, NB x) : NB (l.intersperse sep).flatten := by
  induction l with
  | nil => exact nb_nil
  | cons a r ih =>
    cases r with
    | nil => simpa using h a (by simp)
    | cons b t =>
      have := ih (fun x hx => h x (by simp [hx]))
      have e : (a :: b :: t).intersperse sep = a :: sep :: (b :: t).intersperse sep := by simp [List.intersperse]
      rw [e]
      simp only [List.flatten_cons, nb_append]
      exact ⟨h a (by simp), hs, this⟩

theorem nb_sym (s : String) : (tSym s).type ≠ .blockComment := by simp [tSym]
theorem nb_str (s : String) : (tStr s).type ≠ .blockComment := by simp [tStr]
theorem nb_quoted (s : String) : (quotedTok s).type ≠ .blockComment := by simp [quotedTok, tStr]
theorem nb_num (s : String) : (tNum s).type ≠ .blockComment := by simp [tNum]
theorem nb_nl : tNl.type ≠ .blockComment := by simp [tNl]

theorem nb_opt {o : List (List Token)} (h : ∀ x ∈ o, NB x) : NB (optToks o) := by
  unfold optToks
  split
  · exact nb_nil
  · simp only [nb_append, nb_cons, List.cons_append]
    exact ⟨by simp [tPunct], nb_sep (by simp [NB, tPunct]) h, by simp [tPunct], nb_nil⟩

theorem nb_comments {l : List Token} (h : AllComments l) : NB l := by
  intro t ht
  rcases h t ht with h | h <;> rw [h] <;> simp

theorem nb_name {pl : PrintLib} {s : String} (h : IsName s) : NB (bareToks pl s) := by
  rw [bare_name h]; simp [NB, tSym]

theorem nb_trail (c : String) : NB (trail c) := by
  unfold trail
  split
  · exact nb_nil
  · simp [NB]

theorem nb_endLine {pl : PrintLib} {c : String} (h : IsLine c) : NB (endLineToks pl c) := by
  rw [endLine_eq h]
  exact nb_append.2 ⟨nb_trail c, by simp [NB, tNl]⟩

theorem nb_annos {pl : PrintLib} {m : GoMap String} (h : AnnosOk m) : ∀ x ∈ annoOpts pl m, NB x := by
  intro x hx
  unfold annoOpts at hx
  obtain ⟨kv, hkv, rfl⟩ := List.mem_map.1 hx
  exact nb_append.2 ⟨nb_name (h.item kv hkv).1, by simp [NB, tPunct, quotedTok, tStr]⟩

theorem nb_sizes {pl : PrintLib} {a b : Option Int} (ha : SizeOk a) (hb : SizeOk b) : ∀ x ∈ sizeOpts pl a b, NB x := by
  have one : ∀ (w : String) (n : Int), 0 ≤ n → NB (tSym w :: tPunct .equals :: intToks pl n) := by
    intro w n hn
    rw [intToks_nonneg hn]; simp [NB, tSym, tPunct, tNum]
  intro x hx
  unfold sizeOpts at hx
  rcases List.mem_append.1 hx with hx | hx
  · cases a with
    | none => simp at hx
    | some n => simp at hx; subst hx; exact one _ n (ha n rfl).1
  · cases b with
    | none => simp at hx
    | some n => simp at hx; subst hx; exact one _ n (hb n rfl).1

theorem nb_bounds {lib : PLib} {pl : PrintLib} {a b : Option BigFloat} (ha : ∀ d ∈ a, NumberOk lib pl d) (hb : ∀ d ∈ b, NumberOk lib pl d) :
    ∀ x ∈ boundOpts pl a b, NB x := by
  have one : ∀ (w : String) (d : BigFloat), NumberOk lib pl d → NB (tSym w :: tPunct .equals :: decToks pl d) := by
    intro w d hd
    rw [decToks_ok hd]; simp [NB, tSym, tPunct, tNum]
  intro x hx
  unfold boundOpts at hx
  rcases List.mem_append.1 hx with hx | hx
  · cases a with
    | none => simp at hx
    | some n => simp at hx; subst hx; exact one _ n (ha n rfl)
  · cases b with
    | none => simp at hx
    | some n => simp at hx; subst hx; exact one _ n (hb n rfl)

theorem nb_pattern (p : String) : ∀ x ∈ patternOpts p, NB x := by
  intro x hx
  unfold patternOpts at hx
  split at hx
  · simp at hx
  · simp at hx; subst hx; simp [NB, tSym, tPunct, quotedTok, tStr]

theorem nb_values (vs : Option (List String)) : ∀ x ∈ valuesOpts vs, NB x := by
  intro x hx
  unfold valuesOpts at hx
  cases vs with
  | none => simp at hx
  | some l =>
    simp at hx; subst hx
    unfold stringListToks
    have hd : NB (if 5 < l.length then [tNl] else []) := by split <;> simp [NB, tNl]
    simp only [nb_cons, nb_append, List.cons_append]
    refine ⟨nb_sym _, by simp [tPunct], by simp [tPunct], ⟨⟨hd, ?_⟩, hd⟩, by simp [tPunct], nb_nil⟩
    refine nb_sep (nb_cons.2 ⟨by simp [tPunct], hd⟩) ?_
    intro y hy
    obtain ⟨z, -, rfl⟩ := List.mem_map.1 hy
    simp [NB, quotedTok, tStr]

theorem nb_element {pl : PrintLib} {el : EnumElementDef} (h : ElementOk el) : NB (elementToks pl el) := by
  unfold elementToks annotationsToks
  simp only [nb_append]
  exact ⟨⟨nb_name h.name, nb_opt (nb_annos h.annotations)⟩, nb_endLine h.comment⟩

theorem nb_opts_append {a b : List (List Token)} (ha : ∀ x ∈ a, NB x) (hb : ∀ x ∈ b, NB x) : ∀ x ∈ a ++ b, NB x := by
  intro x hx
  rcases List.mem_append.1 hx with h | h
  · exact ha x h
  · exact hb x h

theorem nb_required (b : Bool) : ∀ x ∈ (if b then [[tSym "required"]] else []), NB x := by
  cases b <;> simp [NB, tSym]

theorem nb_fields {pl : PrintLib} {fs : List StructFieldDef} (h1 : ∀ f ∈ fs, FieldDefOk f)
    (h2 : ∀ f ∈ fs, ∀ o : List (List Token), (∀ x ∈ o, NB x) → NB (specToks pl f.ts o)) : NB (fieldsToks pl false fs) := by
  induction fs with
  | nil => exact nb_nil
  | cons f r ih =>
    rw [fieldsToks]
    refine nb_append.2 ⟨?_, ih (fun x hx => h1 x (by simp [hx])) (fun x hx => h2 x (by simp [hx]))⟩
    have hf := h1 f (by simp)
    have hs := h2 f (by simp)
    obtain ⟨name, comment, annos, req, dflt, ts⟩ := f
    rw [fieldToks]
    simp only [Bool.false_eq_true, if_false, List.nil_append, nb_append]
    exact ⟨⟨nb_name hf.name, hs _ (nb_opts_append (nb_required req) (nb_annos hf.annotations))⟩, nb_endLine hf.comment⟩

theorem nb_spec {lib : PLib} {pl : PrintLib} {ts : TypeSpec} (h : SpecOk lib pl ts) : ∀ o : List (List Token), (∀ x ∈ o, NB x) → NB (specToks pl ts o) := by
  induction h with
  | @named t hn hsp =>
    intro o ho
    rw [toks_named hn (.inl hsp) "" "" o]
    exact nb_cons.2 ⟨nb_sym _, nb_opt ho⟩
  | unitValue =>
    intro o ho
    rw [toks_named (by unfold IsName; decide) (.inr rfl) "Decimal" "String" o]
    exact nb_cons.2 ⟨nb_sym _, nb_opt ho⟩
  | string a b c d =>
    intro o ho
    rw [specToks]
    exact nb_cons.2 ⟨nb_sym _, nb_opt (nb_opts_append (nb_opts_append (nb_opts_append ho (nb_pattern _)) (nb_sizes b c)) (nb_values _))⟩
  | @number t mn mx a b c =>
    intro o ho
    simp only [List.mem_cons, List.not_mem_nil, or_false] at a
    rcases a with rfl | rfl | rfl | rfl | rfl | rfl | rfl <;> rw [specToks] <;>
      exact nb_cons.2 ⟨nb_sym _, nb_opt (nb_opts_append ho (nb_bounds b c))⟩
  | array a b c =>
    intro o ho
    rw [specToks]
    simp only [nb_cons, nb_append, List.cons_append]
    exact ⟨nb_sym _, by simp [tPunct], nb_name a, by simp [tPunct], nb_opt (nb_opts_append ho (nb_sizes b c))⟩
  | map a b c d =>
    intro o ho
    rw [specToks]
    simp only [nb_cons, nb_append, List.cons_append]
    exact ⟨nb_sym _, by simp [tPunct], ⟨nb_name a, by simp [tPunct], nb_name b⟩, by simp [tPunct], nb_opt (nb_opts_append ho (nb_sizes c d))⟩
  | @enum els h =>
    intro o ho
    rw [specToks]
    simp only [nb_cons, nb_append, List.cons_append]
    exact ⟨nb_sym _, by simp [tPunct], nb_nl, nb_flatMap (fun x hx => nb_element (h x hx)), by simp [tPunct], nb_nil⟩
  | @struct fs h1 h2 ih =>
    intro o ho
    rw [specToks]
    split
    · simp [NB, tSym, tNl]
    · rw [no_longComment h1]
      simp only [nb_cons, nb_append, List.cons_append]
      exact ⟨nb_sym _, by simp [tPunct], nb_nl, nb_fields h1 ih, by simp [tPunct], nb_nil⟩

theorem nb_typedef {lib : PLib} {pl : PrintLib} {td : TypeDef} (h : TypeDefOk lib pl td) : NB (typedefToks pl td) := by
  unfold typedefToks
  simp only [nb_cons, nb_append, List.cons_append]
  refine ⟨nb_sym _, ⟨nb_name h.name, ?_⟩, nb_nl, nb_nil⟩
  rcases h.type with ⟨h1, -⟩ | ⟨vs, -, h1, e⟩
  · exact nb_spec h1 [] (by simp)
  · rw [e, specToks, variants_fields h1 lib]
    simp only [nb_cons, nb_append, List.cons_append]
    refine ⟨nb_sym _, by simp [tPunct], nb_nl, nb_fields ?_ ?_, by simp [tPunct], nb_nil⟩
    · intro f hf
      obtain ⟨v, hv, rfl⟩ := List.mem_map.1 hf
      exact (variant_ok (h1 v hv) lib pl).1
    · intro f hf
      obtain ⟨v, hv, rfl⟩ := List.mem_map.1 hf
      exact nb_spec (variant_ok (h1 v hv) lib pl).2.1

theorem nb_blockComment {pl : PrintLib} {c : String} (h : IsWords c) : NB (blockCommentToks pl c) :=
  nb_comments (blockComment_gather h).1

theorem nb_block {word : String} {lines : List (List Token)} (h : ∀ x ∈ lines, NB x) : NB (blockToks word lines) := by
  unfold blockToks
  split
  · exact nb_nil
  · simp only [nb_cons, nb_append, List.cons_append]
    refine ⟨nb_sym _, by simp [tPunct], nb_nl, ?_, by simp [tPunct], nb_nl, nb_nil⟩
    intro t ht
    obtain ⟨x, hx, h'⟩ := List.mem_flatten.1 ht
    exact h x hx t h'

theorem nb_operation {pl : PrintLib} {op : OperationDef} (h : OperationOk op) : NB (operationToks pl op) := by
  unfold operationToks annotationsToks
  simp only [nb_cons, nb_append, List.cons_append, and_assoc]
  refine ⟨nb_sym _, nb_name h.name, nb_opt (nb_annos h.annotations), by simp [tPunct], nb_nl, nb_block ?_, nb_block ?_, nb_block ?_, by simp [tPunct], nb_nl, nb_nil⟩
  · intro x hx
    obtain ⟨f, hf, rfl⟩ := List.mem_map.1 hx
    obtain ⟨n, r, t, h1, h2, rfl⟩ := h.inputs f hf
    unfold inputToks inputOptToks
    simp only [not_long, Bool.false_eq_true, if_false, List.nil_append, nb_append]
    exact ⟨⟨⟨nb_name h1, nb_name h2⟩, nb_opt (nb_required r)⟩, nb_endLine line_empty⟩
  · intro x hx
    obtain ⟨f, hf, rfl⟩ := List.mem_map.1 hx
    obtain ⟨n, t, h1, h2, rfl⟩ := h.outputs f hf
    unfold outputToks
    simp only [not_long, Bool.false_eq_true, if_false, List.nil_append, nb_append]
    refine ⟨⟨⟨nb_name h1, nb_name h2⟩, ?_⟩, nb_endLine line_empty⟩
    unfold leftoverToks
    split
    · exact nb_opt (nb_required _)
    · exact nb_opt (nb_annos h.annotations)
  · intro x hx
    obtain ⟨e, he, rfl⟩ := List.mem_map.1 hx
    exact nb_append.2 ⟨nb_name (h.exceptions e he), by simp [NB, tNl]⟩

theorem nb_brk (pretty : Bool) : NB (if pretty then [tNl] else []) := by cases pretty <;> simp [NB, tNl]

theorem nb_json {lib : PLib} {pl : PrintLib} {v : Value} (h : ValueOk lib pl v) (pretty : Bool) : NB (jsonToks pl pretty v) := by
  induction h with
  | null => simp [jsonToks, NB, tSym]
  | @bool b => cases b <;> simp [jsonToks, NB, tSym]
  | str _ => simp [jsonToks, NB, tStr]
  | dec h => rw [jsonToks, decToks_ok h]; simp [NB, tNum]
  | @arr xs h ih =>
    have items : ∀ ys : List Value, (∀ y ∈ ys, NB (jsonToks pl pretty y)) → NB (jsonItems pl pretty ys) := by
      intro ys
      induction ys with
      | nil => intro _; rw [jsonItems]; exact nb_append.2 ⟨nb_brk _, by simp [NB, tPunct]⟩
      | cons y r ih2 =>
        intro h'
        rw [jsonItems]
        simp only [nb_cons, nb_append, List.cons_append]
        exact ⟨by simp [tPunct], ⟨nb_brk _, h' y (by simp)⟩, ih2 (fun z hz => h' z (by simp [hz]))⟩
    cases xs with
    | nil => simp [jsonToks, NB, tPunct]
    | cons x r =>
      rw [jsonToks]
      simp only [nb_cons, nb_append, List.cons_append]
      exact ⟨by simp [tPunct], ⟨nb_brk _, ih x (by simp)⟩, items r (fun z hz => ih z (by simp [hz]))⟩
  | @obj kvs h1 h2 h ih =>
    have items : ∀ ys : GoMap Value, (∀ y ∈ ys, NB (jsonToks pl pretty y.2)) → NB (jsonMembers pl pretty ys) := by
      intro ys
      induction ys with
      | nil => intro _; rw [jsonMembers]; exact nb_append.2 ⟨nb_brk _, by simp [NB, tPunct]⟩
      | cons y r ih2 =>
        intro h'
        obtain ⟨k, y⟩ := y
        rw [jsonMembers]
        simp only [nb_cons, nb_append, List.cons_append, and_assoc]
        exact ⟨by simp [tPunct], nb_brk _, nb_str _, by simp [tPunct], h' (k, y) (by simp), ih2 (fun z hz => h' z (by simp [hz]))⟩
    cases kvs with
    | nil => simp [jsonToks, NB, tPunct]
    | cons x r =>
      obtain ⟨k, x⟩ := x
      rw [jsonToks]
      simp only [nb_cons, nb_append, List.cons_append, and_assoc]
      exact ⟨by simp [tPunct], nb_brk _, nb_str _, by simp [tPunct], ih (k, x) (by simp), items r (fun z hz => ih z (by simp [hz]))⟩

theorem nb_innerComment {pl : PrintLib} {c : String} (h : IsWords c) : NB (innerCommentToks pl c) :=
  nb_comments (innerComment_gather h).1

theorem paramType_spec {lib : PLib} {pl : PrintLib} {ts : TypeSpec} (h : ParamTypeOk ts) : SpecOk lib pl ts := by
  cases h with
  | @named t hn ht =>
    by_cases hs : t ∈ specialTypes
    · have : t = "String" ∨ t ∈ ["Int8", "Int16", "Int32", "Int64", "Float32", "Float64", "Decimal"] := by
        simp [specialTypes] at hs ht ⊢; tauto
      rcases this with rfl | hnum
      · exact .string plain_empty (by simp [SizeOk]) (by simp [SizeOk]) (by simp)
      · exact .number hnum (by simp) (by simp)
    · exact .named hn hs
  | unitValue => exact .unitValue
  | array a => exact .array a (by simp [SizeOk]) (by simp [SizeOk])
  | map a b => exact .map a b (by simp [SizeOk]) (by simp [SizeOk])

theorem nb_param {lib : PLib} {pl : PrintLib} {path : String} {req : HttpParamSpec → Bool} {p : HttpParamSpec} (h : ParamOk lib pl path req p) :
    NB (paramToks pl p) := by
  unfold paramToks
  simp only [nb_append]
  refine ⟨⟨⟨⟨?_, nb_name h.name⟩, ?_⟩, ?_⟩, ?_⟩
  · split
    case isTrue hw =>
      have hne : p.field.comment ≠ "" := by simp at hw; exact hw.2
      exact nb_comments (commentToks_gather 3 (by decide) h.comment hne false).1
    case isFalse => exact nb_nil
  · have ht : SpecOk lib pl p.field.ts := paramType_spec h.type
    exact nb_spec ht [] (by simp)
  · refine nb_opt ?_
    unfold paramOpts
    refine nb_opts_append (nb_opts_append (nb_required _) ?_) ?_
    · intro x hx
      unfold defaultOpts at hx
      split at hx
      · simp at hx
      · simp only [List.mem_singleton] at hx
        subst hx
        exact nb_cons.2 ⟨nb_sym _, nb_cons.2 ⟨by simp [tPunct], nb_json h.default false⟩⟩
    · split <;> simp [NB, tSym, tPunct, quotedTok, tStr]
  · refine nb_endLine ?_
    split
    · exact line_empty
    · exact words_line h.comment

theorem nb_http {lib : PLib} {pl : PrintLib} {h : HttpDef} (hk : HttpDefOk lib pl h) : NB (httpToks pl h) := by
  obtain ⟨e, he, he1, he2, -, he3⟩ := hk.expected
  have hm : IsName h.method := by
    have := hk.method
    simp only [List.mem_cons, List.not_mem_nil, or_false] at this
    rcases this with h | h | h | h | h | h | h <;> rw [h] <;> (unfold IsName; decide)
  unfold httpToks expectedOf
  rw [he]
  simp only [Option.getD_some, nb_cons, nb_append, List.cons_append, and_assoc]
  have hst : ∀ n : Int, StatusOk n → NB (intToks pl n) := fun n hn => by rw [intToks_nonneg hn.1]; simp [NB, tNum]
  refine ⟨nb_sym _, nb_name hm, nb_quoted _, nb_opt ?_, by simp [tPunct], nb_nl, nb_flatMap (fun x hx => nb_param (hk.inputs x hx)), nb_nl, nb_innerComment he2, nb_sym _,
    hst _ he1, by simp [tPunct], nb_nl, nb_flatMap (fun x hx => nb_param (he3 x hx)), by simp [tPunct], nb_nl, nb_nil, ?_, by simp [tPunct], nb_nl, nb_nil⟩
  · unfold httpOpts
    refine nb_opts_append ?_ (nb_annos hk.annotations)
    split
    case isTrue hne =>
      intro x hx
      simp only [List.mem_singleton] at hx
      subst hx
      refine nb_cons.2 ⟨nb_sym _, nb_cons.2 ⟨by simp [tPunct], nb_name ?_⟩⟩
      rcases hk.name with ⟨h1, -⟩ | ⟨-, -, h1⟩ | ⟨h1, -⟩
      · exact h1
      · exact absurd h1 hne.2
      · exact absurd h1 hne.1
    case isFalse => simp
  · split
    · exact nb_nil
    · refine nb_cons.2 ⟨nb_nl, nb_flatMap (fun x hx => ?_)⟩
      obtain ⟨h1, h2, h3, -⟩ := hk.exceptions x hx
      unfold exceptToks
      simp only [nb_cons, nb_append, List.cons_append, and_assoc]
      refine ⟨nb_innerComment h3, nb_sym _, ?_, nb_name h1, nb_nl, nb_nil⟩
      split
      · exact nb_nil
      · exact hst _ h2

theorem nb_decompile {lib : PLib} {pl : PrintLib} {m : Schema} (h : Printable lib pl m) : NB (decompile pl m) := by
  have hdot : ∀ s, IsDotted s → NB (dottedToks pl s) := by
    intro s hs
    obtain ⟨ps, -, e, -⟩ := dotted_toks (pl := pl) hs
    rw [e]
    intro t ht
    have hmem : ∀ (l : List Token) (x t : Token), t ∈ l.intersperse x → t = x ∨ t ∈ l := by
      intro l x t
      induction l with
      | nil => simp
      | cons a r ih =>
        cases r with
        | nil => simp; tauto
        | cons b r =>
          intro h'
          have e : (a :: b :: r).intersperse x = a :: x :: (b :: r).intersperse x := by simp [List.intersperse]
          rw [e] at h'
          simp only [List.mem_cons] at h' ih ⊢
          rcases h' with h' | h' | h'
          · exact .inr (.inl h')
          · exact .inl h'
          · rcases ih h' with h' | h'
            · exact .inl h'
            · exact .inr (.inr h')
    rcases hmem _ _ _ ht with rfl | h'
    · simp [tPunct]
    · obtain ⟨p, -, rfl⟩ := List.mem_map.1 h'
      simp [tSym]
  unfold decompile headerToks
  simp only [nb_append]
  refine ⟨⟨⟨⟨⟨⟨⟨⟨⟨nb_blockComment h.comment, ?_⟩, ?_⟩, ?_⟩, ?_⟩, ?_⟩, ?_⟩, ?_⟩, ?_⟩, ?_⟩
  · split
    · exact nb_nil
    case isFalse hne =>
      simp only [nb_cons, nb_append, List.cons_append]
      exact ⟨nb_sym _, hdot _ (h.namespace.resolve_left hne), nb_nl, nb_nil⟩
  · split
    · exact nb_nil
    case isFalse hne =>
      simp only [nb_cons, nb_append, List.cons_append]
      exact ⟨nb_sym _, nb_name (h.name.resolve_left hne), nb_nl, nb_nil⟩
  · split <;> simp [NB, tSym, quotedTok, tStr, tNl]
  · split
    · exact nb_nil
    · have e : rawQuotedToks pl m.version = [tStr m.version] := by
        unfold rawQuotedToks
        refine if_pos ?_
        rw [List.all_eq_true]
        intro c hc
        simpa [and_assoc] using h.version c hc
      rw [e]; simp [NB, tSym, tStr, tNl]
  · unfold headerAnnoToks
    split
    · exact nb_nil
    · refine nb_cons.2 ⟨nb_nl, nb_flatMap (fun kv hkv => ?_)⟩
      refine nb_append.2 ⟨nb_append.2 ⟨nb_name (h.annotations.2 kv hkv).1, ?_⟩, by simp [NB, tNl]⟩
      split <;> simp [NB, quotedTok, tStr]
  · exact nb_flatMap (fun x hx => nb_append.2 ⟨nb_cons.2 ⟨nb_nl, nb_blockComment (h.types x hx).comment⟩, nb_typedef (h.types x hx)⟩)
  · exact nb_flatMap (fun x hx => nb_append.2 ⟨nb_cons.2 ⟨nb_nl, nb_blockComment (h.operations x hx).comment⟩, nb_operation (h.operations x hx)⟩)
  · exact nb_flatMap (fun x hx => nb_append.2 ⟨nb_cons.2 ⟨nb_nl, nb_blockComment (h.http x hx).comment⟩, nb_http (h.http x hx)⟩)
  · refine nb_flatMap (fun x hx => nb_append.2 ⟨nb_cons.2 ⟨nb_nl, nb_blockComment (h.examples x hx).comment⟩, ?_⟩)
    have hx' := h.examples x hx
    unfold exampleToks
    simp only [nb_cons, nb_append, List.cons_append, and_assoc]
    exact ⟨nb_sym _, hdot _ hx'.target, by simp [tPunct], nb_sym _, by simp [tPunct], nb_name hx'.name, by simp [tPunct], nb_json hx'.value true, nb_nl, nb_nl, nb_nil⟩

end Sadl.Props
