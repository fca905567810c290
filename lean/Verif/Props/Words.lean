import Verif.Lemmas.WordsSource
import Verif.Props.Accepted
import Verif.Props.GoLex
/-
C102: the names, texts and comments of a model are words, strings and comments of its source.
-/
namespace Sadl.Props
open Sadl Sadl.Spec

/-- C102: whatever holds of the words, strings and comments of a source and the files it includes holds of all names, texts and comments
of the model, if it holds of the words that need not be written and is not lost when comments are joined. -/
theorem C102_any (lib : PLib) (files : String → Option (List Token)) (n : Nat) (name ns : String) (toks : List Token) (m : Model)
    (h : Parses lib (parseFileN lib files n) (initialSchema name ns) toks m) (o : Origins)
    (hw : ∀ w ∈ impliedWords, o.word w) (ht : o.text "") (hc : o.comment "") (hm : ∀ a b, o.comment a → o.comment b → o.comment (mergeComment a b))
    (h1 : ∀ x, TokenOf files toks ⟨.symbol, x⟩ → o.word x) (h2 : ∀ x, TokenOf files toks ⟨.string, x⟩ → o.text x)
    (h3 : ∀ x, TokenOf files toks ⟨.lineComment, x⟩ → o.comment x)
    (h4 : ∀ x q, TokenOf files toks ⟨.string, x⟩ → lib.unquote x = some q → o.value q) : FromSchema o m.schema := by
  have htok : ∀ t, TokenOf files toks t → TokIn lib o t := by
    rintro ⟨ty, x⟩ ht
    exact ⟨by rintro ⟨⟩; exact h1 x ht, by rintro ⟨⟩; exact ⟨h2 x ht, fun q hq => h4 x q ht hq⟩, by rintro ⟨⟩; exact h3 x ht⟩
  have hcl : Closed o := ⟨hw, ht, hc, hm⟩
  obtain ⟨hs, _⟩ := parseNoValidate_iff.1 (parses_iff.1 h).1
  refine source_in hcl (fun f inc hi => ?_) hs (AllIn.significant fun t ht => htok t (.inl ht)) hc ⟨by simp [initialSchema], by simp [initialSchema], by simp [initialSchema], by simp [initialSchema]⟩
  obtain ⟨m', hm', rfl⟩ := hi
  exact file_in hcl (fun f ts hf t ht => htok t (.inr ⟨f, ts, hf, ht⟩)) n f _ ((fileSchemaN_iff n f m').1 hm').1

/-- C102: every name in a model is a symbol of its source, or of a file it includes, or one of a few words that need not be written; every
text is a string of the source; every comment consists of characters of comments of the source; and the name of an action that has none
is made of its method and a segment of its path. -/
theorem C102_names (lib : PLib) (files : String → Option (List Token)) (n : Nat) (name ns : String) (toks : List Token) (m : Model)
    (h : Parses lib (parseFileN lib files n) (initialSchema name ns) toks m) : FromSchema (sourceOrigins lib files toks) m.schema := by
  have hc := sourceOrigins_closed lib files toks
  refine C102_any lib files n name ns toks m h _ hc.implied hc.text hc.comment hc.merge (fun x hx => .inr hx) (fun x hx => .inr hx)
    (fun x hx ch hch => .inr ⟨x, hx, hch⟩) (fun x q hx hq => ⟨x, hx, hq⟩)

/-! ### What this means for the generated files -/

theorem goMethod {x : String} (h : x ∈ ["GET", "PUT", "POST", "DELETE", "PATCH", "HEAD", "OPTIONS"]) : GoName x := by
  simp only [List.mem_cons, List.not_mem_nil, or_false] at h
  rcases h with rfl | rfl | rfl | rfl | rfl | rfl | rfl <;> exact goNameB_name (by decide +kernel)

theorem lowerMethod {x : String} (h : x ∈ ["GET", "PUT", "POST", "DELETE", "PATCH", "HEAD", "OPTIONS"]) : GoName (lowerS x) := by
  simp only [List.mem_cons, List.not_mem_nil, or_false] at h
  rcases h with rfl | rfl | rfl | rfl | rfl | rfl | rfl <;> exact goNameB_name (by decide +kernel)

theorem mget_from {o : Origins} {a : GoMap String} (h : FromAnnotations o a) {k v : String} (hk : mget a k = some v) : o.text v :=
  (h (k, v) (mget_mem hk)).2

/-- What is required of the tokens of a source for its texts to be written in Go: symbols without brackets, quotes, slashes and line
ends, strings without quotes, backslashes and line ends. -/
structure GoTokens (files : String → Option (List Token)) (toks : List Token) : Prop where
  symbols : ∀ x, TokenOf files toks ⟨.symbol, x⟩ → GoName x
  strings : ∀ x, TokenOf files toks ⟨.string, x⟩ → GoQuotable x

/-- The predicate on names and texts that Go needs. -/
def goOrigins : Origins := ⟨GoName, GoQuotable, fun _ => True, fun _ => True⟩

theorem goNamesRef_of {ts : TypeSpec} (h : FromSpec goOrigins ts) : GoNamesRef ts := by
  cases h with
  | mk hp _ _ _ _ => exact ⟨hp.type, hp.items, hp.keys⟩

theorem goNamesParam_of {path : String} {p : HttpParamSpec} (h : FromParam goOrigins path p) : GoNamesParam p :=
  ⟨h.field.name, goNamesRef_of h.field.type, h.header⟩

/-- C102, C101: the names and texts of a source can be written in Go if its tokens can and the segments of the paths of its actions can. -/
theorem C102_go (lib : PLib) (files : String → Option (List Token)) (n : Nat) (name ns : String) (toks : List Token) (m : Model)
    (h : Parses lib (parseFileN lib files n) (initialSchema name ns) toks m) (ht : GoTokens files toks) (ha : ∀ h ∈ m.schema.http, ∀ seg, Segment h.path seg → GoName seg) :
    GoNamesSource m.schema := by
  have key : FromSchema goOrigins m.schema := by
    refine C102_any lib files n name ns toks m h goOrigins ?_ (fun _ h => by simp at h) trivial (fun _ _ _ _ => trivial) ht.symbols ht.strings
      (fun _ _ => trivial) (fun _ _ _ _ => trivial)
    intro w hw
    simp only [impliedWords, List.mem_cons, List.not_mem_nil, or_false] at hw
    rcases hw with rfl | rfl | rfl | rfl | rfl | rfl | rfl | rfl <;> exact goNameB_name (by decide +kernel)
  refine ⟨fun td htd => ⟨(key.types td htd).name, ?_⟩, fun a haa => ?_⟩
  · have hr := goNamesRef_of (key.types td htd).type
    cases (key.types td htd).type with
    | mk hp hf hf' hv hv' =>
      exact ⟨hr, fun f h => ⟨(hf f h).1, goNamesRef_of (hf' f h)⟩, fun f h => ⟨(hv f h).1, goNamesRef_of (hv' f h)⟩,
        fun el h => ⟨(hp.elements el h).1, fun v hv => mget_from (hp.elements el h).2.2 hv⟩⟩
  · have k := key.actions a haa
    have hr : GoName a.resource := k.resource.elim id (ha a haa _)
    have hn : GoName a.name := k.name.elim id fun e => by
      rw [e]
      exact (lowerMethod k.method).append hr.capitalize
    exact ⟨hn, fun c hc => by
        have := (goMethod k.method).1 c hc
        simp only [List.mem_cons, List.not_mem_nil, or_false, not_or] at this
        exact ⟨this.2.2.2.2.2.2.1, this.2.2.2.2.2.2.2.2.2.1, this.2.2.2.2.2.2.2.2.2.2.1⟩,
      k.path, fun p hp => goNamesParam_of (k.inputs p hp), fun e he p hp => goNamesParam_of ((k.expected e he).2.2 p hp),
      fun x hx => (k.exceptions x hx).1⟩

/-- What is required of the tokens of a source for its texts to be written in Java. -/
structure JavaTokens (lib : PLib) (files : String → Option (List Token)) (toks : List Token) : Prop where
  symbols : ∀ x, TokenOf files toks ⟨.symbol, x⟩ → PlainText x
  strings : ∀ x, TokenOf files toks ⟨.string, x⟩ → RawText x ∧ QuotableText x
  comments : ∀ x, TokenOf files toks ⟨.lineComment, x⟩ → CommentText x
  values : ∀ x q, TokenOf files toks ⟨.string, x⟩ → lib.unquote x = some q → QuotableText q

/-- The predicate on names and texts that Java needs. -/
def javaOrigins : Origins := ⟨PlainText, fun x => RawText x ∧ QuotableText x, CommentText, QuotableText⟩

theorem plainSpec_of {ts : TypeSpec} (h : FromSpec javaOrigins ts) : PlainSpec ts := by
  intro sub hsub
  induction hsub with
  | here =>
    cases h with
    | mk hp hf _ hv _ =>
      exact ⟨hp.type, hp.items, hp.keys, hp.value, hp.unit, hp.pattern.2, fun f h => ⟨(hf f h).1, (hf f h).2.1⟩,
        fun v h => ⟨(hv v h).1, (hv v h).2.1⟩,
        fun el h => ⟨(hp.elements el h).1, (hp.elements el h).2.1, fun v hv => (mget_from (o := javaOrigins) (hp.elements el h).2.2 hv).1⟩⟩
  | field hm _ ih =>
    cases h with
    | mk _ _ hf _ _ => exact ih (hf _ hm)
  | variant hm _ ih =>
    cases h with
    | mk _ _ _ _ hv => exact ih (hv _ hm)

theorem plainParam_of {path : String} (hpath : RawText path) {p : HttpParamSpec} (h : FromParam javaOrigins path p) : PlainParam p := by
  refine ⟨h.field.name, h.field.comment, plainSpec_of h.field.type, fun c hc => ?_, h.header.1, h.field.default⟩
  obtain ⟨a, b, e⟩ := h.query
  exact hpath c (by rw [e]; simp [hc])

/-- C102, C100: the names and texts of a source can be written in Java if its tokens, its name and base path and the segments of the paths of its actions can. -/
theorem C102_java (lib : PLib) (files : String → Option (List Token)) (n : Nat) (name ns : String) (toks : List Token) (m : Model)
    (h : Parses lib (parseFileN lib files n) (initialSchema name ns) toks m) (ht : JavaTokens lib files toks)
    (hn : PlainText m.schema.name) (hb : RawText m.schema.base) (ha : ∀ h ∈ m.schema.http, ∀ seg, Segment h.path seg → PlainText seg) :
    PlainSource m.schema := by
  have key : FromSchema javaOrigins m.schema := by
    refine C102_any lib files n name ns toks m h javaOrigins ?_ ⟨fun _ h => by simp at h, fun _ h => by simp at h⟩ (fun h => by simp at h) (fun a b ha hb h => ?_)
      ht.symbols ht.strings ht.comments ht.values
    · intro w hw
      simp only [impliedWords, List.mem_cons, List.not_mem_nil, or_false] at hw
      rcases hw with rfl | rfl | rfl | rfl | rfl | rfl | rfl | rfl <;> exact plainB_iff (by decide +kernel)
    · rcases mergeComment_mem h with h | h | h
      · exact absurd h (by decide)
      · exact ha h
      · exact hb h
  refine ⟨hn, hb, fun td htd => ⟨(key.types td htd).name, (key.types td htd).comment, plainSpec_of (key.types td htd).type⟩, fun a haa => ?_⟩
  have k := key.actions a haa
  have hr : PlainText a.resource := k.resource.elim id (ha a haa _)
  have hn : PlainText a.name := k.name.elim id fun e => by
    rw [e]
    exact (lowerMethod k.method).1.append hr.capitalize
  exact ⟨hn, (goMethod k.method).1, k.path.1, fun p hp => plainParam_of k.path.1 (k.inputs p hp),
    fun e he p hp => plainParam_of k.path.1 ((k.expected e he).2.2 p hp), fun x hx => (k.exceptions x hx).1⟩

/-! ### Examples and refutations -/

/-- Parsing a source without includes, of which the model is as wanted. -/
theorem parses_of (lib : PLib) (toks : List Token) (p : Model → Bool) (h : accepts lib toks p = true) :
    ∃ m, Parses lib (parseFileN lib (fun _ => none) 0) (initialSchema "" "") toks m ∧ p m = true := by
  unfold accepts at h
  split at h
  · next m hm => exact ⟨m, ⟨5, hm⟩, h⟩
  · simp at h

theorem tokenOf_none {toks : List Token} {t : Token} (h : TokenOf (fun _ => none) toks t) : t ∈ toks :=
  h.elim id fun ⟨_, _, hf, _⟩ => by cases hf

/-- The tokens of the source can be written in Go and Java. -/
def tokensB (toks : List Token) : Bool :=
  toks.all fun t => match t.type with
    | .symbol => goNameB t.text
    | .string => lacks ['"', '\\', '\n', '\r'] t.text && t.text.toList.all (fun c => decide (32 ≤ c.toNat ∧ c.toNat ≠ 127))
    | .lineComment => lacks ['\r'] t.text
    | _ => true

/-- The segments of a path are plain. -/
def segmentsB (path : String) : Bool := (splitAll '/' path.toList).all fun w => decide ('{' ∈ w) || goNameB (String.ofList w)

theorem segmentsB_iff {path : String} (h : segmentsB path = true) : ∀ seg, Segment path seg → GoName seg := by
  rintro seg ⟨ws, hp, hm, hn⟩
  rw [pieces_unique hp] at hm
  have := List.all_eq_true.1 h _ hm
  simp only [Bool.or_eq_true, decide_eq_true_eq, hn, false_or, String.ofList_toList] at this
  exact goNameB_name this

/-- The source `http <method> "<path>" { }`. -/
def unnamedSource (method path : String) : List Token := [sym "http", sym method, str path, punct .openBrace, nl, punct .closeBrace, nl]

/-- The source of the example: an action with a name and one without. -/
def wordsSource : List Token := lexSource ++ unnamedSource "GET" "/things/{id}"

/-- The hypotheses of C102 and its consequences can be met: with types, an enum and an action with inputs and outputs, whose name is made of the
method and a segment of the path. -/
theorem C102_example : ∃ m, Parses noLib (parseFileN noLib (fun _ => none) 0) (initialSchema "" "") wordsSource m ∧
    GoTokens (fun _ => none) wordsSource ∧ JavaTokens noLib (fun _ => none) wordsSource ∧ (∀ h ∈ m.schema.http, ∀ seg, Segment h.path seg → GoName seg) ∧
    m.schema.http.map (fun h => (h.name, h.resource)) = [("doIt", ""), ("getThings", "things")] ∧ ⟨.symbol, "getThings"⟩ ∉ wordsSource := by
  obtain ⟨m, h1, h2⟩ := parses_of noLib wordsSource (fun m => m.schema.http.all (fun h => segmentsB h.path) &&
    decide (m.schema.http.map (fun h => (h.name, h.resource)) = [("doIt", ""), ("getThings", "things")])) (by decide +kernel)
  simp only [Bool.and_eq_true, List.all_eq_true, decide_eq_true_eq] at h2
  have ht : tokensB wordsSource = true := by decide +kernel
  have hk : ∀ t ∈ wordsSource, _ := List.all_eq_true.1 ht
  have hs : ∀ x, TokenOf (fun _ => none) wordsSource ⟨.string, x⟩ → RawText x ∧ QuotableText x := by
    intro x hx
    have := hk _ (tokenOf_none hx)
    simp only [Bool.and_eq_true, List.all_eq_true, decide_eq_true_eq] at this
    refine ⟨fun c hc => ?_, fun c hc => .inl (this.2 c hc)⟩
    exact of_decide_eq_true (List.all_eq_true.1 this.1 c hc)
  refine ⟨m, h1, ⟨fun x hx => goNameB_name (hk _ (tokenOf_none hx)), fun x hx c hc => ?_⟩,
    ⟨fun x hx => (goNameB_name (hk _ (tokenOf_none hx))).1, hs, fun x hx hr => ?_, fun x q hx hq => ?_⟩,
    fun h hh => segmentsB_iff (h2.1 h hh), h2.2, by decide +kernel⟩
  · have := (hs x hx).1 c hc
    simp only [List.mem_cons, List.not_mem_nil, or_false, not_or] at this
    exact ⟨this.1, this.2.1, this.2.2.1⟩
  · have := of_decide_eq_true (List.all_eq_true.1 (hk _ (tokenOf_none hx)) _ hr)
    simp at this
  · have : q = x := by
      have h : noLib.unquote x = some x := rfl
      rw [h] at hq
      injection hq with hq
      exact hq.symm
    rw [this]
    exact (hs x hx).2

/-- C102: that the names of actions are words does not hold: here it contains a bracket that is in no symbol of the source. -/
theorem C102_refuted_action : ∃ m, Parses noLib (parseFileN noLib (fun _ => none) 0) (initialSchema "" "") (unnamedSource "GET" "/a(b") m ∧
    (∀ x, TokenOf (fun _ => none) (unnamedSource "GET" "/a(b") ⟨.symbol, x⟩ → GoName x) ∧ ∃ h ∈ m.schema.http, h.name = "getA(b" := by
  obtain ⟨m, h1, h2⟩ := parses_of noLib (unnamedSource "GET" "/a(b") (fun m => m.schema.http.any (fun h => decide (h.name = "getA(b"))) (by decide +kernel)
  simp only [List.any_eq_true, decide_eq_true_eq] at h2
  refine ⟨m, h1, fun x hx => ?_, h2⟩
  have ht : tokensB (unnamedSource "GET" "/a(b") = true := by decide +kernel
  exact goNameB_name (List.all_eq_true.1 ht _ (tokenOf_none hx))

end Sadl.Props
