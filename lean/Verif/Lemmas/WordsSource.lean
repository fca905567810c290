import Verif.Lemmas.Words
/-
Names, texts and comments of a parsed source: actions and whole sources.
-/
namespace Sadl
open Sadl.Spec

variable {lib : PLib} {o : Origins}

theorem occurs_through {a b c : List Char} (h1 : Occurs a b) (h2 : Occurs b c) : Occurs a c := by
  obtain ⟨x, y, rfl⟩ := h1
  obtain ⟨z, w, rfl⟩ := h2
  exact ⟨z ++ x, y ++ w, by simp⟩

theorem splitAll_occurs {c : Char} : ∀ {s w : List Char}, w ∈ splitAll c s → Occurs w s := by
  intro s w h
  have hj := joinWith_splitAll c s
  generalize splitAll c s = ws at h hj
  induction ws generalizing s with
  | nil => cases h
  | cons v vs ih =>
    cases vs with
    | nil =>
      rw [List.mem_singleton.1 h]
      exact ⟨[], [], by rw [← hj]; simp [joinWith]⟩
    | cons u us =>
      rcases List.mem_cons.1 h with rfl | h
      · exact ⟨[], c :: joinWith c (u :: us), by rw [← hj]; simp [joinWith]⟩
      · refine occurs_through (ih h rfl) ⟨v ++ [c], [], ?_⟩
        rw [← hj]
        simp [joinWith]

theorem queryPart_occurs (t : List Char) : Occurs (queryPart t) t := by
  obtain ⟨_, h | ⟨_, h⟩⟩ := pathAndQuery t
  · exact ⟨pathPart t ++ ['?'], [], by simpa using h⟩
  · rw [h]; exact ⟨[], t, by simp⟩

theorem query_occurs {path n hd k : String} (h : parameterSource path n hd = .query k) : Occurs k.toList path.toList := by
  rw [parameterSource_eq] at h
  split_ifs at h
  split at h
  · next w hw =>
    injection h with h
    subst h
    obtain ⟨before, item, after, h1, ⟨more, h2⟩, _⟩ := (queryKey_some _ _ _).1 hw
    rw [String.toList_ofList]
    refine occurs_through (splitAll_occurs (c := '=') (s := item) (by rw [h2]; simp)) ?_
    exact occurs_through (splitAll_occurs (c := '&') (by rw [h1]; simp)) (queryPart_occurs _)
  · cases h

theorem occurs_nil (s : List Char) : Occurs ("" : String).toList s := ⟨[], s, by simp⟩

theorem param_in {path c : String} {ts r : List Token} {p : HttpParamSpec} (hc : Closed o) (h : Param lib path c ts p r)
    (ht : AllIn lib o ts) (h0 : o.comment c) : FromParam o path p ∧ AllIn lib o r := by
  cases h with
  | @mk n _ _ _ _ po _ _ _ _ _ _ h1 hp h2 h3 =>
    obtain ⟨k1, k2⟩ := typeExpr_in hc h1 ht.tail
    obtain ⟨k3, k4⟩ := opts_in hc h2 k2
    obtain ⟨k5, k6⟩ := ends_in hc h3 k4 (hc.merge _ _ h0 k1.comment)
    have hs := hasParts_in hc hp k1
    refine ⟨⟨⟨ht.sym, k5, k3.annotations, k3.default, .of_fields hs.1 hs.2.1 hs.2.2⟩, k3.header, ?_⟩, k6⟩
    unfold paramOf
    dsimp only
    split
    · next k hk => exact query_occurs hk
    · exact occurs_nil _

theorem expectBody_in {path c : String} {ts r : List Token} {q : List HttpParamSpec × String} (hc : Closed o)
    (h : ExpectBody lib path c ts q r) : AllIn lib o ts → o.comment c → ((∀ p ∈ q.1, FromParam o path p) ∧ o.comment q.2) ∧ AllIn lib o r := by
  induction h with
  | close => exact fun ht h0 => ⟨⟨by simp, h0⟩, ht.tail⟩
  | comment _ ih => exact fun ht h0 => ih ht.tail (hc.merge _ _ h0 ht.rem)
  | newline _ ih => exact fun ht h0 => ih ht.tail h0
  | output hp _ ih =>
    intro ht h0
    obtain ⟨k1, k2⟩ := param_in hc hp ht h0
    obtain ⟨⟨k3, k4⟩, k5⟩ := ih k2 hc.comment
    refine ⟨⟨fun p hp => ?_, k4⟩, k5⟩
    rcases List.mem_cons.1 hp with rfl | hp
    · exact k1
    · exact k3 p hp

/-- What is known of an expected response. -/
def FromExpected (o : Origins) (path : String) (e : HttpExpectedSpec) : Prop :=
  o.comment e.comment ∧ FromAnnotations o e.annotations ∧ ∀ p ∈ e.outputs, FromParam o path p

theorem expect_in {path c : String} {ts r : List Token} {e : HttpExpectedSpec} (hc : Closed o) (h : Expect lib path c ts e r)
    (ht : AllIn lib o ts) (h0 : o.comment c) : FromExpected o path e ∧ AllIn lib o r := by
  cases h with
  | body _ h1 h2 h3 h4 =>
    obtain ⟨k1, k2⟩ := opts_in hc h1 ht.tail
    obtain ⟨k3, k4⟩ := trailing_in hc h2 k2.tail h0
    obtain ⟨⟨k5, k6⟩, k7⟩ := expectBody_in hc h3 k4 hc.comment
    obtain ⟨k8, k9⟩ := ends_in hc h4 k7 (hc.merge _ _ k3 k6)
    exact ⟨⟨k8, k1.annotations, k5⟩, k9⟩
  | entity _ h1 h2 =>
    obtain ⟨k1, k2⟩ := opts_in hc h1 ht.tail
    obtain ⟨k3, k4⟩ := ends_in hc h2 k2.tail hc.comment
    refine ⟨⟨k3, k1.annotations, fun p hp => ?_⟩, k4⟩
    rw [List.mem_singleton.1 hp]
    exact ⟨⟨hc.implied "entity" (by decide), hc.comment, .nil, fun _ h => (by cases h), plainRef_in hc k2.sym⟩, hc.text, occurs_nil _⟩
  | none _ h1 _ _ h2 =>
    obtain ⟨k1, k2⟩ := opts_in hc h1 ht.tail
    obtain ⟨k3, k4⟩ := ends_in hc h2 k2 hc.comment
    exact ⟨⟨k3, k1.annotations, by simp⟩, k4⟩

theorem except_in {c : String} {ts r : List Token} {e : HttpExceptionSpec} (hc : Closed o) (h : Spec.Except lib c ts e r)
    (ht : AllIn lib o ts) (h0 : o.comment c) : (o.word e.type ∧ o.comment e.comment ∧ FromAnnotations o e.annotations) ∧ AllIn lib o r := by
  cases h with
  | status _ h1 h2 =>
    obtain ⟨k1, k2⟩ := opts_in hc h1 ht.tail.tail
    obtain ⟨k3, k4⟩ := ends_in hc h2 k2 h0
    exact ⟨⟨ht.tail.sym, k3, k1.annotations⟩, k4⟩
  | noStatus h1 h2 =>
    obtain ⟨k1, k2⟩ := opts_in hc h1 ht.tail
    obtain ⟨k3, k4⟩ := ends_in hc h2 k2 h0
    exact ⟨⟨ht.sym, k3, k1.annotations⟩, k4⟩

/-- An action whose name and resource are as given. -/
structure GivenAction (o : Origins) (h : HttpDef) : Prop extends FromAction o h where
  givenName : o.word h.name
  givenResource : o.word h.resource

theorem httpBody_in {c : String} {ts r : List Token} {h h' : HttpDef} (hc : Closed o) (hb : HttpBody lib h c ts h' r) : AllIn lib o ts →
    o.comment c → GivenAction o h → GivenAction o h' ∧ AllIn lib o r := by
  induction hb with
  | close => exact fun ht _ hh => ⟨hh, ht.tail⟩
  | comment _ ih => exact fun ht h0 hh => ih ht.tail (hc.merge _ _ h0 ht.rem) hh
  | newline _ ih => exact fun ht h0 hh => ih ht.tail h0 hh
  | param hp _ ih =>
    intro ht h0 hh
    obtain ⟨k1, k2⟩ := param_in hc hp ht h0
    refine ih k2 hc.comment { hh with inputs := fun p hp => ?_ }
    rcases List.mem_append.1 hp with hp | hp
    · exact hh.inputs p hp
    · rw [List.mem_singleton.1 hp]; exact k1
  | expect _ he _ ih =>
    intro ht h0 hh
    obtain ⟨k1, k2⟩ := expect_in hc he ht.tail h0
    refine ih k2 hc.comment { hh with expected := fun e he => ?_ }
    injection he with he
    subst he
    exact k1
  | except _ he _ ih =>
    intro ht h0 hh
    obtain ⟨k1, k2⟩ := except_in hc he ht.tail h0
    refine ih k2 hc.comment { hh with exceptions := fun p hp => ?_ }
    rcases List.mem_append.1 hp with hp | hp
    · exact hh.exceptions p hp
    · rw [List.mem_singleton.1 hp]; exact k1

theorem namedAction_in {h h' : HttpDef} (hn : NamedAction h h') (hh : GivenAction o h) : FromAction o h' := by
  cases hn with
  | given _ => exact hh.toFromAction
  | resource _ _ => exact { hh.toFromAction with name := .inr rfl }
  | @segment seg _ _ hl hne =>
    refine { hh.toFromAction with name := .inr rfl, resource := .inr ?_ }
    rcases hl with ⟨before, after, hp, hs, _⟩ | ⟨he, _⟩
    · exact ⟨_, hp, by simp, by simpa using hs⟩
    · exact absurd he hne
  | nothing _ _ _ => exact hh.toFromAction

theorem required_in {path : String} {p : HttpParamSpec} {b : Bool} (h : FromParam o path p) :
    FromParam o path { p with field := { p.field with required := b } } := ⟨{ h.field with }, h.header, h.query⟩

theorem withRequired_in {h : HttpDef} (hh : FromAction o h) : FromAction o (withRequired h) := by
  refine { hh with inputs := fun p hp => ?_, expected := fun e he => ?_ }
  · obtain ⟨q, hq, rfl⟩ := List.mem_map.1 hp
    exact required_in (hh.inputs q hq)
  · obtain ⟨e0, he0, rfl⟩ := Option.map_eq_some_iff.1 he
    obtain ⟨k1, k2, k3⟩ := hh.expected e0 he0
    refine ⟨k1, k2, fun p hp => ?_⟩
    obtain ⟨q, hq, rfl⟩ := List.mem_map.1 hp
    exact required_in (k3 q hq)

theorem httpDirective_in {c : String} {ts r : List Token} {h : HttpDef} (hc : Closed o) (hd : HttpDirective lib c ts h r)
    (ht : AllIn lib o ts) (h0 : o.comment c) : FromAction o h ∧ AllIn lib o r := by
  cases hd with
  | mk hm h1 h2 h3 h4 h5 =>
    obtain ⟨k1, k2⟩ := opts_in hc h1 ht.tail.tail
    obtain ⟨k3, k4⟩ := trailing_in hc h2 k2.tail h0
    obtain ⟨k5, k6⟩ := httpBody_in hc h3 k4 hc.comment
      ⟨⟨.inl k1.resource, .inl k1.action, k3, k1.annotations, hm, ht.tail.str, by simp, by simp, by simp⟩, k1.action, k1.resource⟩
    obtain ⟨k7, k8⟩ := ends_in hc h4 k6 k5.comment
    exact ⟨withRequired_in (namedAction_in h5 { k5 with comment := k7 }), k8⟩

/-! ### Sources -/

theorem dotted_in {ts r : List Token} {m : String} (h : Dotted ts m r) : AllIn lib o ts → AllIn lib o r := by
  induction h with
  | last _ _ => exact fun ht => ht.tail
  | more _ _ ih => exact fun ht => ih ht.tail.tail

theorem valueLine_in {ts r : List Token} {v c : String} (hc : Closed o) (h : ValueLine ts v c r) : AllIn lib o ts → o.comment c ∧ AllIn lib o r := by
  induction h with
  | end_ => exact fun ht => ⟨hc.comment, ht.tail⟩
  | source => exact fun ht => ⟨hc.comment, ht⟩
  | comment => exact fun ht => ⟨ht.rem, ht.tail.tail⟩
  | commentEnd => exact fun ht => ⟨ht.rem, ht.tail⟩
  | value _ _ ih => exact fun ht => ih ht.tail
  | equals _ _ _ ih => exact fun ht => ih ht.tail

theorem withIncluded_in {sch inc : Schema} {f : String} (hc : Closed o) (hf : o.text f) (h : FromSchema o sch) (hi : FromSchema o inc) :
    FromSchema o (withIncluded sch f inc) := by
  have hx := hc.implied "x_include" (by decide)
  refine ⟨fun x hm => ?_, fun x hm => ?_, fun x hm => ?_, h.examples⟩
  · rcases List.mem_append.1 hm with hm | hm
    · exact h.types x hm
    · obtain ⟨y, hy, rfl⟩ := List.mem_map.1 hm
      exact { hi.types y hy with annotations := (hi.types y hy).annotations.set hx hf }
  · rcases List.mem_append.1 hm with hm | hm
    · exact h.actions x hm
    · obtain ⟨y, hy, rfl⟩ := List.mem_map.1 hm
      exact { hi.actions y hy with annotations := (hi.actions y hy).annotations.set hx hf }
  · rcases List.mem_append.1 hm with hm | hm
    · exact h.operations x hm
    · obtain ⟨y, hy, rfl⟩ := List.mem_map.1 hm
      exact { hi.operations y hy with annotations := (hi.operations y hy).annotations.set hx hf }

theorem mem_snoc {α : Type} {P : α → Prop} {l : List α} {a : α} (h : ∀ x ∈ l, P x) (ha : P a) : ∀ x ∈ l ++ [a], P x := by
  intro x hx
  rcases List.mem_append.1 hx with hx | hx
  · exact h x hx
  · rw [List.mem_singleton.1 hx]; exact ha

theorem directive_in {incl : String → Schema → Prop} {sch sch' : Schema} {c w : String} {ts r : List Token} (hc : Closed o)
    (hincl : ∀ f inc, incl f inc → FromSchema o inc) (h : Directive lib incl sch c w ts sch' r) (ht : AllIn lib o ts) (h0 : o.comment c)
    (hs : FromSchema o sch) : FromSchema o sch' ∧ AllIn lib o r := by
  cases h with
  | name _ => exact ⟨{ hs with }, ht.tail⟩
  | «namespace» h => exact ⟨{ hs with }, dotted_in h ht⟩
  | version _ => exact ⟨{ hs with }, ht.tail⟩
  | base _ => exact ⟨{ hs with }, ht.tail⟩
  | type h =>
    obtain ⟨k1, k2⟩ := typeDirective_in hc h ht h0
    exact ⟨{ hs with types := mem_snoc hs.types k1 }, k2⟩
  | «example» h =>
    obtain ⟨k1, k2⟩ := exampleDirective_in hc h ht h0
    exact ⟨{ hs with examples := mem_snoc hs.examples k1 }, k2⟩
  | operation h =>
    obtain ⟨k1, k2⟩ := operationDirective_in hc h ht h0
    exact ⟨{ hs with operations := mem_snoc hs.operations k1 }, k2⟩
  | http h =>
    obtain ⟨k1, k2⟩ := httpDirective_in hc h ht h0
    exact ⟨{ hs with actions := mem_snoc hs.actions k1 }, k2⟩
  | «include» h _ _ => exact ⟨withIncluded_in hc ht.str { hs with } (hincl _ _ h), ht.tail⟩
  | annotation _ h => exact ⟨{ hs with }, (valueLine_in hc h ht).2⟩
  | unknown _ _ => exact ⟨hs, ht⟩

theorem source_in {incl : String → Schema → Prop} {sch sch' : Schema} {c : String} {ts : List Token} (hc : Closed o)
    (hincl : ∀ f inc, incl f inc → FromSchema o inc) (h : Source lib incl sch c ts sch') : AllIn lib o ts → o.comment c →
    FromSchema o sch → FromSchema o sch' := by
  induction h with
  | done => exact fun _ _ hs => hs
  | comment _ ih => exact fun ht h0 hs => ih ht.tail (hc.merge _ _ h0 ht.rem) hs
  | sep _ _ ih => exact fun ht h0 hs => ih ht.tail h0 hs
  | directive hd _ ih =>
    intro ht h0 hs
    obtain ⟨k1, k2⟩ := directive_in hc hincl hd ht.tail h0 hs
    exact ih k2 hc.comment k1

theorem AllIn.significant {ts : List Token} (h : AllIn lib o ts) : AllIn lib o (significant ts) :=
  fun t ht => h t (List.mem_filter.1 ht).1

theorem file_in {files : String → Option (List Token)} (hc : Closed o) (hf : ∀ f ts, files f = some ts → AllIn lib o ts) (n : Nat) :
    ∀ f sch, FileSchemaN lib files n f sch → FromSchema o sch := by
  induction n with
  | zero => exact fun _ _ h => h.elim
  | succ n ih =>
    rintro f sch ⟨toks, h1, h2, _⟩
    exact source_in hc ih h2 (hf f toks h1).significant hc.comment ⟨by simp, by simp, by simp, by simp⟩

/-! ### The words, strings and comments of a source -/

theorem trimSpaceL_mem {s : List Char} {c : Char} (h : c ∈ trimSpaceL s) : c ∈ s := by
  unfold trimSpaceL at h
  have := (List.dropWhile_suffix _).subset (List.mem_reverse.1 h)
  exact (List.dropWhile_suffix _).subset (List.mem_reverse.1 this)

theorem mergeComment_mem {a b : String} {c : Char} (h : c ∈ (mergeComment a b).toList) : c = ' ' ∨ c ∈ a.toList ∨ c ∈ b.toList := by
  unfold mergeComment at h
  split_ifs at h
  · exact .inr (.inr (trimSpaceL_mem (by simpa [trimSpace] using h)))
  · exact .inr (.inl (trimSpaceL_mem (by simpa [trimSpace] using h)))
  · simp only [trimSpace, String.toList_append, String.toList_ofList, List.mem_append] at h
    rcases h with (h | h) | h
    · exact .inr (.inl (trimSpaceL_mem h))
    · exact .inl (by simpa using h)
    · exact .inr (.inr (trimSpaceL_mem h))

theorem sourceOrigins_closed (lib : PLib) (files : String → Option (List Token)) (toks : List Token) : Closed (sourceOrigins lib files toks) where
  implied _ h := .inl h
  text := .inl rfl
  comment := fun _ h => by simp at h
  merge a b ha hb ch h := by
    rcases mergeComment_mem h with h | h | h
    · exact .inl h
    · exact ha ch h
    · exact hb ch h

theorem sourceOrigins_token (lib : PLib) (files : String → Option (List Token)) (toks : List Token) (t : Token) (h : TokenOf files toks t) :
    TokIn lib (sourceOrigins lib files toks) t := by
  obtain ⟨ty, x⟩ := t
  refine ⟨?_, ?_, ?_⟩
  · rintro ⟨⟩; exact .inr h
  · rintro ⟨⟩; exact ⟨.inr h, fun q hq => ⟨x, h, hq⟩⟩
  · rintro ⟨⟩ ch hch; exact .inr ⟨x, h, hch⟩

end Sadl
