import Verif.Spec.Words
import Verif.Lemmas.GrammarSource
import Verif.Lemmas.ParserReal
import Verif.Lemmas.Http
/-
Names, texts and comments of a parsed source come from its tokens.
-/
namespace Sadl
open Sadl.Spec

/-- What a token contributes. -/
structure TokIn (lib : PLib) (o : Origins) (t : Token) : Prop where
  symbol : t.type = .symbol → o.word t.text
  string : t.type = .string → o.text t.text ∧ ∀ q, lib.unquote t.text = some q → o.value q
  comment : t.type = .lineComment → o.comment t.text

/-- What is there without any token. -/
structure Closed (o : Origins) : Prop where
  implied : ∀ w ∈ impliedWords, o.word w
  text : o.text ""
  comment : o.comment ""
  merge : ∀ a b, o.comment a → o.comment b → o.comment (mergeComment a b)

/-- All tokens contribute something that may occur. -/
def AllIn (lib : PLib) (o : Origins) (ts : List Token) : Prop := ∀ t ∈ ts, TokIn lib o t

variable {lib : PLib} {o : Origins}

theorem AllIn.head {t : Token} {ts : List Token} (h : AllIn lib o (t :: ts)) : TokIn lib o t := h t (List.mem_cons_self ..)
theorem AllIn.tail {t : Token} {ts : List Token} (h : AllIn lib o (t :: ts)) : AllIn lib o ts := fun x hx => h x (List.mem_cons_of_mem _ hx)
theorem AllIn.left {a b : List Token} (h : AllIn lib o (a ++ b)) : AllIn lib o a := fun x hx => h x (List.mem_append_left _ hx)
theorem AllIn.right {a b : List Token} (h : AllIn lib o (a ++ b)) : AllIn lib o b := fun x hx => h x (List.mem_append_right _ hx)
theorem AllIn.sym {n : String} {ts : List Token} (h : AllIn lib o (⟨.symbol, n⟩ :: ts)) : o.word n := h.head.symbol rfl
theorem AllIn.str {n : String} {ts : List Token} (h : AllIn lib o (⟨.string, n⟩ :: ts)) : o.text n := (h.head.string rfl).1
theorem AllIn.rem {n : String} {ts : List Token} (h : AllIn lib o (⟨.lineComment, n⟩ :: ts)) : o.comment n := h.head.comment rfl

theorem Closed.empty (hc : Closed o) : o.word "" := hc.implied _ (by decide)

theorem Spec.FromAnnotations.nil : FromAnnotations o [] := fun _ h => by cases h

theorem Spec.FromAnnotations.set {a : GoMap String} (h : FromAnnotations o a) {k v : String} (hk : o.word k) (hv : o.text v) :
    FromAnnotations o (mset a k v) := by
  rintro ⟨k', v'⟩ hm
  rcases mem_mset hm with h1 | h1
  · cases h1
    exact ⟨hk, hv⟩
  · exact h _ h1

theorem Spec.FromAnnotations.merge {b : GoMap String} (hb : FromAnnotations o b) : ∀ {a : GoMap String}, FromAnnotations o a →
    FromAnnotations o (b.foldl (fun a kv => mset a kv.1 kv.2) a) := by
  induction b with
  | nil => exact fun h => h
  | cons kv r ih =>
    intro a ha
    exact ih (fun x hx => hb x (List.mem_cons_of_mem _ hx)) (ha.set (hb kv (List.mem_cons_self ..)).1 (hb kv (List.mem_cons_self ..)).2)

/-! ### Options, comments, ends -/

structure OptsIn (o : Origins) (p : Options) : Prop where
  default : FromDefault o p.default
  pattern : o.text p.pattern
  values : ∀ vs, p.values = some vs → ∀ v ∈ vs, o.text v
  action : o.word p.action
  resource : o.word p.resource
  reference : o.word p.reference
  header : o.text p.header
  name : o.word p.name
  annotations : FromAnnotations o p.annotations

theorem OptsIn.empty (hc : Closed o) : OptsIn o {} :=
  ⟨fun _ h => (by cases h), hc.text, fun _ h => (by cases h), hc.empty, hc.empty, hc.empty, hc.text, hc.empty, .nil⟩

theorem strItems_in {ts : List Token} {vs : List String} (h : StrItems ts vs) (ht : AllIn lib o ts) : ∀ v ∈ vs, o.text v := by
  induction h with
  | close => simp
  | sep _ _ ih => exact ih ht.tail
  | item _ ih =>
    intro v hv
    rcases List.mem_cons.1 hv with rfl | hv
    · exact ht.str
    · exact ih ht.tail v hv

theorem anyLit_in {ts : List Token} {v : Value} (h : AnyLit lib ts v) (ht : AllIn lib o ts) : FromDefault o v := by
  intro q hq
  cases h with
  | string hu => injection hq with hq; subst hq; exact (ht.head.string rfl).2 _ hu
  | _ => cases hq

theorem optArg_in {n : String} {args : List Token} {p p' : Options} (h : OptArg lib (AnyLit lib) n args p p') (ht : AllIn lib o args)
    (hp : OptsIn o p) : OptsIn o p' := by
  cases h with
  | min _ => exact { hp with }
  | max _ => exact { hp with }
  | minsize _ => exact { hp with }
  | maxsize _ => exact { hp with }
  | pattern => exact { hp with pattern := ht.tail.str }
  | values hs =>
    refine { hp with values := ?_ }
    intro vs hv
    dsimp only at hv
    split_ifs at hv
    injection hv with hv
    subst hv
    exact strItems_in hs ht.tail.tail
  | required => exact { hp with }
  | default hl => exact { hp with default := anyLit_in hl ht.tail }
  | action => exact { hp with action := ht.tail.sym }
  | operation => exact { hp with action := ht.tail.sym }
  | resource => exact { hp with resource := ht.tail.sym }
  | reference => exact { hp with reference := ht.tail.sym }
  | header => exact { hp with header := ht.tail.str }
  | name => exact { hp with name := ht.tail.sym }

theorem optItems_in {acc : List String} {ts : List Token} {p p' : Options} (hc : Closed o) (h : OptItems lib (AnyLit lib) acc ts p p')
    (ht : AllIn lib o ts) (hp : OptsIn o p) : OptsIn o p' := by
  induction h with
  | nil => exact hp
  | comma _ ih => exact ih ht.tail hp
  | flag _ _ ih => exact ih ht.tail { hp with annotations := hp.annotations.set ht.sym hc.text }
  | anno _ _ ih => exact ih ht.tail.tail.tail { hp with annotations := hp.annotations.set ht.sym ht.tail.tail.str }
  | opt _ _ ha _ ih => exact ih ht.right (optArg_in ha ht.left.tail hp)

theorem opts_in {acc : List String} {ts r : List Token} {p : Options} (hc : Closed o) (h : Opts lib acc ts p r) (ht : AllIn lib o ts) :
    OptsIn o p ∧ AllIn lib o r := by
  obtain ⟨us, rfl, h, _⟩ := h
  refine ⟨?_, ht.right⟩
  rcases h with ⟨_, rfl⟩ | ⟨x, y, items, rfl, h⟩
  · exact .empty hc
  · exact optItems_in hc h ht.left.left.tail (.empty hc)

theorem trailing_in {c c' : String} {ts r : List Token} (hc : Closed o) (h : Trailing c ts c' r) (ht : AllIn lib o ts) (h0 : o.comment c) :
    o.comment c' ∧ AllIn lib o r := by
  cases h with
  | comment => exact ⟨hc.merge _ _ h0 ht.rem, ht.tail⟩
  | none _ => exact ⟨h0, ht⟩

theorem ends_in {c c' : String} {b : Bool} {ts r : List Token} (hc : Closed o) (h : Ends c ts c' b r) : AllIn lib o ts → o.comment c →
    o.comment c' ∧ AllIn lib o r := by
  induction h with
  | semicolon _ ih => exact fun ht h0 => ih ht.tail h0
  | comment _ ih => exact fun ht h0 => ih ht.tail (hc.merge _ _ h0 ht.rem)
  | newline => exact fun ht h0 => ⟨h0, ht.tail⟩
  | source => exact fun ht h0 => ⟨h0, ht⟩
  | stray _ _ _ => exact fun ht h0 => ⟨h0, ht.tail⟩

theorem afterBrace_in {b : Token} {c c' : String} {ts r : List Token} (hc : Closed o) (h : AfterBrace b c ts c' r) : TokIn lib o b →
    AllIn lib o ts → o.comment c → o.comment c' ∧ AllIn lib o r := by
  induction h with
  | semicolon _ ih => exact fun _ ht h0 => ih ht.head ht.tail h0
  | comment _ ih => exact fun _ ht h0 => ih ht.head ht.tail (hc.merge _ _ h0 ht.rem)
  | stop _ _ => exact fun _ ht h0 => ⟨h0, ht⟩
  | source => exact fun hb _ h0 => ⟨h0, fun t h => by rw [List.mem_singleton.1 h]; exact hb⟩

/-! ### Types -/

theorem params_in {ts r : List Token} {ps : List String} (h : Params ts ps r) : AllIn lib o ts → (∀ p ∈ ps, o.word p) ∧ AllIn lib o r := by
  induction h with
  | close => exact fun ht => ⟨by simp, ht.tail⟩
  | comma _ ih => exact fun ht => ih ht.tail
  | name _ ih =>
    intro ht
    refine ⟨fun p hp => ?_, (ih ht.tail).2⟩
    rcases List.mem_cons.1 hp with rfl | hp
    · exact ht.sym
    · exact (ih ht.tail).1 p hp

theorem elements_in {c : String} {ts r : List Token} {es : List EnumElementDef} (hc : Closed o) (h : Elements lib c ts es r) :
    AllIn lib o ts → o.comment c → (∀ el ∈ es, o.word el.symbol ∧ o.comment el.comment ∧ FromAnnotations o el.annotations) ∧ AllIn lib o r := by
  induction h with
  | close => exact fun ht _ => ⟨by simp, ht⟩
  | comment _ ih => exact fun ht h0 => ih ht.tail (hc.merge _ _ h0 ht.rem)
  | sep _ _ ih => exact fun ht h0 => ih ht.tail h0
  | element h1 h2 _ ih =>
    intro ht h0
    obtain ⟨k1, k2⟩ := opts_in hc h1 ht.tail
    obtain ⟨k3, k4⟩ := trailing_in hc h2 k2 h0
    obtain ⟨k5, k6⟩ := ih k4 hc.comment
    refine ⟨fun el hel => ?_, k6⟩
    rcases List.mem_cons.1 hel with rfl | hel
    · exact ⟨ht.sym, k3, k1.annotations⟩
    · exact k5 el hel

structure ElemsIn (o : Origins) (e : Elems) : Prop where
  type : o.word e.type
  params : ∀ p ∈ e.params, o.word p
  fields : ∀ f ∈ e.fields, FromField o f
  elements : ∀ el ∈ e.elements, o.word el.symbol ∧ o.comment el.comment ∧ FromAnnotations o el.annotations
  options : OptsIn o e.options
  comment : o.comment e.comment

/-- A type with fields but without variants. -/
theorem Spec.FromSpec.of_fields {ts : TypeSpec} (h : FromPart o ts) (hf : ∀ f ∈ ts.fields, FromField o f) (hv : ts.variants = []) : FromSpec o ts :=
  .mk h (fun f h => ⟨(hf f h).name, (hf f h).comment, (hf f h).annotations, (hf f h).default⟩) (fun f h => (hf f h).type)
    (by rw [hv]; simp) (by rw [hv]; simp)

theorem hasParts_in {e : Elems} {s : TypeSpec} (hc : Closed o) (h : HasParts e s) (he : ElemsIn o e) :
    FromPart o s ∧ (∀ f ∈ s.fields, FromField o f) ∧ s.variants = [] := by
  have hw : ∀ {w}, e.params = [w] → o.word w := fun h => he.params _ (by rw [h]; simp)
  have hw1 : ∀ {w v}, e.params = [w, v] → o.word w ∧ o.word v := fun h => ⟨he.params _ (by rw [h]; simp), he.params _ (by rw [h]; simp)⟩
  cases h with
  | array _ h =>
    have : o.word _ := h.elim (fun h => h.2 ▸ hc.implied "Any" (by decide)) hw
    exact ⟨⟨he.type, this, hc.empty, hc.empty, hc.empty, hc.empty, hc.text, by simp, he.elements⟩, he.fields, rfl⟩
  | map _ h =>
    rcases h with ⟨_, rfl, rfl⟩ | h
    · exact ⟨⟨he.type, hc.implied "Any" (by decide), hc.implied "String" (by decide), hc.empty, hc.empty, hc.empty, hc.text, by simp, he.elements⟩, he.fields, rfl⟩
    · exact ⟨⟨he.type, (hw1 h).2, (hw1 h).1, hc.empty, hc.empty, hc.empty, hc.text, by simp, he.elements⟩, he.fields, rfl⟩
  | unitValue _ h =>
    rcases h with ⟨_, rfl, rfl⟩ | h
    · exact ⟨⟨he.type, hc.empty, hc.empty, hc.implied "Decimal" (by decide), hc.implied "String" (by decide), hc.empty, hc.text, by simp, he.elements⟩, he.fields, rfl⟩
    · exact ⟨⟨he.type, hc.empty, hc.empty, (hw1 h).1, (hw1 h).2, hc.empty, hc.text, by simp, he.elements⟩, he.fields, rfl⟩
  | other _ _ _ _ _ =>
    exact ⟨⟨he.type, hc.empty, hc.empty, hc.empty, hc.empty, hc.empty, hc.text, by simp, he.elements⟩, he.fields, rfl⟩

theorem fieldOf_in {n c : String} {s : TypeSpec} {p : Options} {inner : GoMap String} (hn : o.word n) (hcm : o.comment c)
    (hs : FromPart o s ∧ (∀ f ∈ s.fields, FromField o f) ∧ s.variants = []) (hp : OptsIn o p) (hi : FromAnnotations o inner) :
    FromField o (fieldOf n c s p inner) :=
  ⟨hn, hcm, hi.merge hp.annotations, hp.default,
    .of_fields { hs.1 with pattern := hp.pattern, values := hp.values, reference := hp.reference } hs.2.1 hs.2.2⟩

mutual
theorem typeExpr_in {ts r : List Token} {e : Elems} (hc : Closed o) : TypeExpr lib ts e r → AllIn lib o ts → ElemsIn o e ∧ AllIn lib o r
  | .plain _ _ => fun ht => ⟨⟨ht.sym, by simp, by simp, by simp, .empty hc, hc.comment⟩, ht.tail⟩
  | .generic hg h => fun ht => by
    obtain ⟨k1, k2⟩ := params_in h ht.tail.tail
    refine ⟨⟨?_, k1, by simp, by simp, .empty hc, hc.comment⟩, k2⟩
    have := ht.sym
    cases hg
    case list => exact hc.implied "Array" (by decide)
    all_goals exact this
  | .fields _ h1 h2 h3 h4 => fun ht => by
    obtain ⟨k1, k2⟩ := opts_in hc h1 ht.tail
    obtain ⟨k3, k4⟩ := trailing_in hc h2 k2.tail hc.comment
    obtain ⟨k5, k6⟩ := fields_in hc h3 k4 hc.comment
    obtain ⟨k7, k8⟩ := afterBrace_in hc h4 k6.head k6.tail k3
    exact ⟨⟨ht.sym, by simp, k5, by simp, k1, k7⟩, k8⟩
  | .elements h1 h2 h3 h4 => fun ht => by
    obtain ⟨k1, k2⟩ := opts_in hc h1 ht.tail
    obtain ⟨k3, k4⟩ := trailing_in hc h2 k2.tail hc.comment
    obtain ⟨k5, k6⟩ := elements_in hc h3 k4 hc.comment
    obtain ⟨k7, k8⟩ := afterBrace_in hc h4 k6.head k6.tail k3
    exact ⟨⟨ht.sym, by simp, by simp, k5, k1, k7⟩, k8⟩
  | .bare _ _ _ h _ => fun ht => by
    obtain ⟨k1, k2⟩ := opts_in hc h ht.tail
    exact ⟨⟨ht.sym, by simp, by simp, by simp, k1, hc.comment⟩, k2⟩
  | .bareEnd _ => fun ht => ⟨⟨ht.sym, by simp, by simp, by simp, .empty hc, hc.comment⟩, ht.tail⟩
theorem fields_in {c : String} {ts r : List Token} {fs : List StructFieldDef} (hc : Closed o) : Fields lib c ts fs r →
    AllIn lib o ts → o.comment c → (∀ f ∈ fs, FromField o f) ∧ AllIn lib o r
  | .close => fun ht _ => ⟨by simp, ht⟩
  | .comment h => fun ht _ => fields_in hc h ht.tail (hc.merge _ _ hc.comment ht.rem)
  | .newline h => fun ht h0 => fields_in hc h ht.tail h0
  | .field h1 hp h2 h3 h4 => fun ht h0 => by
    obtain ⟨k1, k2⟩ := typeExpr_in hc h1 ht.tail
    obtain ⟨k3, k4⟩ := opts_in hc h2 k2
    obtain ⟨k5, k6⟩ := ends_in hc h3 k4 (hc.merge _ _ h0 (hc.merge _ _ h0 k1.comment))
    obtain ⟨k7, k8⟩ := fields_in hc h4 k6 hc.comment
    refine ⟨fun f hf => ?_, k8⟩
    rcases List.mem_cons.1 hf with rfl | hf
    · exact fieldOf_in ht.sym k5 (hasParts_in hc hp k1) k3 k1.options.annotations
    · exact k7 f hf
end

theorem typeDirective_in {c : String} {ts r : List Token} {td : TypeDef} (hc : Closed o) (h : TypeDirective lib c ts td r)
    (ht : AllIn lib o ts) (h0 : o.comment c) : FromTypeDef o td ∧ AllIn lib o r := by
  cases h with
  | @simple n ts e ts1 s p ts2 c' _ h1 _ hs1 hs2 h2 h3 =>
    obtain ⟨k1, k2⟩ := typeExpr_in hc h1 ht.tail
    obtain ⟨k3, k4⟩ := opts_in hc h2 k2
    obtain ⟨k5, k6⟩ := ends_in hc h3 k4 (hc.merge _ _ h0 k1.comment)
    refine ⟨?_, k6⟩
    have hs : FromPart o s ∧ (∀ f ∈ s.fields, FromField o f) ∧ s.variants = [] := by
      by_cases hm : e.type ∈ ["Array", "List", "Map", "UnitValue"]
      · exact hasParts_in hc (hs2 hm) ⟨k1.type, k1.params, by simp, by simp, .empty hc, hc.comment⟩
      · rw [hs1 hm]
        exact ⟨⟨k1.type, hc.empty, hc.empty, hc.empty, hc.empty, hc.empty, hc.text, by simp, by simp⟩, by simp, rfl⟩
    have key : FromTypeDef o (typeOf { name := n, ts := s } p c') :=
      ⟨ht.sym, k5, k3.annotations, .of_fields { hs.1 with pattern := k3.pattern, values := k3.values, reference := k3.reference } hs.2.1 hs.2.2⟩
    unfold asUuid
    split
    · refine ⟨key.name, key.comment, key.annotations, .of_fields ?_ hs.2.1 hs.2.2⟩
      exact { hs.1 with type := hc.implied "UUID" (by decide), pattern := hc.text, values := k3.values, reference := k3.reference }
    · exact key
  | struct h1 he h2 =>
    obtain ⟨k1, k2⟩ := typeExpr_in hc h1 ht.tail
    obtain ⟨k3, k4⟩ := opts_in hc h2 k2
    refine ⟨⟨ht.sym, hc.merge _ _ h0 k1.comment, k1.options.annotations, .of_fields ?_ k1.fields rfl⟩, k4⟩
    exact ⟨he ▸ k1.type, hc.empty, hc.empty, hc.empty, hc.empty, hc.empty, hc.text, by simp, by simp⟩
  | enum h1 he =>
    obtain ⟨k1, k2⟩ := typeExpr_in hc h1 ht.tail
    refine ⟨⟨ht.sym, hc.merge _ _ h0 k1.comment, k1.options.annotations, .of_fields ?_ (by simp) rfl⟩, k2⟩
    exact ⟨he ▸ k1.type, hc.empty, hc.empty, hc.empty, hc.empty, hc.empty, hc.text, by simp, k1.elements⟩
  | @union _ _ _ _ _ _ _ _ vs h1 he h2 h3 _ hv =>
    obtain ⟨k1, k2⟩ := typeExpr_in hc h1 ht.tail
    obtain ⟨k3, k4⟩ := opts_in hc h2 k2
    obtain ⟨k5, k6⟩ := ends_in hc h3 k4 (hc.merge _ _ h0 k1.comment)
    have hn : ∀ v ∈ vs, o.word v.name ∧ ∃ t, v.ts = { type := t } ∧ o.word t ∧ v.comment = "" ∧ v.annotations = [] := by
      intro v hvm
      rcases hv with ⟨_, rfl⟩ | ⟨_, rfl⟩
      · obtain ⟨p, hp, rfl⟩ := List.mem_map.1 hvm
        exact ⟨k1.params p hp, p, rfl, k1.params p hp, rfl, rfl⟩
      · obtain ⟨f, hf, rfl⟩ := List.mem_map.1 hvm
        cases (k1.fields f hf).type with
        | mk hp _ _ _ _ => exact ⟨(k1.fields f hf).name, _, rfl, hp.type, rfl, rfl⟩
    refine ⟨⟨ht.sym, k5, k3.annotations, .mk ?_ (by simp) (by simp) (fun v hvm => ?_) (fun v hvm => ?_)⟩, k6⟩
    · exact ⟨he ▸ k1.type, hc.empty, hc.empty, hc.empty, hc.empty, hc.empty, hc.text, by simp, by simp⟩
    · obtain ⟨a, _, _, _, b, d⟩ := hn v hvm
      exact ⟨a, b ▸ hc.comment, d ▸ .nil⟩
    · obtain ⟨_, t, e, d, _, _⟩ := hn v hvm
      rw [e]
      exact .of_fields ⟨d, hc.empty, hc.empty, hc.empty, hc.empty, hc.empty, hc.text, by simp, by simp⟩ (by simp) rfl

/-! ### Examples and operations -/

theorem compound_in {ts r : List Token} {m : String} (h : Compound ts m r) : AllIn lib o ts →
    (∃ ws : List String, ws ≠ [] ∧ (∀ w ∈ ws, o.word w) ∧ m.toList = List.intercalate ['.'] (ws.map String.toList)) ∧ AllIn lib o r := by
  induction h with
  | @last n r _ =>
    intro ht
    exact ⟨⟨[n], by simp, by simpa using ht.sym, by simp⟩, ht.tail⟩
  | @more n _ _ _ _ _ ih =>
    intro ht
    obtain ⟨⟨ws, h1, h2, h3⟩, h4⟩ := ih ht.tail.tail
    refine ⟨⟨n :: ws, by simp, ?_, ?_⟩, h4⟩
    · intro w hw
      rcases List.mem_cons.1 hw with rfl | hw
      · exact ht.sym
      · exact h2 w hw
    · cases ws with
      | nil => exact absurd rfl h1
      | cons w ws =>
        rw [String.toList_append, String.toList_append, h3]
        simp [List.intercalate]

theorem exampleDirective_in {c : String} {ts r : List Token} {e : ExampleDef} (hc : Closed o) (h : ExampleDirective lib c ts e r)
    (ht : AllIn lib o ts) (h0 : o.comment c) : FromExample o e ∧ AllIn lib o r := by
  cases h with
  | mk h1 h2 _ =>
    obtain ⟨k1, k2⟩ := compound_in h1 ht
    obtain ⟨k3, k4⟩ := opts_in hc h2 k2
    exact ⟨⟨k3.name, h0, k1⟩, k4.right⟩

theorem plainRef_in {t : String} (hc : Closed o) (h : o.word t) : FromSpec o { type := t } :=
  .of_fields ⟨h, hc.empty, hc.empty, hc.empty, hc.empty, hc.empty, hc.text, by simp, by simp⟩ (by simp) rfl

theorem inputOpts_in {ts r : List Token} {b : Bool} (h : InputOpts ts b r) : AllIn lib o ts → AllIn lib o r := by
  induction h with
  | close => exact fun ht => ht.tail
  | required _ ih => exact fun ht => ih ht.tail
  | skip _ _ _ ih => exact fun ht => ih ht.tail

theorem inputs_in {ts r : List Token} {is : List StructFieldDef} (hc : Closed o) (h : Inputs ts is r) : AllIn lib o ts →
    (∀ f ∈ is, FromField o f) ∧ AllIn lib o r := by
  induction h with
  | close => exact fun ht => ⟨by simp, ht.tail⟩
  | newline _ ih => exact fun ht => ih ht.tail
  | plain _ _ _ ih =>
    intro ht
    obtain ⟨k1, k2⟩ := ih ht.tail.tail
    refine ⟨fun f hf => ?_, k2⟩
    rcases List.mem_cons.1 hf with rfl | hf
    · exact ⟨ht.sym, hc.comment, .nil, fun _ h => (by cases h), plainRef_in hc ht.tail.sym⟩
    · exact k1 f hf
  | opts ho _ ih =>
    intro ht
    obtain ⟨k1, k2⟩ := ih (inputOpts_in ho ht.tail.tail.tail)
    refine ⟨fun f hf => ?_, k2⟩
    rcases List.mem_cons.1 hf with rfl | hf
    · exact ⟨ht.sym, hc.comment, .nil, fun _ h => (by cases h), plainRef_in hc ht.tail.sym⟩
    · exact k1 f hf

theorem outputs_in {ts r : List Token} {os : List OperationOutput} (hc : Closed o) (h : Outputs ts os r) : AllIn lib o ts →
    (∀ f ∈ os, o.word f.name ∧ o.comment f.comment ∧ FromAnnotations o f.annotations ∧ FromSpec o f.ts) ∧ AllIn lib o r := by
  induction h with
  | close => exact fun ht => ⟨by simp, ht.tail⟩
  | newline _ ih => exact fun ht => ih ht.tail
  | output _ ih =>
    intro ht
    obtain ⟨k1, k2⟩ := ih ht.tail.tail
    refine ⟨fun f hf => ?_, k2⟩
    rcases List.mem_cons.1 hf with rfl | hf
    · exact ⟨ht.sym, hc.comment, .nil, plainRef_in hc ht.tail.sym⟩
    · exact k1 f hf

theorem exceptions_in {ts r : List Token} {es : List String} (h : Exceptions ts es r) : AllIn lib o ts → (∀ x ∈ es, o.word x) ∧ AllIn lib o r := by
  induction h with
  | close => exact fun ht => ⟨by simp, ht.tail⟩
  | newline _ ih => exact fun ht => ih ht.tail
  | exc _ ih =>
    intro ht
    obtain ⟨k1, k2⟩ := ih ht.tail
    refine ⟨fun f hf => ?_, k2⟩
    rcases List.mem_cons.1 hf with rfl | hf
    · exact ht.sym
    · exact k1 f hf

theorem opBody_in {ts r : List Token} {op op' : OperationDef} (hc : Closed o) (h : OpBody op ts op' r) : AllIn lib o ts →
    FromOperation o op → FromOperation o op' ∧ AllIn lib o r := by
  induction h with
  | close => exact fun ht ho => ⟨ho, ht.tail⟩
  | skip _ _ _ ih => exact fun ht ho => ih ht.tail ho
  | inputs hi _ ih =>
    intro ht ho
    obtain ⟨k1, k2⟩ := inputs_in hc hi ht.tail.tail
    exact ih k2 { ho with inputs := k1 }
  | outputs hi _ ih =>
    intro ht ho
    obtain ⟨k1, k2⟩ := outputs_in hc hi ht.tail.tail
    exact ih k2 { ho with outputs := k1 }
  | exceptions hi _ ih =>
    intro ht ho
    obtain ⟨k1, k2⟩ := exceptions_in hi ht.tail.tail
    exact ih k2 { ho with exceptions := k1 }

theorem operationDirective_in {c : String} {ts r : List Token} {op : OperationDef} (hc : Closed o) (h : OperationDirective lib c ts op r)
    (ht : AllIn lib o ts) (h0 : o.comment c) : FromOperation o op ∧ AllIn lib o r := by
  cases h with
  | mk h1 h2 =>
    obtain ⟨k1, k2⟩ := opts_in hc h1 ht.tail
    obtain ⟨k3, k4⟩ := opBody_in hc h2 k2.tail ⟨ht.sym, h0, .nil, by simp, by simp, by simp⟩
    exact ⟨{ k3 with annotations := k1.annotations }, k4⟩

end Sadl
