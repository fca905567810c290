import Verif.Spec.GraphQL
/-
The text of an exported GraphQL document reads as a document.
-/
namespace Sadl.GraphQL
open Sadl.Spec

/-! ### Tokens -/

theorem gLex_name_aux (l : List Char) (hl : ∀ d ∈ l, gNameCont d = true) (acc : List Char) (c : Char) (r : List Char)
    (hc : gNameCont c = false) :
    gLex (.name acc) (l ++ c :: r) = .name (String.ofList (acc ++ l)) :: gLex .start (c :: r) := by
  induction l generalizing acc with
  | nil => simp [gLex, hc]
  | cons d l ih =>
    have := ih (fun d h => hl d (by simp [h])) (acc ++ [d])
    rw [List.cons_append, gLex.eq_def]
    simp only [hl d (by simp), if_true, this, List.append_assoc, List.singleton_append]

theorem gLex_name {n : String} (hn : IsGName n) (c : Char) (r : List Char) (hc : gNameCont c = false) :
    gLex .start (n.toList ++ c :: r) = .name n :: gLex .start (c :: r) := by
  obtain ⟨d, l, hd, h1, h2⟩ := hn
  have hi : gIgnored d = false := by
    unfold gIgnored
    simp only [Bool.or_eq_false_iff, decide_eq_false_iff_not]
    refine ⟨⟨⟨⟨?_, ?_⟩, ?_⟩, ?_⟩, ?_⟩ <;> (intro e; subst e; exact absurd h1 (by decide))
  rw [hd, List.cons_append, gLex]
  simp only [gStep, hi, h1, if_true]
  rw [show (if false = true then (([] : List GTok), GScan.start) else ([], GScan.name [d])) = ([], GScan.name [d]) from rfl]
  simp only [List.nil_append]
  rw [gLex_name_aux l h2 _ _ _ hc]
  rw [show String.ofList ([d] ++ l) = n by
    rw [List.singleton_append, ← hd, String.ofList_toList]]

theorem gLex_ignored (c : Char) (r : List Char) (h : gIgnored c = true) : gLex .start (c :: r) = gLex .start r := by
  rw [gLex]; simp [gStep, h]

theorem gLex_punct (c : Char) (r : List Char) (h1 : gIgnored c = false) (h2 : gNameStart c = false) (h3 : c ≠ '#')
    (h : gPunct c = true) : gLex .start (c :: r) = .punct c :: gLex .start r := by
  rw [gLex]; simp [gStep, h, h1, h2, h3]

theorem gLex_comment (l r : List Char) (h : ∀ c ∈ l, c ≠ '\n' ∧ c ≠ '\r') :
    gLex .comment (l ++ '\n' :: r) = gLex .start r := by
  induction l with
  | nil => rw [List.nil_append, gLex]; simp
  | cons c l ih =>
    have := h c (by simp)
    rw [List.cons_append, gLex, if_neg (by simp [this]), ih (fun c h' => h c (by simp [h']))]

theorem gLex_hash (r : List Char) : gLex .start ('#' :: r) = gLex .comment r := rfl

/-! The characters the exporter writes around names. -/
theorem gx_sp (r : List Char) : gLex .start (' ' :: r) = gLex .start r := gLex_ignored _ _ (by decide)
theorem gx_nl (r : List Char) : gLex .start ('\n' :: r) = gLex .start r := gLex_ignored _ _ (by decide)
theorem gx_lb (r : List Char) : gLex .start ('{' :: r) = .punct '{' :: gLex .start r :=
  gLex_punct _ _ (by decide) (by decide) (by decide) (by decide)
theorem gx_rb (r : List Char) : gLex .start ('}' :: r) = .punct '}' :: gLex .start r :=
  gLex_punct _ _ (by decide) (by decide) (by decide) (by decide)
theorem gx_lk (r : List Char) : gLex .start ('[' :: r) = .punct '[' :: gLex .start r :=
  gLex_punct _ _ (by decide) (by decide) (by decide) (by decide)
theorem gx_rk (r : List Char) : gLex .start (']' :: r) = .punct ']' :: gLex .start r :=
  gLex_punct _ _ (by decide) (by decide) (by decide) (by decide)
theorem gx_colon (r : List Char) : gLex .start (':' :: r) = .punct ':' :: gLex .start r :=
  gLex_punct _ _ (by decide) (by decide) (by decide) (by decide)
theorem gx_bang (r : List Char) : gLex .start ('!' :: r) = .punct '!' :: gLex .start r :=
  gLex_punct _ _ (by decide) (by decide) (by decide) (by decide)
theorem gx_eq (r : List Char) : gLex .start ('=' :: r) = .punct '=' :: gLex .start r :=
  gLex_punct _ _ (by decide) (by decide) (by decide) (by decide)
theorem gx_bar (r : List Char) : gLex .start ('|' :: r) = .punct '|' :: gLex .start r :=
  gLex_punct _ _ (by decide) (by decide) (by decide) (by decide)
theorem gn_sp {n : String} (h : IsGName n) (r : List Char) : gLex .start (n.toList ++ ' ' :: r) = .name n :: gLex .start r :=
  (gLex_name h _ _ (by decide)).trans (by rw [gx_sp])
theorem gn_nl {n : String} (h : IsGName n) (r : List Char) : gLex .start (n.toList ++ '\n' :: r) = .name n :: gLex .start r :=
  (gLex_name h _ _ (by decide)).trans (by rw [gx_nl])
theorem gn_colon {n : String} (h : IsGName n) (r : List Char) :
    gLex .start (n.toList ++ ':' :: r) = .name n :: .punct ':' :: gLex .start r :=
  (gLex_name h _ _ (by decide)).trans (by rw [gx_colon])
theorem gn_bang {n : String} (h : IsGName n) (r : List Char) :
    gLex .start (n.toList ++ '!' :: r) = .name n :: .punct '!' :: gLex .start r :=
  (gLex_name h _ _ (by decide)).trans (by rw [gx_bang])

theorem gk_enum (r : List Char) : gLex .start ("enum ".toList ++ r) = .name "enum" :: gLex .start r := by
  have := gn_sp (n := "enum") ⟨'e', ['n', 'u', 'm'], rfl, by decide, by decide⟩ r
  exact this
theorem gk_type (r : List Char) : gLex .start ("type ".toList ++ r) = .name "type" :: gLex .start r := by
  have := gn_sp (n := "type") ⟨'t', ['y', 'p', 'e'], rfl, by decide, by decide⟩ r
  exact this
theorem gk_union (r : List Char) : gLex .start ("union ".toList ++ r) = .name "union" :: gLex .start r := by
  have := gn_sp (n := "union") ⟨'u', ['n', 'i', 'o', 'n'], rfl, by decide, by decide⟩ r
  exact this
theorem gk_scalar (r : List Char) : gLex .start ("scalar ".toList ++ r) = .name "scalar" :: gLex .start r := by
  have := gn_sp (n := "scalar") ⟨'s', ['c', 'a', 'l', 'a', 'r'], rfl, by decide, by decide⟩ r
  exact this

theorem lit_open : " {\n".toList = [' ', '{', '\n'] := rfl
theorem lit_close : "}\n\n".toList = ['}', '\n', '\n'] := rfl
theorem lit_two : "  ".toList = [' ', ' '] := rfl
theorem lit_four : "    ".toList = [' ', ' ', ' ', ' '] := rfl
theorem lit_nl : "\n".toList = ['\n'] := rfl
theorem lit_hash : "  # ".toList = [' ', ' ', '#', ' '] := rfl
theorem lit_colon : ": ".toList = [':', ' '] := rfl
theorem lit_bang : "!".toList = ['!'] := rfl
theorem lit_lk : "[".toList = ['['] := rfl
theorem lit_rk : "!]".toList = ['!', ']'] := rfl
theorem lit_eq : " =\n".toList = [' ', '=', '\n'] := rfl
theorem lit_bar : "  | ".toList = [' ', ' ', '|', ' '] := rfl
theorem lit_none : "".toList = [] := rfl

/-! ### The tokens of the exported text -/

def nameToks (l : List String) : List GTok := l.map .name

def typToks : GType → List GTok
  | .named n => [.name n]
  | .list i => [.punct '[', .name i, .punct '!', .punct ']']

def fieldToks (m : Model) (custom : String → String) (fd : StructFieldDef) : List GTok :=
  [.name fd.name, .punct ':'] ++ typToks (typeRef m custom fd.ts) ++ if fd.required then [.punct '!'] else []

def enumToks (td : TypeDef) : List GTok :=
  [.name "enum", .name td.name, .punct '{'] ++ nameToks (td.ts.elements.map (·.symbol)) ++ [.punct '}']

def structToks (m : Model) (custom : String → String) (td : TypeDef) : List GTok :=
  [.name "type", .name td.name, .punct '{'] ++ td.ts.fields.flatMap (fieldToks m custom) ++ [.punct '}']

def memberToks (vs : List UnionVariantDef) : List GTok := vs.flatMap fun v => [.punct '|', .name v.ts.type]

def unionToks (td : TypeDef) : List GTok :=
  [.name "union", .name td.name, .punct '='] ++
    match td.ts.variants with
    | [] => []
    | v :: r => .name v.ts.type :: memberToks r

theorem lex_enumDef (td : TypeDef) (hn : IsGName td.name) (h : ∀ e ∈ td.ts.elements, IsGName e.symbol) (r : List Char) :
    gLex .start ((emitEnumDef td).toList ++ r) = enumToks td ++ gLex .start r := by
  have key : ∀ (l : List EnumElementDef), (∀ e ∈ l, IsGName e.symbol) → ∀ r,
      gLex .start ((String.join (l.map fun e => "  " ++ e.symbol ++ "\n")).toList ++ r) =
        nameToks (l.map (·.symbol)) ++ gLex .start r := by
    intro l
    induction l with
    | nil => intro _ r; simp [nameToks]
    | cons e l ih =>
      intro h r
      simp only [List.map_cons, String.join_cons, String.toList_append, List.append_assoc, lit_two, lit_nl,
        List.cons_append, List.nil_append, gx_sp, gn_nl (h e (by simp)), nameToks]
      exact congrArg _ (ih (fun e h' => h e (by simp [h'])) r)
  unfold emitEnumDef enumToks
  simp only [String.toList_append, List.append_assoc, gk_enum, lit_open, lit_close, List.cons_append, List.nil_append,
    gn_sp hn, gx_lb, gx_nl, key _ h, gx_rb]

theorem lex_typ (t : GType) (h : match t with | .named n => IsGName n | .list i => IsGName i) (req : Bool) (r : List Char) :
    gLex .start (t.text.toList ++ ((if req then "!" else "").toList ++ '\n' :: r)) =
      typToks t ++ ((if req then [.punct '!'] else []) ++ gLex .start r) := by
  cases t with
  | named n =>
    cases req
    · simp only [GType.text, lit_none, List.nil_append, typToks, Bool.false_eq_true, if_false, gn_nl h, List.singleton_append]
    · simp only [GType.text, lit_bang, List.cons_append, List.nil_append, typToks, if_true, gn_bang h, gx_nl]
  | list i =>
    cases req
    · simp only [GType.text, String.toList_append, lit_lk, lit_rk, lit_none, List.nil_append, typToks, Bool.false_eq_true,
        if_false, List.append_assoc, List.cons_append, gx_lk, gn_bang h, gx_rk, gx_nl]
    · simp only [GType.text, String.toList_append, lit_lk, lit_rk, lit_bang, List.nil_append, typToks,
        if_true, List.append_assoc, List.cons_append, gx_lk, gn_bang h, gx_rk, gx_nl, gx_bang]

/-- The names in the type of a field, and its comment, are fit for the text. -/
def FieldFit (m : Model) (custom : String → String) (f : StructFieldDef) : Prop :=
  IsGName f.name ∧ (∀ c ∈ f.comment.toList, c ≠ '\n' ∧ c ≠ '\r') ∧
    match typeRef m custom f.ts with | .named n => IsGName n | .list i => IsGName i

theorem lex_structDef (m : Model) (custom : String → String) (td : TypeDef) (hn : IsGName td.name)
    (h : ∀ f ∈ td.ts.fields, FieldFit m custom f) (r : List Char) :
    gLex .start ((emitStructDef m custom td).toList ++ r) = structToks m custom td ++ gLex .start r := by
  have key : ∀ (l : List StructFieldDef), (∀ f ∈ l, FieldFit m custom f) → ∀ r,
      gLex .start ((String.join (l.map (emitField m custom))).toList ++ r) =
        l.flatMap (fieldToks m custom) ++ gLex .start r := by
    intro l
    induction l with
    | nil => intro _ r; simp
    | cons f l ih =>
      intro h r
      obtain ⟨h1, h2, h3⟩ := h f (by simp)
      have hc : ∀ r, gLex .start ((if f.comment ≠ "" then "  # " ++ f.comment ++ "\n" else "").toList ++ r) = gLex .start r := by
        intro r
        split
        · simp only [String.toList_append, lit_hash, lit_nl, List.append_assoc, List.cons_append, List.nil_append, gx_sp, gLex_hash]
          exact gLex_comment (' ' :: f.comment.toList) r (by
            intro c hc
            rcases List.mem_cons.1 hc with e | e
            · subst e; decide
            · exact h2 c e)
        · rfl
      simp only [List.map_cons, String.join_cons, List.flatMap_cons, emitField, String.toList_append, List.append_assoc,
        fieldToks]
      rw [hc]
      simp only [lit_two, lit_colon, lit_nl, List.cons_append, List.nil_append, gx_sp, gn_colon h1]
      rw [lex_typ _ h3]
      rw [ih (fun e h' => h e (by simp [h'])) r]
  unfold emitStructDef structToks
  simp only [String.toList_append, List.append_assoc, gk_type, lit_open, lit_close, List.cons_append, List.nil_append,
    gn_sp hn, gx_lb, gx_nl, key _ h, gx_rb]

theorem lex_unionDef (td : TypeDef) (hn : IsGName td.name) (h : ∀ v ∈ td.ts.variants, IsGName v.ts.type) (r : List Char) :
    gLex .start ((emitUnionDef td).toList ++ r) = unionToks td ++ gLex .start r := by
  have key : ∀ (l : List UnionVariantDef), (∀ v ∈ l, IsGName v.ts.type) → ∀ r,
      gLex .start ((emitVariants l).toList ++ r) = memberToks l ++ gLex .start r := by
    intro l
    induction l with
    | nil => intro _ r; simp [emitVariants, memberToks]
    | cons v l ih =>
      intro h r
      simp only [emitVariants, String.toList_append, List.append_assoc, lit_bar, lit_nl,
        List.cons_append, List.nil_append, gx_sp, gx_bar, gn_nl (h v (by simp)), memberToks, List.flatMap_cons]
      rw [ih (fun e h' => h e (by simp [h'])) r]
      rfl
  unfold emitUnionDef unionToks
  cases hv : td.ts.variants with
  | nil =>
    simp only [String.toList_append, List.append_assoc, gk_union, lit_eq, lit_none, lit_nl, List.cons_append, List.nil_append,
      gn_sp hn, gx_eq, gx_nl]
  | cons v vs =>
    rw [hv] at h
    simp only [String.toList_append, List.append_assoc, gk_union, lit_eq, lit_four, lit_nl, List.cons_append, List.nil_append,
      gn_sp hn, gx_eq, gx_nl, gx_sp, gn_nl (h v (by simp))]
    rw [key vs (fun v h' => h v (by simp [h'])), gx_nl]

/-! ### Reading the tokens -/

/-- The type of a field as it reads. -/
def fieldTyp (t : GType) (req : Bool) : GTyp :=
  let t := match t with
    | .named n => GTyp.named n
    | .list i => .list (.nonNull (.named i))
  if req then .nonNull t else t

/-- The tokens after a type do not continue it. -/
def NoBang : List GTok → Prop
  | .punct c :: _ => c ≠ '!'
  | _ => True

theorem gBang_none (t : GTyp) (r : List GTok) (h : NoBang r) : gBang t r = (t, r) := by
  cases r with
  | nil => rfl
  | cons x r => cases x with
    | punct c => rw [gBang, if_neg h]
    | name n => rfl
    | other c => rfl

theorem gBang_some (t : GTyp) (r : List GTok) : gBang t (.punct '!' :: r) = (.nonNull t, r) := by
  rw [gBang]; simp

theorem read_typ (t : GType) (req : Bool) (r : List GTok) (h : NoBang r) (k : Nat) :
    gReadType (k + 2) (typToks t ++ ((if req then [.punct '!'] else []) ++ r)) = some (fieldTyp t req, r) := by
  cases t <;> cases req <;> simp [typToks, gReadType, gBang_some, fieldTyp, gBang_none, h]

/-- The definitions as they read. -/
def fieldDef (m : Model) (custom : String → String) (f : StructFieldDef) : GFieldDef :=
  { name := f.name, type := fieldTyp (typeRef m custom f.ts) f.required }

theorem fieldToks_length (m : Model) (custom : String → String) (f : StructFieldDef) :
    3 ≤ (fieldToks m custom f).length := by
  unfold fieldToks
  cases typeRef m custom f.ts <;> cases f.required <;> simp [typToks]

theorem read_fields (m : Model) (custom : String → String) (fs : List StructFieldDef) (hne : fs ≠ []) (r : List GTok) :
    ∀ k, 2 * fs.length ≤ k → gReadFields k (fs.flatMap (fieldToks m custom) ++ .punct '}' :: r) =
      some (fs.map (fieldDef m custom), r) := by
  induction fs with
  | nil => exact absurd rfl hne
  | cons f fs ih =>
    intro k hk
    simp only [List.length_cons] at hk
    obtain ⟨k, rfl⟩ : ∃ k', k = k' + 2 := ⟨k - 2, by omega⟩
    simp only [List.flatMap_cons, fieldToks, List.append_assoc, List.cons_append, List.nil_append]
    rw [gReadFields]
    simp only [if_true]
    cases fs with
    | nil =>
      simp only [List.flatMap_nil, List.nil_append]
      rw [read_typ _ _ _ (by simp [NoBang])]
      simp [fieldDef]
    | cons g gs =>
      have hnb : NoBang ((g :: gs).flatMap (fieldToks m custom) ++ .punct '}' :: r) := by
        simp [fieldToks, NoBang]
      rw [read_typ _ _ _ hnb]
      have := ih (by simp) (k + 1) (by simp only [List.length_cons] at hk ⊢; omega)
      simp only [List.flatMap_cons, fieldToks, List.append_assoc, List.cons_append, List.nil_append] at this ⊢
      rw [this]
      simp [fieldDef]

theorem read_values (l : List EnumElementDef) (hne : l ≠ []) (r : List GTok) :
    gReadValues (nameToks (l.map (·.symbol)) ++ .punct '}' :: r) =
      some (l.map fun e => { name := e.symbol }, r) := by
  induction l with
  | nil => exact absurd rfl hne
  | cons e l ih =>
    cases l with
    | nil => simp [nameToks, gReadValues]
    | cons e' l =>
      have := ih (by simp)
      simp only [nameToks, List.map_cons, List.cons_append] at this ⊢
      rw [gReadValues.eq_def]
      simp only [this]

theorem read_members (l : List UnionVariantDef) (r : List GTok) (hr : ∀ c r', r ≠ .punct c :: r') :
    gReadMembers (memberToks l ++ r) = some (l.map fun v => v.ts.type, r) := by
  induction l with
  | nil =>
    rw [show memberToks [] ++ r = r from rfl, gReadMembers.eq_def]
    cases r with
    | nil => rfl
    | cons x r => cases x with
      | punct c => exact absurd rfl (hr c r)
      | name n => rfl
      | other c => rfl
  | cons v l ih =>
    have e : memberToks (v :: l) ++ r = .punct '|' :: .name v.ts.type :: (memberToks l ++ r) := rfl
    rw [e, gReadMembers]
    simp [ih]

/-- The definition a type definition reads as. -/
def docDef (m : Model) (custom : String → String) (td : TypeDef) : Option GDef :=
  if td.ts.type = "Enum" then some (.enum td.name none (td.ts.elements.map fun e => { name := e.symbol }))
  else if td.ts.type = "Struct" then some (.object td.name none (td.ts.fields.map (fieldDef m custom)))
  else if td.ts.type = "Union" then some (.union td.name none (td.ts.variants.map fun v => v.ts.type))
  else none

/-- Its tokens. -/
def docToks (m : Model) (custom : String → String) (td : TypeDef) : List GTok :=
  if td.ts.type = "Enum" then enumToks td
  else if td.ts.type = "Struct" then structToks m custom td
  else if td.ts.type = "Union" then unionToks td
  else []

/-- What `docToks` needs. -/
structure TypeFit (m : Model) (custom : String → String) (td : TypeDef) : Prop where
  name : IsGName td.name
  fields : td.ts.type = "Struct" → td.ts.fields ≠ [] ∧ ∀ f ∈ td.ts.fields, FieldFit m custom f
  elements : td.ts.type = "Enum" → td.ts.elements ≠ [] ∧ ∀ e ∈ td.ts.elements, IsGName e.symbol
  variants : td.ts.type = "Union" → td.ts.variants ≠ [] ∧ ∀ v ∈ td.ts.variants, IsGName v.ts.type

theorem lex_typeDef (m : Model) (custom : String → String) (td : TypeDef) (h : TypeFit m custom td) (t : String)
    (ht : emitTypeDef m custom td = .ok t) (r : List Char) :
    gLex .start (t.toList ++ r) = docToks m custom td ++ gLex .start r := by
  unfold emitTypeDef at ht
  unfold docToks
  split at ht
  · rename_i e
    cases ht
    rw [if_pos e]
    exact lex_enumDef td h.name (h.elements e).2 r
  · rename_i e1
    rw [if_neg e1]
    split at ht
    · rename_i e
      cases ht
      rw [if_pos e]
      exact lex_structDef m custom td h.name (h.fields e).2 r
    · rename_i e2
      rw [if_neg e2]
      split at ht
      · rename_i e
        cases ht
        rw [if_pos e]
        exact lex_unionDef td h.name (h.variants e).2 r
      · rename_i e3
        rw [if_neg e3]
        split at ht
        · cases ht; rfl
        · split at ht
          · cases ht; rfl
          · cases ht

theorem lex_typeDefs (m : Model) (custom : String → String) (tds : List TypeDef) (h : ∀ td ∈ tds, TypeFit m custom td) :
    ∀ t, emitTypeDefs m custom tds = .ok t → ∀ r : List Char,
      gLex .start (t.toList ++ r) = tds.flatMap (docToks m custom) ++ gLex .start r := by
  induction tds with
  | nil => intro t ht r; cases ht; rfl
  | cons td tds ih =>
    intro t ht r
    rw [emitTypeDefs] at ht
    cases h1 : emitTypeDef m custom td with
    | err e => rw [h1] at ht; cases ht
    | panic e => rw [h1] at ht; cases ht
    | ok t1 =>
      rw [h1] at ht
      cases h2 : emitTypeDefs m custom tds with
      | err e => rw [h2] at ht; cases ht
      | panic e => rw [h2] at ht; cases ht
      | ok t2 =>
        rw [h2] at ht
        cases ht
        rw [String.toList_append, List.append_assoc, lex_typeDef m custom td (h td (by simp)) t1 h1,
          ih (fun td h' => h td (by simp [h'])) t2 h2, List.flatMap_cons, List.append_assoc]

def scalarToks (ns : List String) : List GTok := ns.flatMap fun n => [.name "scalar", .name n]

theorem lex_scalars (ns : List String) (h : ∀ n ∈ ns, IsGName n) :
    gLex .start (String.join (ns.map fun k => "scalar " ++ k ++ "\n")).toList = scalarToks ns := by
  induction ns with
  | nil => rfl
  | cons n ns ih =>
    simp only [List.map_cons, String.join_cons, String.toList_append, List.append_assoc, gk_scalar, lit_nl,
      List.singleton_append, gn_nl (h n (by simp)), scalarToks, List.flatMap_cons, List.cons_append, List.nil_append]
    rw [ih (fun n h' => h n (by simp [h']))]
    rfl

/-- No definition begins with a punctuator. -/
def NoPunct (r : List GTok) : Prop := ∀ c r', r ≠ .punct c :: r'

theorem read_def (m : Model) (custom : String → String) (td : TypeDef) (h : TypeFit m custom td) (d : GDef)
    (hd : docDef m custom td = some d) (r : List GTok) (hr : NoPunct r) :
    gReadDef (docToks m custom td ++ r) = some (d, r) := by
  unfold docDef at hd
  unfold docToks
  split at hd
  · rename_i e
    cases hd
    rw [if_pos e]
    have := read_values td.ts.elements (h.elements e).1 r
    simp only [enumToks, List.append_assoc, List.cons_append, List.nil_append]
    unfold gReadDef
    simp [this]
  · rename_i e1
    rw [if_neg e1]
    split at hd
    · rename_i e
      cases hd
      rw [if_pos e]
      have hlen : 2 * td.ts.fields.length ≤ (td.ts.fields.flatMap (fieldToks m custom) ++ .punct '}' :: r).length := by
        have : ∀ l : List StructFieldDef, 2 * l.length ≤ (l.flatMap (fieldToks m custom)).length := by
          intro l
          induction l with
          | nil => simp
          | cons f l ih =>
            have := fieldToks_length m custom f
            simp only [List.length_cons, List.flatMap_cons, List.length_append]
            omega
        have := this td.ts.fields
        simp only [List.length_append]
        omega
      have := read_fields m custom td.ts.fields (h.fields e).1 r _ hlen
      simp only [structToks, List.append_assoc, List.cons_append, List.nil_append]
      unfold gReadDef
      simp only [String.reduceEq, if_false, this]
      simp
    · rename_i e2
      rw [if_neg e2]
      split at hd
      · rename_i e
        cases hd
        rw [if_pos e]
        cases hv : td.ts.variants with
        | nil => exact absurd hv (h.variants e).1
        | cons v vs =>
          have := read_members vs r hr
          simp only [unionToks, hv, List.append_assoc, List.cons_append, List.nil_append]
          unfold gReadDef
          simp [this]
      · cases hd

theorem docToks_noPunct (m : Model) (custom : String → String) (td : TypeDef) (r : List GTok) (hr : NoPunct r) :
    NoPunct (docToks m custom td ++ r) := by
  unfold docToks
  split
  · intro c r' e; simp [enumToks] at e
  · split
    · intro c r' e; simp [structToks] at e
    · split
      · intro c r' e; simp [unionToks] at e
      · exact hr

theorem docToks_nil (m : Model) (custom : String → String) (td : TypeDef) (h : docDef m custom td = none) :
    docToks m custom td = [] := by
  unfold docDef at h
  unfold docToks
  split at h
  · cases h
  · rename_i e; rw [if_neg e]; split at h
    · cases h
    · rename_i e; rw [if_neg e]; split at h
      · cases h
      · rename_i e; rw [if_neg e]

theorem docToks_pos (m : Model) (custom : String → String) (td : TypeDef) {d : GDef} (h : docDef m custom td = some d) :
    1 ≤ (docToks m custom td).length := by
  unfold docDef at h
  unfold docToks
  split at h
  · rename_i e; rw [if_pos e]; simp [enumToks]
  · rename_i e; rw [if_neg e]; split at h
    · rename_i e; rw [if_pos e]; simp [structToks]
    · rename_i e; rw [if_neg e]; split at h
      · rename_i e; rw [if_pos e]; simp [unionToks]
      · cases h

theorem read_scalars (ns : List String) : ∀ k, ns.length ≤ k → gReadDefs k (scalarToks ns) = some (ns.map .scalar) := by
  induction ns with
  | nil => intro k _; cases k <;> rfl
  | cons n ns ih =>
    intro k hk
    obtain ⟨k, rfl⟩ : ∃ k', k = k' + 1 := ⟨k - 1, by simp only [List.length_cons] at hk; omega⟩
    have e : scalarToks (n :: ns) = .name "scalar" :: .name n :: scalarToks ns := rfl
    have h1 : gReadDef (.name "scalar" :: .name n :: scalarToks ns) = some (.scalar n, scalarToks ns) := by
      unfold gReadDef; simp
    rw [e, gReadDefs]
    · rw [h1]; simp only; rw [ih k (by simp only [List.length_cons] at hk; omega)]; rfl
    · simp

theorem scalarToks_noPunct (ns : List String) : NoPunct (scalarToks ns) := by
  intro c r e
  cases ns with
  | nil => cases e
  | cons n ns => simp [scalarToks] at e

theorem read_defs (m : Model) (custom : String → String) (tds : List TypeDef) (h : ∀ td ∈ tds, TypeFit m custom td)
    (ns : List String) :
    ∀ k, (tds.flatMap (docToks m custom) ++ scalarToks ns).length ≤ k →
      gReadDefs k (tds.flatMap (docToks m custom) ++ scalarToks ns) =
        some (tds.filterMap (docDef m custom) ++ ns.map .scalar) := by
  induction tds with
  | nil =>
    intro k hk
    refine read_scalars ns k (Nat.le_trans ?_ hk)
    clear h hk
    induction ns with
    | nil => simp
    | cons n ns ih =>
      simp only [List.flatMap_nil, List.nil_append, scalarToks, List.flatMap_cons, List.length_append, List.length_cons,
        List.length_nil] at ih ⊢
      omega
  | cons td tds ih =>
    intro k hk
    have hr : NoPunct (tds.flatMap (docToks m custom) ++ scalarToks ns) := by
      clear ih hk h
      induction tds with
      | nil => exact scalarToks_noPunct ns
      | cons td tds ih =>
        rw [List.flatMap_cons, List.append_assoc]
        exact docToks_noPunct m custom td _ ih
    rw [List.flatMap_cons, List.append_assoc] at hk ⊢
    cases hd : docDef m custom td with
    | none =>
      rw [docToks_nil m custom td hd, List.nil_append] at hk ⊢
      rw [ih (fun td h' => h td (by simp [h'])) k hk, List.filterMap_cons, hd]
    | some d =>
      have hp := docToks_pos m custom td hd
      have h1 := read_def m custom td (h td (by simp)) d hd _ hr
      rw [List.length_append] at hk
      obtain ⟨k, rfl⟩ : ∃ k', k = k' + 1 := ⟨k - 1, by omega⟩
      rw [gReadDefs]
      · rw [h1]
        simp only
        rw [ih (fun td h' => h td (by simp [h'])) k (by omega), List.filterMap_cons, hd]
        rfl
      · intro e
        have := congrArg List.length e
        rw [List.length_append] at this
        simp only [List.length_nil] at this
        omega

/-- The document that the exported text reads as. -/
def docOf (m : Model) (custom : String → String) (scalars : List String) : List GDef :=
  m.schema.types.filterMap (docDef m custom) ++ scalars.map .scalar

theorem gqlRead_fromSadl (order : List String → List String) (m : Model) (conf : Value)
    (h : ∀ td ∈ m.schema.types, TypeFit m (customOf conf) td)
    (hs : ∀ n ∈ order (usedScalars m (customOf conf)), IsGName n) (t : String) (ht : fromSadl order m conf = .ok t) :
    gqlRead t = some (docOf m (customOf conf) (order (usedScalars m (customOf conf)))) := by
  unfold fromSadl at ht
  simp only at ht
  cases h1 : emitTypeDefs m (customOf conf) m.schema.types with
  | err e => rw [h1] at ht; cases ht
  | panic e => rw [h1] at ht; cases ht
  | ok t1 =>
    rw [h1] at ht
    cases ht
    unfold gqlRead
    rw [String.toList_append, lex_typeDefs m (customOf conf) _ h t1 h1, lex_scalars _ hs]
    exact read_defs m (customOf conf) _ h _ _ (Nat.le_refl _)

end Sadl.GraphQL
