import Verif.Lemmas.GoLexText
import Verif.Lemmas.GoServer
/-
The names in generated Go files come from the source.
-/
namespace Sadl
open Sadl.Spec

/-- Every result has the property. -/
def Out.All {α : Type} (P : α → Prop) (o : Out α) : Prop := ∀ r, o = .ok r → P r

theorem Out.All.ok {α : Type} {P : α → Prop} {a : α} (h : P a) : Out.All P (.ok a) := fun r hr => by cases hr; exact h
theorem Out.All.panic {α : Type} {P : α → Prop} {e : String} : Out.All P (.panic e : Out α) := fun r hr => by cases hr
theorem Out.All.bind {α β : Type} {P : α → Prop} {Q : β → Prop} {o : Out α} {f : α → Out β} (h : Out.All P o) (hf : ∀ a, P a → Out.All Q (f a)) :
    Out.All Q (o.bind f) := fun r hr => by
  cases o with
  | ok a => exact hf a (h a rfl) r hr
  | err e => cases hr
  | panic e => cases hr
theorem Out.All.ite {α : Type} {P : α → Prop} {c : Prop} [Decidable c] {a b : Out α} (ha : c → Out.All P a) (hb : ¬ c → Out.All P b) :
    Out.All P (if c then a else b) := by
  split
  · next h => exact ha h
  · next h => exact hb h

/-- The imports among the notes can be written. -/
def NamedNotes (ns : List GoNote) : Prop := ∀ p, GoNote.pack p ∈ ns → GoQuotable p

theorem NamedNotes.nil : NamedNotes [] := fun p hp => by cases hp
theorem NamedNotes.append {a b : List GoNote} (ha : NamedNotes a) (hb : NamedNotes b) : NamedNotes (a ++ b) := fun p hp =>
  (List.mem_append.1 hp).elim (ha p) (hb p)
theorem NamedNotes.one {p : String} (h : GoQuotable p) : NamedNotes [.pack p] := fun q hq => by
  simp only [List.mem_singleton, GoNote.pack.injEq] at hq; exact hq ▸ h
theorem NamedNotes.other {n : GoNote} (h : ∀ p, n ≠ .pack p) : NamedNotes [n] := fun q hq => by
  simp only [List.mem_singleton] at hq; exact absurd hq.symm (h q)

theorem goQuotable_of {t : String} (h : t.toList.all (fun c => decide (c ≠ '"' ∧ c ≠ '\\' ∧ c ≠ '\n')) = true) : GoQuotable t :=
  fun c hc => of_decide_eq_true (List.all_eq_true.1 h c hc)

theorem adjoin_named {l : List String} (h : ∀ p ∈ l, GoQuotable p) {x : String} (hx : GoQuotable x) : ∀ p ∈ adjoin l x, GoQuotable p := by
  intro p hp
  unfold adjoin at hp
  split at hp
  · exact h p hp
  · rcases List.mem_append.1 hp with hp | hp
    · exact h p hp
    · rw [List.mem_singleton.1 hp]; exact hx

theorem addImports_named {ns : List GoNote} (h : NamedNotes ns) : ∀ {l : List String}, (∀ p ∈ l, GoQuotable p) → ∀ p ∈ ns.foldl addImport l, GoQuotable p := by
  induction ns with
  | nil => exact fun hl => hl
  | cons n ns ih =>
    intro l hl
    rw [List.foldl_cons]
    refine ih (fun p hp => h p (List.mem_cons_of_mem _ hp)) ?_
    cases n with
    | pack q => exact adjoin_named hl (h q (by simp))
    | decimal => exact hl
    | timestamp => exact hl

section
variable {s : Schema} {m : Model} (hm : newModel s = .ok m) (hs : GoNamesSource s) {conf : GoConf}

include hm hs in
theorem found_named {n : String} {td : TypeDef} (h : m.findType n = some td) : GoName td.ts.items ∧ GoName td.ts.keys := by
  rcases (newModel_findType_iff hm n td).1 h with ⟨h1, _⟩ | ⟨_, rfl⟩
  · exact ⟨(hs.types td h1).2.items, (hs.types td h1).2.keys⟩
  · exact ⟨goName_of rfl, goName_of rfl⟩

/-- What is known about a type expression and its notes. -/
def NamedTyNotes (r : GoTy × List GoNote) : Prop := NamedTy r.1 ∧ NamedNotes r.2

theorem runtime_named {n : String} (h : GoName n) {ns : List GoNote} (hn : NamedNotes ns) : NamedTyNotes (goRuntimeType conf n ns) := by
  unfold goRuntimeType
  split
  · exact ⟨⟨goName_of (t := "sadl") (by decide), h⟩, .one (goQuotable_of (by decide))⟩
  · exact ⟨h, hn⟩

include hm hs in
theorem goTypeN_named (k : Nat) : ∀ {ts : TypeSpec} {name : String}, GoName name → GoName ts.items → GoName ts.keys →
    Out.All NamedTyNotes (goTypeN m conf k ts name) := by
  induction k with
  | zero => intro _ _ _ _ _; exact .panic
  | succ k ih =>
    intro ts name h hi hk
    unfold goTypeN
    refine .ite (fun _ => .ok ⟨h.uncapitalize, .nil⟩) fun _ => .ite (fun _ => .ok (runtime_named h (.other fun _ => by simp))) fun _ => .ite (fun _ => ?_) fun _ => .ite (fun _ => ?_) fun _ =>
      .ite (fun _ => .ok (runtime_named h (.other fun _ => by simp))) fun _ => .ite (fun _ => .ok (runtime_named h .nil)) fun _ => ?_
    · cases hf : m.findType ts.items with
      | none => exact .panic
      | some its =>
        obtain ⟨a, b⟩ := found_named hm hs hf
        exact (ih hi a b).bind fun r hr => .ok ⟨hr.1, hr.2⟩
    · cases hf : m.findType ts.keys with
      | none => exact .panic
      | some kts =>
        cases hg : m.findType ts.items with
        | none => exact .panic
        | some its =>
          obtain ⟨a, b⟩ := found_named hm hs hf
          obtain ⟨c, d⟩ := found_named hm hs hg
          exact (ih hk a b).bind fun r hr => (ih hi c d).bind fun q hq => .ok ⟨⟨hr.1, hq.1⟩, hr.2.append hq.2⟩
    · cases hf : m.findType name with
      | none => exact .panic
      | some td =>
        refine .ok ⟨?_, .nil⟩
        simp only
        split <;> exact h

include hm hs in
theorem goType_named {ts : TypeSpec} {name : String} (h : GoName name) (hi : GoName ts.items) (hk : GoName ts.keys) :
    Out.All NamedTyNotes (goType m conf ts name) := goTypeN_named hm hs 3 h hi hk

include hm hs in
theorem goNative_named {name : String} (h : GoName name) : Out.All NamedTyNotes (goNativeType m conf name) := by
  unfold goNativeType
  cases hf : m.findType name with
  | none => exact .ok ⟨h, .nil⟩
  | some td =>
    obtain ⟨a, b⟩ := found_named hm hs hf
    exact goType_named hm hs h a b

theorem goCapitalize_named {n : String} (h : GoName n) : Out.All GoName (goCapitalize n) := by
  unfold goCapitalize
  exact .ite (fun _ => .panic) fun _ => .ok h.capitalize

/-! ### The types -/

/-- What is known about fields and their notes. -/
def NamedFields (r : List GoField × List GoNote) : Prop := (∀ f ∈ r.1, NamedField f) ∧ NamedNotes r.2

include hm hs in
theorem goFields_named {l : List StructFieldDef} (h : ∀ f ∈ l, GoName f.name ∧ GoNamesRef f.ts) : Out.All NamedFields (goFields m conf l) := by
  induction l with
  | nil => exact .ok ⟨by simp, .nil⟩
  | cons fd rest ih =>
    obtain ⟨h1, h2⟩ := h fd (by simp)
    unfold goFields
    refine (goCapitalize_named h1).bind fun n hn => (goType_named hm hs h2.type h2.items h2.keys).bind fun t ht =>
      (ih fun f hf => h f (List.mem_cons_of_mem _ hf)).bind fun r hr => .ok ⟨?_, ht.2.append hr.2⟩
    intro f hf
    rcases List.mem_cons.1 hf with rfl | hf
    · exact ⟨hn, ht.1, h1⟩
    · exact hr.1 f hf

include hm hs in
theorem goVariants_named {l : List UnionVariantDef} (h : ∀ f ∈ l, GoName f.name ∧ GoNamesRef f.ts) : Out.All NamedFields (goVariants m conf l) := by
  induction l with
  | nil => exact .ok ⟨by simp, .nil⟩
  | cons fd rest ih =>
    obtain ⟨h1, h2⟩ := h fd (by simp)
    unfold goVariants
    refine (goCapitalize_named h1).bind fun n hn => (goType_named hm hs h2.type h2.items h2.keys).bind fun t ht =>
      (ih fun f hf => h f (List.mem_cons_of_mem _ hf)).bind fun r hr => .ok ⟨?_, ht.2.append hr.2⟩
    intro f hf
    rcases List.mem_cons.1 hf with rfl | hf
    · exact ⟨hn, ht.1, h1⟩
    · exact hr.1 f hf

/-- What is known about declarations and their notes. -/
def NamedDecls (r : List GoDecl × List GoNote) : Prop := (∀ d ∈ r.1, NamedDecl d) ∧ NamedNotes r.2

theorem goErrorMethod_named {errors : List String} {n : String} (h : GoName n) : ∀ d ∈ goErrorMethod errors n, NamedDecl d := by
  intro d hd
  unfold goErrorMethod at hd
  split at hd
  · rw [List.mem_singleton.1 hd]; exact h
  · cases hd

theorem goEnumValue_named {el : EnumElementDef} (h : GoName el.symbol) (hv : ∀ v, mget el.annotations "x_enumValue" = some v → GoQuotable v) :
    GoQuotable (goEnumValue el) := by
  unfold goEnumValue getAnnotation
  simp only
  cases hg : mget el.annotations "x_enumValue" with
  | none => simp only [if_true]; exact h.raw
  | some v =>
    simp only
    by_cases he : v = ""
    · rw [if_pos he, if_neg (by decide)]; exact goQuotable_of (t := "true") (by decide)
    · rw [if_neg he, if_neg he]; exact hv v hg

theorem cons_named {d : GoDecl} {ds : List GoDecl} (h : NamedDecl d) (hs : ∀ x ∈ ds, NamedDecl x) : ∀ x ∈ d :: ds, NamedDecl x := by
  intro x hx
  rcases List.mem_cons.1 hx with rfl | hx
  · exact h
  · exact hs x hx

theorem append_named {as bs : List GoDecl} (h : ∀ x ∈ as, NamedDecl x) (hs : ∀ x ∈ bs, NamedDecl x) : ∀ x ∈ as ++ bs, NamedDecl x := fun x hx =>
  (List.mem_append.1 hx).elim (h x) (hs x)

theorem noDecls : ∀ x ∈ ([] : List GoDecl), NamedDecl x := fun _ hx => by cases hx

include hm hs in
theorem goTypeDecls_named (errors : List String) {td : TypeDef} (hn : GoName td.name) (ht : GoNamesType td.ts) :
    Out.All NamedDecls (goTypeDecls m conf errors td) := by
  unfold goTypeDecls
  refine .ite (fun _ => ?_) fun _ => .ite (fun _ => ?_) fun _ => .ite (fun _ => .panic) fun _ => .ite (fun _ => ?_) fun _ =>
    .ite (fun _ => .ok ⟨cons_named ⟨hn, goName_of (t := "string") (by decide), by simp⟩ noDecls, .nil⟩) fun _ =>
    .ite (fun _ => .ok ⟨cons_named ⟨hn, goName_of (t := "string") (by decide), by simp⟩ noDecls, .nil⟩) fun _ =>
    .ite (fun _ => .ok ⟨cons_named ⟨hn, goName_of (t := "Decimal") (by decide), by simp⟩ noDecls, .other fun _ => by simp⟩) fun _ =>
    .ite (fun _ => ?_) fun _ => .ite (fun _ => ?_) fun _ => .ite (fun _ => ?_) fun _ => .panic
  · exact (goFields_named hm hs ht.fields).bind fun r hr => .ok ⟨cons_named ⟨hn, hr.1⟩ (goErrorMethod_named hn), hr.2⟩
  · refine (goVariants_named hm hs ht.variants).bind fun r hr => .ok ⟨cons_named ⟨hn, fun t h => ?_, hr.1⟩ (goErrorMethod_named hn), hr.2⟩
    obtain ⟨v, hv, rfl⟩ := List.mem_map.1 h
    exact (ht.variants v hv).1.capitalize
  · refine .ok ⟨cons_named ⟨hn, fun e he => ?_⟩ noDecls, .nil⟩
    obtain ⟨el, hel, rfl⟩ := List.mem_map.1 he
    exact ⟨(ht.elements el hel).1, goEnumValue_named (ht.elements el hel).1 (ht.elements el hel).2⟩
  · exact (goType_named hm hs ht.items ht.items ht.keys).bind fun r hr => .ok ⟨cons_named ⟨hn, hr.1, by simp⟩ noDecls, hr.2⟩
  · exact (goType_named hm hs ht.keys ht.items ht.keys).bind fun k hk => (goType_named hm hs ht.items ht.items ht.keys).bind fun r hr =>
      .ok ⟨cons_named ⟨hn, ⟨hk.1, hr.1⟩, by simp⟩ noDecls, hk.2.append hr.2⟩
  · exact .ok ⟨cons_named ⟨hn, ht.type.uncapitalize, by simp⟩ (cons_named hn noDecls), .one (goQuotable_of (by decide))⟩

theorem params_named {ps : List HttpParamSpec} (h : ∀ p ∈ ps, GoNamesParam p) : ∀ f ∈ ps.map (·.field), GoName f.name ∧ GoNamesRef f.ts := by
  intro f hf
  obtain ⟨p, hp, rfl⟩ := List.mem_map.1 hf
  exact ⟨(h p hp).name, (h p hp).type⟩

include hm hs in
theorem goActionTypes_named {hd : HttpDef} (h : GoNamesAction hd) : Out.All NamedDecls (goActionTypes m conf hd) := by
  unfold goActionTypes
  refine (goCapitalize_named h.name).bind fun n hn => (goFields_named hm hs (params_named h.inputs)).bind fun i hi => ?_
  cases he : hd.expected with
  | none => exact .panic
  | some e =>
    exact (goFields_named hm hs (params_named (h.outputs e he))).bind fun o ho => .ok ⟨cons_named ⟨hn.append (goName_of (by decide)), hi.1⟩
      (cons_named ⟨hn.append (goName_of (by decide)), ho.1⟩ noDecls), hi.2.append ho.2⟩

include hm hs in
theorem goActionsLoop_named {l : List HttpDef} (h : ∀ hd ∈ l, GoNamesAction hd) : Out.All NamedDecls (goActionsLoop m conf l) := by
  induction l with
  | nil => exact .ok ⟨noDecls, .nil⟩
  | cons hd rest ih =>
    unfold goActionsLoop
    exact (goActionTypes_named hm hs (h hd (by simp))).bind fun a ha => (ih fun x hx => h x (List.mem_cons_of_mem _ hx)).bind fun r hr =>
      .ok ⟨append_named ha.1 hr.1, ha.2.append hr.2⟩

include hm hs in
theorem goTypesLoop_named (errors : List String) {l : List TypeDef} (h : ∀ td ∈ l, GoName td.name ∧ GoNamesType td.ts) :
    Out.All NamedDecls (goTypesLoop m conf errors l) := by
  induction l with
  | nil => exact .ok ⟨noDecls, .nil⟩
  | cons td rest ih =>
    obtain ⟨h1, h2⟩ := h td (by simp)
    unfold goTypesLoop
    exact (goTypeDecls_named hm hs errors h1 h2).bind fun a ha => (ih fun x hx => h x (List.mem_cons_of_mem _ hx)).bind fun r hr =>
      .ok ⟨cons_named h1 (append_named ha.1 hr.1), ha.2.append hr.2⟩

theorem goClosing_named (ns : List GoNote) : NamedDecls (goClosing ns) := by
  have h1 : NamedNotes goTimestampNotes := fun p hp => by
    simp only [goTimestampNotes, List.mem_cons, GoNote.pack.injEq, List.not_mem_nil, or_false] at hp
    rcases hp with rfl | rfl | rfl | rfl <;> exact goQuotable_of (by decide)
  have h2 : NamedNotes goDecimalNotes := fun p hp => by
    simp only [goDecimalNotes, List.mem_cons, GoNote.pack.injEq, List.not_mem_nil, or_false] at hp
    rcases hp with rfl | rfl | rfl <;> exact goQuotable_of (by decide)
  unfold goClosing
  simp only
  split <;> split
  · exact ⟨append_named (cons_named trivial noDecls) (cons_named trivial noDecls), h1.append h2⟩
  · exact ⟨append_named (cons_named trivial noDecls) noDecls, h1.append .nil⟩
  · exact ⟨append_named noDecls (cons_named trivial noDecls), NamedNotes.nil.append h2⟩
  · exact ⟨append_named noDecls noDecls, NamedNotes.nil.append .nil⟩

include hm in
theorem schema_eq : m.schema = s := by
  obtain ⟨_, _, _, rfl⟩ := (newModel_ok_iff s m).1 hm
  rfl

include hm hs in
theorem goModel_named (hc : GoName conf.name) (hp : GoName conf.pkg) : Out.All NamedFile (goModel m conf) := by
  have e := schema_eq hm
  unfold goModel
  rw [e]
  refine (goActionsLoop_named hm hs hs.actions).bind fun a ha => (goTypesLoop_named hm hs _ hs.types).bind fun t ht => .ok ⟨hp, ?_, ?_⟩
  · exact addImports_named ((ha.2.append ht.2).append (goClosing_named _).2) (by simp)
  · refine append_named (append_named (cons_named ⟨hc, fun k hk => ?_⟩ ha.1) ht.1) (goClosing_named _).1
    obtain ⟨hd, hh, rfl⟩ := List.mem_map.1 hk
    exact (hs.actions hd hh).name.capitalize

/-! ### The server -/

theorem goCoerce_neutral {t : String} (h : GNeutral t) : GNeutral (goCoerce t) := by
  unfold goCoerce
  split
  · next r hr =>
    intro st
    have := h st
    unfold grun at this ⊢
    rw [hr] at this
    rw [String.toList_ofList]
    exact this
  · exact h

/-- What is known about an expression and its notes. -/
def NamedExprNotes (r : GoExpr × List GoNote) : Prop := NamedExpr r.1 ∧ NamedNotes r.2

include hm hs in
theorem goAccessor_named (lib : GoLib) {p : HttpParamSpec} (h : GoNamesParam p) (src : GoSource) :
    Out.All NamedExprNotes (goAccessor m conf lib p src) := by
  unfold goAccessor
  refine (goNative_named hm hs h.type.type).bind fun t ht => ?_
  have h1 := goCoerce_neutral ht.1.neutral
  simp only
  refine .ite (fun _ => .ok ⟨?_, ht.2⟩) fun _ => .ite (fun _ => .ok ⟨trivial, ht.2⟩) fun _ => .ite (fun _ => .ok ⟨?_, ht.2⟩) fun _ => .panic
  · simp only
    split
    · exact ⟨h1, trivial⟩
    · trivial
  · simp only
    split
    · exact ⟨h1, trivial⟩
    · trivial

/-- What is known about a step and its notes. -/
def NamedStepNotes (r : GoStep × List GoNote) : Prop := NamedStep r.1 ∧ NamedNotes r.2

include hm hs in
theorem goStep_named (lib : GoLib) {p : HttpParamSpec} (h : GoNamesParam p) : Out.All NamedStepNotes (goStep m conf lib p) := by
  unfold goStep
  simp only
  exact .ite (fun _ => (goAccessor_named hm hs lib h _).bind fun e he => .ok ⟨⟨h.name.capitalize, he.1⟩, he.2⟩) fun _ =>
    .ite (fun _ => (goAccessor_named hm hs lib h _).bind fun e he => .ok ⟨⟨h.name.capitalize, he.1⟩, he.2⟩) fun _ =>
    .ite (fun _ => (goAccessor_named hm hs lib h _).bind fun e he => .ok ⟨⟨h.name.capitalize, he.1⟩, he.2⟩) fun _ => .ok ⟨h.name.capitalize, .nil⟩

include hm hs in
theorem goSteps_named (lib : GoLib) {l : List HttpParamSpec} (h : ∀ p ∈ l, GoNamesParam p) :
    Out.All (fun r => (∀ x ∈ r.1, NamedStep x) ∧ NamedNotes r.2) (goSteps m conf lib l) := by
  induction l with
  | nil => exact .ok ⟨by simp, .nil⟩
  | cons p rest ih =>
    unfold goSteps
    refine (goStep_named hm hs lib (h p (by simp))).bind fun a ha => (ih fun x hx => h x (List.mem_cons_of_mem _ hx)).bind fun r hr =>
      .ok ⟨fun x hx => ?_, ha.2.append hr.2⟩
    rcases List.mem_cons.1 hx with rfl | hx
    · exact ha.1
    · exact hr.1 x hx

include hm hs in
theorem goCases_named {l : List HttpExceptionSpec} (h : ∀ x ∈ l, GoName x.type) :
    Out.All (fun r => (∀ c ∈ r.1, NamedTy c.1) ∧ NamedNotes r.2) (goCases m conf l) := by
  induction l with
  | nil => exact .ok ⟨by simp, .nil⟩
  | cons p rest ih =>
    unfold goCases
    refine (goNative_named hm hs (h p (by simp))).bind fun a ha => (ih fun x hx => h x (List.mem_cons_of_mem _ hx)).bind fun r hr =>
      .ok ⟨fun x hx => ?_, ha.2.append hr.2⟩
    rcases List.mem_cons.1 hx with rfl | hx
    · exact ha.1
    · exact hr.1 x hx

theorem goHeaders_named {l : List HttpParamSpec} (h : ∀ p ∈ l, GoNamesParam p) : ∀ e ∈ goHeaders l, GoQuotable e.1 ∧ GoName e.2 := by
  induction l with
  | nil => intro e he; cases he
  | cons p rest ih =>
    intro e he
    have ih := ih fun x hx => h x (List.mem_cons_of_mem _ hx)
    unfold goHeaders at he
    split at he
    · rcases List.mem_cons.1 he with rfl | he
      · exact ⟨(h p (by simp)).header, (h p (by simp)).name.capitalize⟩
      · exact ih e he
    · exact ih e he

theorem goEntity_named {l : List HttpParamSpec} (h : ∀ p ∈ l, GoNamesParam p) {f : String} (hf : goEntity l = some f) : GoName f := by
  induction l with
  | nil => cases hf
  | cons p rest ih =>
    unfold goEntity at hf
    split at hf
    · cases hf; exact (h p (by simp)).name.capitalize
    · exact ih (fun x hx => h x (List.mem_cons_of_mem _ hx)) hf

include hm hs in
theorem goHandler_named (lib : GoLib) {hd : HttpDef} (h : GoNamesAction hd) :
    Out.All (fun r => NamedHandler r.1 ∧ NamedNotes r.2) (goHandler m conf lib hd) := by
  unfold goHandler
  refine (goCapitalize_named h.name).bind fun n hn => (goSteps_named hm hs lib h.inputs).bind fun st hst => ?_
  cases he : hd.expected with
  | none => exact .panic
  | some e =>
    refine (goCases_named hm hs h.exceptions).bind fun c hc => .ok ⟨⟨hn, hst.1, ?_, hc.1, goHeaders_named (h.outputs e he), fun f hf => goEntity_named (h.outputs e he) hf⟩,
      hst.2.append hc.2⟩
    simp only
    split <;> exact goName_of (by decide)

include hm hs in
theorem goHandlers_named (lib : GoLib) {l : List HttpDef} (h : ∀ hd ∈ l, GoNamesAction hd) :
    Out.All (fun r => (∀ x ∈ r.1, NamedHandler x) ∧ NamedNotes r.2) (goHandlers m conf lib l) := by
  induction l with
  | nil => exact .ok ⟨by simp, .nil⟩
  | cons p rest ih =>
    unfold goHandlers
    refine (goHandler_named hm hs lib (h p (by simp))).bind fun a ha => (ih fun x hx => h x (List.mem_cons_of_mem _ hx)).bind fun r hr =>
      .ok ⟨fun x hx => ?_, ha.2.append hr.2⟩
    rcases List.mem_cons.1 hx with rfl | hx
    · exact ha.1
    · exact hr.1 x hx

theorem splitFirst_mem {c : Char} {l a b : List Char} (h : splitFirst c l = some (a, b)) : ∀ x ∈ a, x ∈ l := by
  rw [(splitFirst_some.1 h).1]
  exact fun x hx => List.mem_append_left _ hx

theorem routePath_named {path : String} (h : GoQuotable path) : GoQuotable (goRoutePath path) := fun c hc => by
  refine h c ?_
  unfold goRoutePath pathPart at hc
  rw [String.toList_ofList] at hc
  split at hc
  · next a b he => exact splitFirst_mem he c hc
  · exact hc

theorem goServerImports_named : ∀ p ∈ goServerImports, GoQuotable p := by
  unfold GoQuotable; decide

theorem goClientImports_named : ∀ p ∈ goClientImports, GoQuotable p := by
  unfold GoQuotable; decide

theorem goTemplate_all {α : Type} {P : α → Prop} {o : Out α} (h : Out.All P o) : Out.All P (goTemplate o) := fun r hr => by
  cases o with
  | ok a => exact h r hr
  | err e => cases hr
  | panic e => cases hr

include hm hs in
theorem goServer_named (lib : GoLib) (hc : GoName conf.name) (hp : GoName conf.pkg) : Out.All NamedServer (goServer m conf lib) := by
  have e := schema_eq hm
  unfold goServer
  rw [e]
  refine goTemplate_all ((goHandlers_named hm hs lib hs.actions).bind fun a ha => .ok ⟨hp, addImports_named ha.2 goServerImports_named, hc.capitalize,
    hc.uncapitalize.append (goName_of (by decide)), ha.1, fun r hr => ?_⟩)
  obtain ⟨hd, hh, rfl⟩ := List.mem_map.1 hr
  have := hs.actions hd hh
  exact ⟨routePath_named this.path, this.name.capitalize, this.method⟩

/-! ### The client -/

theorem goArgs_named {l : List HttpParamSpec} (h : ∀ p ∈ l, GoNamesParam p) : ∀ a ∈ goArgs m l, NamedArg a := by
  induction l with
  | nil => intro a ha; cases ha
  | cons p rest ih =>
    intro a ha
    have ih := ih fun x hx => h x (List.mem_cons_of_mem _ hx)
    unfold goArgs at ha
    split at ha
    · rcases List.mem_cons.1 ha with rfl | ha
      · have hp := (h p (by simp)).name
        refine ⟨hp.capitalize, ?_, hp, ?_⟩
        · have lit : ∀ t ∈ ["\"\"", "0", "0.0", "false", "nil"], GNeutral t := by
            intro t ht s
            simp only [List.mem_cons, List.not_mem_nil, or_false] at ht
            rcases ht with rfl | rfl | rfl | rfl | rfl
            · exact grun_list (o := []) (o' := []) (t := "\"\"") rfl (by decide +kernel) s
            · exact grun_list (o := []) (o' := []) (t := "0") rfl (by decide +kernel) s
            · exact grun_list (o := []) (o' := []) (t := "0.0") rfl (by decide +kernel) s
            · exact grun_list (o := []) (o' := []) (t := "false") rfl (by decide +kernel) s
            · exact grun_list (o := []) (o' := []) (t := "nil") rfl (by decide +kernel) s
          refine lit _ ?_
          unfold goNotSet
          simp only
          split_ifs <;> decide
        · unfold goTypeFormat
          simp only
          split_ifs <;> exact goQuotable_of (by decide)
      · exact ih a ha
    · exact ih a ha

theorem goReader_named {l : List HttpParamSpec} (h : ∀ p ∈ l, GoNamesParam p) {f : String} (hf : goReader l = some f) : GoName f := by
  induction l with
  | nil => cases hf
  | cons p rest ih =>
    unfold goReader at hf
    split at hf
    · cases hf; exact (h p (by simp)).name.capitalize
    · exact ih (fun x hx => h x (List.mem_cons_of_mem _ hx)) hf

include hm hs in
theorem goOutputs_named {l : List HttpParamSpec} (h : ∀ p ∈ l, GoNamesParam p) :
    Out.All (fun r => (∀ x ∈ r.1, NamedOutput x) ∧ NamedNotes r.2) (goOutputs m conf l) := by
  induction l with
  | nil => exact .ok ⟨by simp, .nil⟩
  | cons p rest ih =>
    have hp := h p (by simp)
    unfold goOutputs
    refine (goNative_named hm hs hp.type.type).bind fun a ha => (ih fun x hx => h x (List.mem_cons_of_mem _ hx)).bind fun r hr =>
      .ok ⟨fun x hx => ?_, ha.2.append hr.2⟩
    rcases List.mem_cons.1 hx with rfl | hx
    · split
      · exact ⟨hp.name.capitalize, ha.1⟩
      · exact hp.name.capitalize
    · exact hr.1 x hx

include hm hs in
theorem goCall_named {hd : HttpDef} (h : GoNamesAction hd) : Out.All (fun r => NamedCall r.1 ∧ NamedNotes r.2) (goCall m conf hd) := by
  unfold goCall
  cases he : hd.expected with
  | none => exact .panic
  | some e =>
    refine (goOutputs_named hm hs (h.outputs e he)).bind fun o ho => (goCases_named hm hs h.exceptions).bind fun c hc => .ok
      ⟨⟨h.name.capitalize, routePath_named h.path, goArgs_named h.inputs, h.method, fun f hf => ?_, ho.1, hc.1⟩, (NamedNotes.append ?_ ho.2).append hc.2⟩
    · simp only at hf
      split at hf
      · exact goReader_named h.inputs hf
      · cases hf
    · split_ifs
      · exact .one (goQuotable_of (t := "bytes") (by decide))
      all_goals first | exact .nil | exact .one (goQuotable_of (t := "bytes") (by decide))

include hm hs in
theorem goCalls_named {l : List HttpDef} (h : ∀ hd ∈ l, GoNamesAction hd) :
    Out.All (fun r => (∀ x ∈ r.1, NamedCall x) ∧ NamedNotes r.2) (goCalls m conf l) := by
  induction l with
  | nil => exact .ok ⟨by simp, .nil⟩
  | cons p rest ih =>
    unfold goCalls
    refine (goCall_named hm hs (h p (by simp))).bind fun a ha => (ih fun x hx => h x (List.mem_cons_of_mem _ hx)).bind fun r hr =>
      .ok ⟨fun x hx => ?_, ha.2.append hr.2⟩
    rcases List.mem_cons.1 hx with rfl | hx
    · exact ha.1
    · exact hr.1 x hx

include hm hs in
theorem goClient_named (hc : GoName conf.name) (hp : GoName conf.pkg) : Out.All NamedClient (goClient m conf) := by
  have e := schema_eq hm
  unfold goClient
  rw [e]
  exact goTemplate_all ((goCalls_named hm hs hs.actions).bind fun a ha => .ok ⟨hp, addImports_named ha.2 goClientImports_named,
    hc.capitalize.append (goName_of (by decide)), ha.1⟩)

end

end Sadl
