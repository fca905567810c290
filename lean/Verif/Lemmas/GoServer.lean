import Verif.Spec.GoServer
import Verif.Lemmas.GoCompiles
/-
The generated Go server as an explicit function of the schema.
-/
namespace Sadl
open Sadl.Spec

section
variable {s : Schema} {m : Model} (hm : newModel s = .ok m) (hne : ∀ td ∈ s.types, td.name ≠ "")
include hm

theorem findType_defines_iff (n : String) (ts : TypeSpec) : Defines s n ts ↔ ∃ td, m.findType n = some td ∧ td.ts = ts := by
  constructor
  · rintro (⟨td, h1, h2, h3⟩ | ⟨h1, h2⟩)
    · exact ⟨td, (newModel_findType_iff hm n td).2 (.inl ⟨h1, h2⟩), h3⟩
    · exact ⟨_, (newModel_findType_iff hm n _).2 (.inr ⟨h1, rfl⟩), h2.symm⟩
  · rintro ⟨td, h1, h2⟩
    rcases (newModel_findType_iff hm n td).1 h1 with ⟨h3, h4⟩ | ⟨h3, h4⟩
    · exact .inl ⟨td, h3, h4, h2⟩
    · subst h4; exact .inr ⟨h3, h2.symm⟩

theorem goBaseType_iff (n : String) (l : List String) (hl : "" ∉ l) : goBaseType m n ∈ l ↔ OfKind s n l := by
  unfold goBaseType OfKind
  simp only [findType_defines_iff hm]
  cases h : m.findType n with
  | none => simp [hl]
  | some td => simp

theorem ofKind_type {n k : String} {l : List String} (h : goBaseType m n = k) (hk : k ∈ l) (hl : "" ∉ l) : OfKind s n l :=
  (goBaseType_iff hm n l hl).1 (h ▸ hk)

/-- The Go type of a name, which need not be known. -/
def nativeOf (m : Model) (conf : GoConf) (n : String) : GoTy × List GoNote :=
  if (m.findType n).isSome then leafTy m conf n else (.ident n, [])

variable (conf : GoConf)

include hne in
theorem goNativeType_ok_iff (n : String) (r : GoTy × List GoNote) :
    goNativeType m conf n = .ok r ↔ (n ≠ "Array" ∧ n ≠ "Map") ∧ r = nativeOf m conf n := by
  unfold goNativeType nativeOf
  cases hf : m.findType n with
  | none =>
    have ha : n ≠ "Array" := by rintro rfl; rw [findType_base hm (by decide)] at hf; cases hf
    have hp : n ≠ "Map" := by rintro rfl; rw [findType_base hm (by decide)] at hf; cases hf
    simp only [Out.ok.injEq, Option.isSome_none, Bool.false_eq_true, if_false]
    exact ⟨fun h => ⟨⟨ha, hp⟩, h.symm⟩, fun h => h.2.symm⟩
  | some td =>
    by_cases ha : n = "Array"
    · subst ha
      rw [findType_base hm (by decide)] at hf
      cases hf
      exact ⟨fun h => absurd h (goTypeN_base_array hm hne conf 2 r), fun h => absurd rfl h.1.1⟩
    by_cases hp : n = "Map"
    · subst hp
      rw [findType_base hm (by decide)] at hf
      cases hf
      exact ⟨fun h => absurd h (goTypeN_base_map hm hne conf 2 r), fun h => absurd rfl h.1.2⟩
    have hk : Known s n := by
      by_contra h
      rw [← goFind_none_iff hm] at h
      rw [h] at hf; cases hf
    simp only [goType_ok_iff hm hne]
    simp only [GoWrites, tyOf, ha, hp, if_false, Option.isSome_some, if_true, hk, false_implies, true_and, and_true, ne_eq, not_false_eq_true]
end

/-! ### The explicit server -/

/-- The source of an input. -/
def sourceOf (p : HttpParamSpec) : GoSource :=
  if p.query ≠ "" then .form p.query else if p.header ≠ "" then .header p.header else .var p.field.name

/-- The expression for an input. -/
def exprOf (m : Model) (conf : GoConf) (lib : GoLib) (p : HttpParamSpec) : GoExpr :=
  let n := p.field.ts.type
  let coerceTo := goCoerce (nativeOf m conf n).1.text
  let bt := goBaseType m n
  if bt = "String" ∨ bt = "UUID" then
    let vv := GoExpr.str (sourceOf p) (goStringDefault lib p.field.default)
    if coerceTo ≠ bt then .conv coerceTo vv else vv
  else if bt = "Timestamp" then .time (sourceOf p) (goTimeDefault lib p.field.default)
  else
    let vv := GoExpr.int (sourceOf p) (goIntDefault p.field.default)
    if coerceTo ≠ bt then .conv coerceTo vv else vv

/-- The step for an input. -/
def stepOf (m : Model) (conf : GoConf) (lib : GoLib) (p : HttpParamSpec) : GoStep :=
  if BodyInput p then .decode (capitalize p.field.name) else .assign (capitalize p.field.name) (exprOf m conf lib p)

/-- The notes for an input. -/
def stepNotes (m : Model) (conf : GoConf) (p : HttpParamSpec) : List GoNote :=
  if BodyInput p then [] else (nativeOf m conf p.field.ts.type).2

/-- The handler of an action. -/
def handlerOf (m : Model) (conf : GoConf) (lib : GoLib) (hd : HttpDef) : GoHandler :=
  let e := hd.expected.getD {}
  { method := capitalize hd.name, form := hd.inputs.any (fun p => p.query ≠ ""), steps := hd.inputs.map (stepOf m conf lib)
    result := if e.status = 204 ∨ e.status = 304 then "_" else "res"
    cases := hd.exceptions.map fun x => ((nativeOf m conf x.type).1, x.status)
    headers := (e.outputs.filter fun p => p.header ≠ "").map fun p => (p.header, capitalize p.field.name)
    status := e.status, entity := (e.outputs.find? BodyOutput).map fun p => capitalize p.field.name }

/-- The notes for an action. -/
def handlerNotes (m : Model) (conf : GoConf) (hd : HttpDef) : List GoNote :=
  hd.inputs.flatMap (stepNotes m conf) ++ hd.exceptions.flatMap fun x => (nativeOf m conf x.type).2

/-- The server. -/
def serverOf (m : Model) (conf : GoConf) (lib : GoLib) : GoServer :=
  { pkg := conf.pkg, imports := (m.schema.http.flatMap (handlerNotes m conf)).foldl addImport goServerImports
    service := capitalize conf.name, adaptor := uncapitalize conf.name ++ "Adaptor"
    handlers := m.schema.http.map (handlerOf m conf lib), routes := m.schema.http.map goRoute }

section
variable {s : Schema} {m : Model} (hm : newModel s = .ok m) (hne : ∀ td ∈ s.types, td.name ≠ "") (conf : GoConf) (lib : GoLib)
include hm hne

theorem goAccessor_ok_iff (p : HttpParamSpec) (r : GoExpr × List GoNote) :
    goAccessor m conf lib p (sourceOf p) = .ok r ↔ OfKind s p.field.ts.type GoParamKinds ∧
      r = (exprOf m conf lib p, (nativeOf m conf p.field.ts.type).2) := by
  unfold goAccessor
  simp only [gbind_ok, goNativeType_ok_iff hm hne]
  have hplain : OfKind s p.field.ts.type GoParamKinds → p.field.ts.type ≠ "Array" ∧ p.field.ts.type ≠ "Map" := by
    rintro ⟨ts, h1, h2⟩
    constructor <;> intro h <;> rw [h] at h1
    · obtain ⟨td, h3, h4⟩ := (findType_defines_iff hm _ _).1 h1
      rw [findType_base hm (by decide)] at h3
      cases h3; subst h4; exact absurd h2 (by decide)
    · obtain ⟨td, h3, h4⟩ := (findType_defines_iff hm _ _).1 h1
      rw [findType_base hm (by decide)] at h3
      cases h3; subst h4; exact absurd h2 (by decide)
  have hk := goBaseType_iff hm p.field.ts.type GoParamKinds (by decide)
  constructor
  · rintro ⟨_, ⟨_, rfl⟩, h⟩
    rw [← hk]
    unfold exprOf
    simp only at h ⊢
    split at h
    · next h1 => rw [if_pos h1]; exact ⟨by rcases h1 with h1 | h1 <;> rw [h1] <;> decide, by injection h with h; exact h.symm⟩
    · next h1 =>
      rw [if_neg h1]
      split at h
      · next h2 => rw [if_pos h2]; exact ⟨by rw [h2]; decide, by injection h with h; exact h.symm⟩
      · next h2 =>
        rw [if_neg h2]
        split at h
        · next h3 =>
          exact ⟨by rcases h3 with h3 | h3 | h3 | h3 <;> rw [h3] <;> decide, by injection h with h; exact h.symm⟩
        · cases h
  · rintro ⟨h, rfl⟩
    refine ⟨_, ⟨hplain h, rfl⟩, ?_⟩
    rw [← hk] at h
    unfold exprOf
    simp only
    by_cases h1 : goBaseType m p.field.ts.type = "String" ∨ goBaseType m p.field.ts.type = "UUID"
    · rw [if_pos h1, if_pos h1]
    rw [if_neg h1, if_neg h1]
    by_cases h2 : goBaseType m p.field.ts.type = "Timestamp"
    · rw [if_pos h2, if_pos h2]
    rw [if_neg h2, if_neg h2, if_pos]
    simp only [GoParamKinds, List.mem_cons, List.not_mem_nil, or_false] at h
    tauto

theorem goStep_ok_iff (p : HttpParamSpec) (r : GoStep × List GoNote) :
    goStep m conf lib p = .ok r ↔ (BodyInput p = false → OfKind s p.field.ts.type GoParamKinds) ∧
      r = (stepOf m conf lib p, stepNotes m conf p) := by
  have key := goAccessor_ok_iff hm hne conf lib p
  unfold goStep stepOf stepNotes
  dsimp only
  have hb : BodyInput p = decide (p.path = false ∧ p.query = "" ∧ p.header = "") := rfl
  have aux : ∀ src, sourceOf p = src → BodyInput p = false →
      ((∃ e, goAccessor m conf lib p src = .ok e ∧ Out.ok (GoStep.assign (capitalize p.field.name) e.1, e.2) = .ok r) ↔
      (BodyInput p = false → OfKind s p.field.ts.type GoParamKinds) ∧
      r = (if BodyInput p = true then GoStep.decode (capitalize p.field.name) else .assign (capitalize p.field.name) (exprOf m conf lib p),
           if BodyInput p = true then [] else (nativeOf m conf p.field.ts.type).2)) := by
    rintro src rfl hf
    simp only [key, hf, Bool.false_eq_true, if_false, true_implies]
    constructor
    · rintro ⟨_, ⟨h2, rfl⟩, h3⟩
      injection h3 with h3
      exact ⟨h2, h3.symm⟩
    · rintro ⟨h2, rfl⟩
      exact ⟨_, ⟨h2, rfl⟩, rfl⟩
  by_cases hq : p.query ≠ ""
  · simp only [hq, ne_eq, not_false_eq_true, if_true]
    simp only [gbind_ok]
    exact aux _ (by simp [sourceOf, hq]) (by simp [hb, hq])
  · rw [not_not] at hq
    by_cases hh : p.header ≠ ""
    · simp only [hq, hh, ne_eq, not_true_eq_false, not_false_eq_true, if_true, if_false]
      simp only [gbind_ok]
      exact aux _ (by simp [sourceOf, hq, hh]) (by simp [hb, hh])
    · rw [not_not] at hh
      by_cases hp : p.path = true
      · simp only [hq, hh, hp, ne_eq, not_true_eq_false, if_true, if_false]
        simp only [gbind_ok]
        exact aux _ (by simp [sourceOf, hq, hh]) (by simp [hb, hp])
      · have hbt : BodyInput p = true := by simp [hb, hq, hh, hp]
        simp only [hq, hh, hp, ne_eq, not_true_eq_false, if_false, hbt, if_true, Bool.true_eq_false, false_implies, true_and, Bool.false_eq_true, Out.ok.injEq]
        exact eq_comm

theorem goSteps_ok_iff (l : List HttpParamSpec) (r : List GoStep × List GoNote) :
    goSteps m conf lib l = .ok r ↔ (∀ p ∈ l, BodyInput p = false → OfKind s p.field.ts.type GoParamKinds) ∧
      r = (l.map (stepOf m conf lib), l.flatMap (stepNotes m conf)) := by
  induction l generalizing r with
  | nil =>
    constructor
    · intro h; injection h with h; exact ⟨by simp, h.symm⟩
    · rintro ⟨_, rfl⟩; rfl
  | cons f l ih =>
    unfold goSteps
    simp only [gbind_ok, goStep_ok_iff hm hne, ih]
    constructor
    · rintro ⟨_, ⟨h1, rfl⟩, _, ⟨h2, rfl⟩, h4⟩
      injection h4 with h4
      subst h4
      refine ⟨?_, rfl⟩
      intro g hg
      rcases List.mem_cons.1 hg with rfl | hg
      · exact h1
      · exact h2 g hg
    · rintro ⟨h, rfl⟩
      exact ⟨_, ⟨h f (by simp), rfl⟩, _, ⟨fun g hg => h g (by simp [hg]), rfl⟩, rfl⟩

theorem goCases_ok_iff (l : List HttpExceptionSpec) (r : List (GoTy × Int) × List GoNote) :
    goCases m conf l = .ok r ↔ (∀ x ∈ l, x.type ≠ "Array" ∧ x.type ≠ "Map") ∧
      r = (l.map (fun x => ((nativeOf m conf x.type).1, x.status)), l.flatMap fun x => (nativeOf m conf x.type).2) := by
  induction l generalizing r with
  | nil =>
    constructor
    · intro h; injection h with h; exact ⟨by simp, h.symm⟩
    · rintro ⟨_, rfl⟩; rfl
  | cons f l ih =>
    unfold goCases
    simp only [gbind_ok, goNativeType_ok_iff hm hne, ih]
    constructor
    · rintro ⟨_, ⟨h1, rfl⟩, _, ⟨h2, rfl⟩, h4⟩
      injection h4 with h4
      subst h4
      refine ⟨?_, rfl⟩
      intro g hg
      rcases List.mem_cons.1 hg with rfl | hg
      · exact h1
      · exact h2 g hg
    · rintro ⟨h, rfl⟩
      exact ⟨_, ⟨h f (by simp), rfl⟩, _, ⟨fun g hg => h g (by simp [hg]), rfl⟩, rfl⟩

omit hm hne

theorem goHeaders_eq (l : List HttpParamSpec) :
    goHeaders l = (l.filter fun p => p.header ≠ "").map fun p => (p.header, capitalize p.field.name) := by
  induction l with
  | nil => rfl
  | cons f l ih =>
    unfold goHeaders
    by_cases hf : f.header = "" <;> simp [hf, ih]

theorem goEntity_eq (l : List HttpParamSpec) : goEntity l = (l.find? BodyOutput).map fun p => capitalize p.field.name := by
  induction l with
  | nil => rfl
  | cons f l ih =>
    unfold goEntity
    by_cases hf : f.header = ""
    · simp [hf, BodyOutput]
    · simp only [hf, if_false]
      rw [ih, List.find?_cons_of_neg (by simp [BodyOutput, hf])]

include hm hne

theorem goHandler_ok_iff (hd : HttpDef) (r : GoHandler × List GoNote) :
    goHandler m conf lib hd = .ok r ↔ GoServable s hd ∧ r = (handlerOf m conf lib hd, handlerNotes m conf hd) := by
  unfold goHandler handlerOf handlerNotes
  simp only [gbind_ok, goCapitalize_ok, goSteps_ok_iff hm hne]
  cases he : hd.expected with
  | none =>
    constructor
    · rintro ⟨_, _, _, _, h⟩; cases h
    · rintro ⟨h, _⟩
      obtain ⟨e, h1⟩ := h.expected
      rw [he] at h1; cases h1
  | some e =>
    simp only [gbind_ok, goCases_ok_iff hm hne, goHeaders_eq, goEntity_eq]
    constructor
    · rintro ⟨_, ⟨h1, rfl⟩, _, ⟨h2, rfl⟩, _, ⟨h3, rfl⟩, h6⟩
      injection h6 with h6; subst h6
      exact ⟨⟨h1, h2, ⟨e, he⟩, h3⟩, rfl⟩
    · rintro ⟨h, rfl⟩
      exact ⟨_, ⟨h.name, rfl⟩, _, ⟨h.inputs, rfl⟩, _, ⟨h.exceptions, rfl⟩, rfl⟩

theorem goHandlers_ok_iff (l : List HttpDef) (r : List GoHandler × List GoNote) :
    goHandlers m conf lib l = .ok r ↔ (∀ hd ∈ l, GoServable s hd) ∧ r = (l.map (handlerOf m conf lib), l.flatMap (handlerNotes m conf)) := by
  induction l generalizing r with
  | nil =>
    constructor
    · intro h; injection h with h; exact ⟨by simp, h.symm⟩
    · rintro ⟨_, rfl⟩; rfl
  | cons f l ih =>
    unfold goHandlers
    simp only [gbind_ok, goHandler_ok_iff hm hne, ih]
    constructor
    · rintro ⟨_, ⟨h1, rfl⟩, _, ⟨h2, rfl⟩, h4⟩
      injection h4 with h4
      subst h4
      refine ⟨?_, rfl⟩
      intro g hg
      rcases List.mem_cons.1 hg with rfl | hg
      · exact h1
      · exact h2 g hg
    · rintro ⟨h, rfl⟩
      exact ⟨_, ⟨h f (by simp), rfl⟩, _, ⟨fun g hg => h g (by simp [hg]), rfl⟩, rfl⟩
end

theorem goTemplate_ok {α : Type} (x : Out α) (r : α) : goTemplate x = .ok r ↔ x = .ok r := by
  cases x <;> simp [goTemplate]

theorem goTemplate_noPanic {α : Type} (x : Out α) (e : String) : goTemplate x ≠ .panic e := by
  cases x <;> simp [goTemplate]

theorem goServer_ok_iff {m : Model} (hm : newModel m.schema = .ok m) (hne : ∀ td ∈ m.schema.types, td.name ≠ "") (conf : GoConf) (lib : GoLib)
    (sv : GoServer) : goServer m conf lib = .ok sv ↔ (∀ hd ∈ m.schema.http, GoServable m.schema hd) ∧ sv = serverOf m conf lib := by
  unfold goServer
  simp only [goTemplate_ok, gbind_ok, goHandlers_ok_iff hm hne]
  constructor
  · rintro ⟨_, ⟨h2, rfl⟩, h3⟩
    injection h3 with h3
    exact ⟨h2, h3.symm⟩
  · rintro ⟨h2, rfl⟩
    exact ⟨_, ⟨h2, rfl⟩, rfl⟩

end Sadl
