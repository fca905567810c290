import Verif.Lemmas.GoServer
import Verif.Lemmas.Http
import Mathlib.Data.List.Nodup
/-
When a generated Go server respects the rules of Go.
-/
namespace Sadl
open Sadl.Spec

/-! ### Variables -/

/-- Only the set of the variables matters. -/
theorem scoped_congr (l : List GoUse) : ∀ {v w : List String}, (∀ x, x ∈ v ↔ x ∈ w) → (GoScoped v l ↔ GoScoped w l) := by
  induction l with
  | nil => intro v w _; exact Iff.rfl
  | cons a l ih =>
    intro v w h
    cases a with
    | declare xs =>
      simp only [GoScoped, h]
      refine and_congr_right fun _ => ih fun x => ?_
      simp only [List.mem_append, h]
    | use x => simp only [GoScoped, h]; exact and_congr_right fun _ => ih h

/-- The variables that are there when the steps begin. -/
structure HasBase (vars : List String) : Prop where
  handler : "handler" ∈ vars
  w : "w" ∈ vars
  r : "r" ∈ vars
  req : "req" ∈ vars

theorem HasBase.cons {vars : List String} (h : HasBase vars) (x : String) : HasBase (x :: vars) :=
  ⟨by simp [h.handler], by simp [h.w], by simp [h.r], by simp [h.req]⟩

/-- Some step decodes the body. -/
def Decodes (steps : List GoStep) : Prop := ∃ f, .decode f ∈ steps

theorem scoped_assign {vars : List String} (hb : HasBase vars) (f : String) (e : GoExpr) (rest : List GoUse) :
    GoScoped vars (StepUses (.assign f e) ++ rest) ↔ GoScoped vars rest := by
  simp [StepUses, GoScoped, hb.req, hb.r]

theorem scoped_decode {vars : List String} (hb : HasBase vars) (f : String) (rest : List GoUse) :
    GoScoped vars (StepUses (.decode f) ++ rest) ↔ "err" ∉ vars ∧ GoScoped ("err" :: vars) rest := by
  simp [StepUses, GoScoped, hb.req, hb.r, hb.w]

theorem scoped_steps_err {vars : List String} (hb : HasBase vars) (he : "err" ∈ vars) (steps : List GoStep) (rest : List GoUse) :
    GoScoped vars (steps.flatMap StepUses ++ rest) ↔ ¬ Decodes steps ∧ GoScoped vars rest := by
  induction steps with
  | nil => simp [Decodes]
  | cons a l ih =>
    rw [List.flatMap_cons, List.append_assoc]
    cases a with
    | assign f e =>
      rw [scoped_assign hb, ih]
      simp [Decodes]
    | decode f =>
      rw [scoped_decode hb]
      simp [Decodes, he]

theorem scoped_steps {vars : List String} (hb : HasBase vars) (he : "err" ∉ vars) (steps : List GoStep) (rest : List GoUse) :
    GoScoped vars (steps.flatMap StepUses ++ rest) ↔
      (¬ Decodes steps ∧ GoScoped vars rest) ∨
      (∃ a f b, steps = a ++ .decode f :: b ∧ ¬ Decodes a ∧ ¬ Decodes b ∧ GoScoped ("err" :: vars) rest) := by
  induction steps with
  | nil => simp [Decodes]
  | cons a l ih =>
    rw [List.flatMap_cons, List.append_assoc]
    cases a with
    | assign f e =>
      rw [scoped_assign hb, ih]
      constructor
      · rintro (⟨h1, h2⟩ | ⟨a, g, b, rfl, h1, h2, h3⟩)
        · exact .inl ⟨by simpa [Decodes] using h1, h2⟩
        · exact .inr ⟨.assign f e :: a, g, b, rfl, by simpa [Decodes] using h1, h2, h3⟩
      · rintro (⟨h1, h2⟩ | ⟨a, g, b, h, h1, h2, h3⟩)
        · exact .inl ⟨by simpa [Decodes] using h1, h2⟩
        · cases a with
          | nil => cases h
          | cons x a =>
            injection h with h4 h5
            subst h4
            exact .inr ⟨a, g, b, h5, by simpa [Decodes] using h1, h2, h3⟩
    | decode f =>
      rw [scoped_decode hb, scoped_steps_err (hb.cons _) (by simp)]
      constructor
      · rintro ⟨_, h1, h2⟩
        exact .inr ⟨[], f, l, rfl, by simp [Decodes], h1, h2⟩
      · rintro (⟨h1, h2⟩ | ⟨a, g, b, h, h1, h2, h3⟩)
        · exact absurd ⟨f, by simp⟩ h1
        · cases a with
          | nil => injection h with h4 h5; subst h5; exact ⟨he, h2, h3⟩
          | cons x a => injection h with h4 h5; subst h4; exact absurd ⟨f, by simp⟩ h1

theorem scoped_headers {vars : List String} (hw : "w" ∈ vars) (hs : List (String × String)) (rest : List GoUse) :
    GoScoped vars (hs.flatMap (fun _ => [GoUse.use "w", .use "res"]) ++ rest) ↔ (hs ≠ [] → "res" ∈ vars) ∧ GoScoped vars rest := by
  induction hs with
  | nil => simp
  | cons a l ih =>
    rw [List.flatMap_cons, List.append_assoc]
    simp only [List.cons_append, List.nil_append, GoScoped, hw, true_and, ih, ne_eq, reduceCtorEq, not_false_eq_true, true_implies]
    constructor
    · rintro ⟨h1, _, h2⟩; exact ⟨h1, h2⟩
    · rintro ⟨h1, h2⟩; exact ⟨h1, fun _ => h1, h2⟩

/-- The end of a handler. -/
def endUses (h : GoHandler) : List GoUse :=
  [.use "handler", .use "req", .declare [h.result, "err"], .use "err", .use "w"] ++
  h.headers.flatMap (fun _ => [.use "w", .use "res"]) ++ (if h.entity.isSome then [.use "res"] else [])

theorem scoped_end {vars : List String} (hb : HasBase vars) (hres : "res" ∉ vars) (h : GoHandler) (hr : h.result = "_" ∨ h.result = "res") :
    GoScoped vars (endUses h) ↔ h.result = "res" ∨ ("err" ∉ vars ∧ h.headers = [] ∧ h.entity = none) := by
  unfold endUses
  rw [List.append_assoc]
  simp only [List.cons_append, List.nil_append, GoScoped, hb.handler, hb.req, true_and]
  rcases hr with hr | hr
  · simp only [hr, List.mem_cons, List.not_mem_nil, or_false, exists_eq_or_imp, ne_eq, not_true_eq_false, false_and, false_or,
      exists_eq_left, reduceCtorEq]
    have hf : List.filter (fun x => decide (x ≠ "_")) ["_", "err"] ++ vars = "err" :: vars := by simp
    rw [hf, scoped_headers (by simp [hb.w])]
    have hn : "res" ∉ "err" :: vars := by simp [hres]
    have h1 : "_" ≠ "res" := by decide
    cases hE : h.entity <;> simp [GoScoped, hb.w, h1, hres] 
  · simp only [hr, List.mem_cons, List.not_mem_nil, or_false, exists_eq_or_imp, ne_eq]
    have hf : List.filter (fun x => decide (x ≠ "_")) ["res", "err"] ++ vars = "res" :: "err" :: vars := by simp
    rw [hf, scoped_headers (by simp [hb.w])]
    cases hE : h.entity <;> simp [GoScoped, hb.w, hres]

theorem handlerUses_eq (h : GoHandler) : HandlerUses h = .declare ["req"] ::
    ((if h.form then [.use "r", .declare ["err"], .use "err", .use "w"] else []) ++ (h.steps.flatMap StepUses ++ endUses h)) := by
  simp [HandlerUses, endUses, List.append_assoc]

/-- The variables of a handler are declared and used as they have to be. -/
theorem handler_scopes (h : GoHandler) (hr : h.result = "_" ∨ h.result = "res") :
    GoScoped ["handler", "w", "r"] (HandlerUses h) ↔
      (h.form = true → ¬ Decodes h.steps) ∧
      (¬ Decodes h.steps ∨ ∃ a f b, h.steps = a ++ .decode f :: b ∧ ¬ Decodes a ∧ ¬ Decodes b) ∧
      (h.result = "_" → h.form = false ∧ ¬ Decodes h.steps ∧ h.headers = [] ∧ h.entity = none) := by
  have hb : HasBase ["req", "handler", "w", "r"] := ⟨by decide, by decide, by decide, by decide⟩
  rw [handlerUses_eq]
  simp only [GoScoped]
  have h0 : (∃ x ∈ ["req"], x ≠ "_" ∧ x ∉ ["handler", "w", "r"]) := ⟨"req", by simp, by decide, by decide⟩
  have hf : List.filter (fun x => decide (x ≠ "_")) ["req"] ++ ["handler", "w", "r"] = ["req", "handler", "w", "r"] := by decide
  rw [hf]
  simp only [h0, true_and]
  have h1 : ("_" : String) ≠ "res" := by decide
  cases hform : h.form with
  | true =>
    simp only [if_true, List.cons_append, List.nil_append, GoScoped]
    have hf2 : List.filter (fun x => decide (x ≠ "_")) ["err"] ++ ["req", "handler", "w", "r"] = ["err", "req", "handler", "w", "r"] := by decide
    rw [hf2, scoped_steps_err (hb.cons _) (by simp), scoped_end (hb.cons _) (by decide) h hr]
    have h2 : "r" ∈ ["req", "handler", "w", "r"] := by decide
    have h3 : (∃ x ∈ ["err"], x ≠ "_" ∧ x ∉ ["req", "handler", "w", "r"]) := ⟨"err", by simp, by decide, by decide⟩
    have h4 : "err" ∈ ["err", "req", "handler", "w", "r"] := by decide
    have h5 : "w" ∈ ["err", "req", "handler", "w", "r"] := by decide
    simp only [h2, h3, h4, h5, true_and, not_true_eq_false, false_and, or_false, true_implies, Bool.true_eq_false]
    constructor
    · rintro ⟨h6, h7⟩
      exact ⟨h6, .inl h6, fun h8 => absurd (h8.symm.trans h7) h1⟩
    · rintro ⟨h6, _, h7⟩
      exact ⟨h6, hr.resolve_left h7⟩
  | false =>
    simp only [Bool.false_eq_true, if_false, List.nil_append, false_implies, true_and]
    rw [scoped_steps hb (by decide), scoped_end hb (by decide) h hr, scoped_end (hb.cons _) (by decide) h hr]
    have h4 : "err" ∉ ["req", "handler", "w", "r"] := by decide
    have h5 : "err" ∈ ["err", "req", "handler", "w", "r"] := by decide
    simp only [h4, h5, not_false_eq_true, true_and, not_true_eq_false, false_and, or_false]
    constructor
    · rintro (⟨h6, h7⟩ | ⟨a, f, b, h6, h7, h8, h9⟩)
      · exact ⟨.inl h6, fun h8 => ⟨h6, (h7.resolve_left fun h9 => h1 (h8.symm.trans h9)).1, (h7.resolve_left fun h9 => h1 (h8.symm.trans h9)).2⟩⟩
      · exact ⟨.inr ⟨a, f, b, h6, h7, h8⟩, fun h10 => absurd (h10.symm.trans h9) h1⟩
    · rintro ⟨h6 | ⟨a, f, b, h6, h7, h8⟩, h9⟩
      · rcases hr with hr | hr
        · exact .inl ⟨h6, .inr ⟨(h9 hr).2.1, (h9 hr).2.2⟩⟩
        · exact .inl ⟨h6, .inl hr⟩
      · refine .inr ⟨a, f, b, h6, h7, h8, hr.resolve_left fun h10 => (h9 h10).1 ⟨f, by simp [h6]⟩⟩

theorem handler_used (h : GoHandler) (hr : h.result = "_" ∨ h.result = "res") :
    GoAllUsed (HandlerUses h) ↔ (h.result = "res" → h.headers ≠ [] ∨ h.entity ≠ none) := by
  have hreq : GoUse.use "req" ∈ HandlerUses h := by simp [HandlerUses]
  have herr : GoUse.use "err" ∈ HandlerUses h := by simp [HandlerUses]
  have hres : GoUse.use "res" ∈ HandlerUses h ↔ h.headers ≠ [] ∨ h.entity ≠ none := by
    unfold HandlerUses
    have hs : GoUse.use "res" ∉ h.steps.flatMap StepUses := by
      rw [List.mem_flatMap]
      rintro ⟨a, _, h1⟩
      cases a <;> simp [StepUses] at h1
    simp only [List.mem_append, hs, or_false]
    constructor
    · rintro ((((h1 | h1) | h1) | h1) | h1)
      · simp at h1
      · split at h1 <;> simp at h1
      · simp at h1
      · obtain ⟨a, h2, _⟩ := List.mem_flatMap.1 h1
        exact .inl (by rintro h3; rw [h3] at h2; cases h2)
      · split at h1
        · next h2 => exact .inr (by rw [← Option.isSome_iff_ne_none]; exact h2)
        · cases h1
    · rintro (h1 | h1)
      · obtain ⟨a, h2⟩ := List.exists_mem_of_ne_nil _ h1
        exact .inl (.inr (List.mem_flatMap.2 ⟨a, h2, by simp⟩))
      · rw [← Option.isSome_iff_ne_none] at h1
        exact .inr (by simp [h1])
  unfold GoAllUsed
  constructor
  · intro h1 h2
    rw [← hres]
    exact h1 [h.result, "err"] (by simp [HandlerUses]) "res" (by simp [h2]) (by decide)
  · intro h1 xs hx x hxx hne
    have : x = "req" ∨ x = "err" ∨ x = h.result := by
      unfold HandlerUses at hx
      simp only [List.mem_append] at hx
      rcases hx with ((((h2 | h2) | h2) | h2) | h2) | h2
      · simp at h2; subst h2; simp at hxx; exact .inl hxx
      · split at h2
        · simp at h2; subst h2; simp at hxx; exact .inr (.inl hxx)
        · cases h2
      · obtain ⟨a, _, h3⟩ := List.mem_flatMap.1 h2
        cases a <;> simp [StepUses] at h3
        subst h3; simp at hxx; exact .inr (.inl hxx)
      · simp at h2; subst h2; simp at hxx; tauto
      · obtain ⟨a, _, h3⟩ := List.mem_flatMap.1 h2
        simp at h3
      · split at h2 <;> simp at h2
    rcases this with rfl | rfl | rfl
    · exact hreq
    · exact herr
    · rcases hr with hr | hr
      · exact absurd hr hne
      · rw [hr]; exact hres.2 (h1 hr)

/-! ### Names -/

theorem lower_alpha {c : Char} (h : c.isAlpha = true) : (c.toLower).isAlpha = true := by
  unfold Char.isAlpha Char.isLower
  unfold Char.toLower
  split
  · next h1 =>
    simp only [ge_iff_le, UInt32.le_iff_toNat_le] at h1
    have h2 : 65 ≤ c.toNat ∧ c.toNat ≤ 90 := h1
    simp only [ge_iff_le, UInt32.le_iff_toNat_le]
    simp [UInt32.toNat_add]
    right
    constructor <;> omega
  · exact h

theorem adaptor_ident {n : String} (h : GoIdent n) : GoIdent (uncapitalize n ++ "Adaptor") := by
  obtain ⟨_, c, r, h1, h2, h3⟩ := h
  refine ⟨fun h4 => ?_, ?_⟩
  · have hk : ∀ k ∈ GoKeywords, k.toList.reverse.take "Adaptor".toList.length ≠ "Adaptor".toList.reverse := by decide
    exact suffix_ne (uncapitalize n) "Adaptor" (hk _ h4) rfl
  · refine ⟨(if c.toNat < 128 then c.toLower else c), r ++ "Adaptor".toList, ?_, ?_, ?_⟩
    · rw [String.toList_append, uncapitalize, String.toList_ofList, h1]; rfl
    · rcases h2 with h2 | rfl
      · left; split
        · exact lower_alpha h2
        · exact h2
      · right; decide
    · intro d hd
      rcases List.mem_append.1 hd with hd | hd
      · exact h3 d hd
      · have : ∀ d ∈ "Adaptor".toList, d.isAlphanum = true ∨ d = '_' := by decide
        exact this d hd

theorem adaptor_not {l : List String} (n : String)
    (h : ∀ b ∈ l, b.toList.reverse.take "Adaptor".toList.length ≠ "Adaptor".toList.reverse) : uncapitalize n ++ "Adaptor" ∉ l :=
  fun hm => suffix_ne (uncapitalize n) "Adaptor" (h _ hm) rfl

theorem mem_imports_from (notes : List GoNote) (p : String) (l : List String) : p ∈ notes.foldl addImport l ↔ p ∈ l ∨ .pack p ∈ notes := by
  induction notes generalizing l with
  | nil => simp
  | cons n notes ih =>
    rw [List.foldl_cons, ih]
    cases n with
    | pack q =>
      simp only [addImport, mem_adjoin, List.mem_cons, GoNote.pack.injEq]
      tauto
    | decimal => simp [addImport]
    | timestamp => simp [addImport]

theorem nativeOf_packs {m : Model} {conf : GoConf} (h : conf.runtime = false) (n p : String) : .pack p ∉ (nativeOf m conf n).2 := by
  unfold nativeOf
  split
  · unfold leafTy goRuntimeType
    simp only [h]
    split <;> try simp
    split <;> try simp
    split <;> try simp
    split <;> simp
  · simp

theorem server_imports {m : Model} {conf : GoConf} (lib : GoLib) (h : conf.runtime = false) :
    ∀ p, p ∈ (serverOf m conf lib).imports ↔ p ∈ GoServerPaths := by
  intro p
  unfold serverOf
  simp only
  rw [mem_imports_from]
  have : .pack p ∉ m.schema.http.flatMap (handlerNotes m conf) := by
    rw [List.mem_flatMap]
    rintro ⟨hd, _, h1⟩
    unfold handlerNotes at h1
    rcases List.mem_append.1 h1 with h1 | h1
    · obtain ⟨q, _, h2⟩ := List.mem_flatMap.1 h1
      unfold stepNotes at h2
      split at h2
      · cases h2
      · exact nativeOf_packs h _ _ h2
    · obtain ⟨q, _, h2⟩ := List.mem_flatMap.1 h1
      exact nativeOf_packs h _ _ h2
  simp only [this, or_false]
  rfl

/-- The names of a server and its types. -/
theorem server_names {m : Model} {conf : GoConf} (hr : GoReady m.schema)
    (honce : ((fileOf m conf).decls.flatMap DeclaredNames).Nodup) (a : String) (ha : a = uncapitalize conf.name ++ "Adaptor") :
    (((fileOf m conf).decls.flatMap DeclaredNames ++ a :: GoServerNames).Nodup ∧
      (∀ n ∈ (fileOf m conf).decls.flatMap DeclaredNames ++ a :: GoServerNames, n ∉ GoServerPackages) ∧
      (∀ n ∈ (fileOf m conf).decls.flatMap DeclaredNames ++ a :: GoServerNames, n ∉ GoServerPredeclared)) ↔
    ∀ n ∈ GoNames conf.name m.schema, n ∉ GoServerNames ∧ n ∉ GoServerPackages ∧ n ∉ GoServerPredeclared ∧ n ≠ a := by
  have hclose : ∀ n ∈ (goClosing (notesOf m conf)).1.flatMap DeclaredNames, n ∈
      ["Timestamp", "RFC3339Milli", "TimestampFromString", "ParseTimestamp", "DecimalPrecision", "Decimal", "DecimalFromString", "ParseDecimal", "NewDecimal"] := by
    intro n hn
    rw [closing_names] at hn
    rcases List.mem_append.1 hn with hn | hn
    · split at hn
      · exact List.mem_append_left ["DecimalPrecision", "Decimal", "DecimalFromString", "ParseDecimal", "NewDecimal"] hn
      · cases hn
    · split at hn
      · exact List.mem_append_right ["Timestamp", "RFC3339Milli", "TimestampFromString", "ParseTimestamp"] hn
      · cases hn
  have hsv : (a :: GoServerNames).Nodup := by
    rw [List.nodup_cons]
    exact ⟨ha ▸ adaptor_not _ (by decide), by decide⟩
  constructor
  · rintro ⟨h1, h2, h3⟩ n hn
    have hn' : n ∈ (fileOf m conf).decls.flatMap DeclaredNames := by rw [names_file hr]; exact List.mem_append_left _ hn
    obtain ⟨_, _, h4⟩ := List.nodup_append.1 h1
    refine ⟨fun h => h4 n hn' n (List.mem_cons_of_mem _ h) rfl, h2 n (List.mem_append_left _ hn'), h3 n (List.mem_append_left _ hn'), ?_⟩
    rintro rfl
    exact h4 n hn' n (List.mem_cons_self) rfl
  · intro h
    have key : ∀ n ∈ (fileOf m conf).decls.flatMap DeclaredNames, n ∉ a :: GoServerNames ∧ n ∉ GoServerPackages ∧ n ∉ GoServerPredeclared := by
      intro n hn
      rw [names_file hr] at hn
      rcases List.mem_append.1 hn with hn | hn
      · obtain ⟨k1, k2, k3, k4⟩ := h n hn
        exact ⟨by simp only [List.mem_cons, not_or]; exact ⟨k4, k1⟩, k2, k3⟩
      · have hc := hclose n hn
        have h1 : ∀ n ∈ ["Timestamp", "RFC3339Milli", "TimestampFromString", "ParseTimestamp", "DecimalPrecision", "Decimal", "DecimalFromString", "ParseDecimal", "NewDecimal"],
            n ∉ GoServerNames ∧ n ∉ GoServerPackages ∧ n ∉ GoServerPredeclared := by decide
        obtain ⟨k1, k2, k3⟩ := h1 n hc
        refine ⟨?_, k2, k3⟩
        rw [List.mem_cons, not_or]
        refine ⟨?_, k1⟩
        rintro rfl
        exact adaptor_not (l := ["Timestamp", "RFC3339Milli", "TimestampFromString", "ParseTimestamp", "DecimalPrecision", "Decimal", "DecimalFromString", "ParseDecimal", "NewDecimal"])
          conf.name (by decide) (ha ▸ hc)
    have own : ∀ n ∈ a :: GoServerNames, n ∉ GoServerPackages ∧ n ∉ GoServerPredeclared := by
      intro n hn
      rcases List.mem_cons.1 hn with rfl | hn
      · subst ha; exact ⟨adaptor_not _ (by decide), adaptor_not _ (by decide)⟩
      · have : ∀ n ∈ GoServerNames, n ∉ GoServerPackages ∧ n ∉ GoServerPredeclared := by decide
        exact this n hn
    refine ⟨List.nodup_append.2 ⟨honce, hsv, ?_⟩, ?_, ?_⟩
    · rintro x hx y hy rfl
      exact (key x hx).1 hy
    · intro n hn
      rcases List.mem_append.1 hn with hn | hn
      · exact (key n hn).2.1
      · exact (own n hn).1
    · intro n hn
      rcases List.mem_append.1 hn with hn | hn
      · exact (key n hn).2.2
      · exact (own n hn).2

/-! ### Types -/

theorem goCoerce_ident {n : String} (h : GoIdent n) : goCoerce n = n := by
  obtain ⟨_, c, r, h1, h2, _⟩ := h
  unfold goCoerce
  rw [h1]
  split
  · next k =>
    injection k with k1 k2
    subst k1
    rcases h2 with h2 | h2 <;> exact absurd h2 (by decide)
  · rfl

section
variable {m : Model} (hm : newModel m.schema = .ok m) {conf : GoConf} (hr : GoReady m.schema)
include hm hr

/-- The kinds of the types of parameters. -/
theorem param_kind (hsound : GoSound conf.name conf.runtime m.schema) {n : String} (hk : OfKind m.schema n GoParamKinds) (hment : Mentions m.schema n) :
    n = "String" ∨ n = "Timestamp" ∨ n ∈ ["Int8", "Int16", "Int32", "Int64"] ∨
      ∃ td ∈ m.schema.types, td.name = n ∧ (td.ts.type = "String" ∨ td.ts.type = "UUID") := by
  obtain ⟨ts, ⟨td, h1, h2, h3⟩ | ⟨h1, h2⟩, hk⟩ := hk
  · refine .inr (.inr (.inr ⟨td, h1, h2, ?_⟩))
    subst h3
    have k1 := (hr.1 td h1).kind
    have k2 := hsound.numbers td h1
    simp only [GoParamKinds, List.mem_cons, List.not_mem_nil, or_false] at hk
    rcases hk with hk | hk | hk | hk | hk | hk | hk <;> rw [hk] at k1 k2
    · exact .inl hk
    · exact .inr hk
    · exact absurd k1 (by decide)
    all_goals exact absurd (by decide) k2
  · subst h2
    simp only [GoParamKinds, List.mem_cons, List.not_mem_nil, or_false] at hk
    rcases hk with rfl | rfl | rfl | rfl | rfl | rfl | rfl
    · exact .inl rfl
    · exact absurd hment (hsound.resolved "UUID" (by decide))
    · exact .inr (.inl rfl)
    all_goals exact .inr (.inr (.inl (by decide)))

theorem user_leaf {td : TypeDef} (h : td ∈ m.schema.types) :
    (nativeOf m conf td.name).1 = if td.ts.type = "Struct" then .ptr (.ident td.name) else .ident td.name := by
  have hf : m.findType td.name = some td := (newModel_findType_iff hm _ _).2 (.inl ⟨h, rfl⟩)
  have hb : td.name ∉ BaseTypes := ((newModel_ok_iff _ _).1 hm).2.1 td h
  have nb : ∀ b ∈ BaseTypes, td.name ≠ b := fun b hb' e => hb (e ▸ hb')
  unfold nativeOf leafTy
  rw [hf]
  simp only [Option.isSome_some, if_true]
  rw [if_neg (fun h => hb (prims_base h)), if_neg (nb _ (by decide)), if_neg (nb _ (by decide)), if_neg (nb _ (by decide))]
  simp

theorem native_tyOf {ts : TypeSpec} (hk : Known m.schema ts.type) (ha : ts.type ≠ "Array") (hp : ts.type ≠ "Map") :
    (tyOf m conf ts ts.type).1 = (nativeOf m conf ts.type).1 := by
  unfold tyOf nativeOf
  rw [if_neg ha, if_neg hp]
  have : (m.findType ts.type).isSome = true := by
    cases h : m.findType ts.type with
    | none => exact absurd hk ((goFind_none_iff hm _).1 h)
    | some _ => rfl
  rw [this]; rfl

theorem goTimeDefault_none (lib : GoLib) (v : Value) : goTimeDefault lib v = none ↔ v ≠ .tsPtr ∧ ∀ t, v = .str t → parseTimestamp t.toList = none := by
  unfold goTimeDefault
  cases v <;> simp

/-- The expression for a parameter has the type of its field. -/
theorem expr_typed (lib : GoLib) (hrt : conf.runtime = false) (hsound : GoSound conf.name conf.runtime m.schema) {p : HttpParamSpec}
    (hk : OfKind m.schema p.field.ts.type GoParamKinds) (hment : Mentions m.schema p.field.ts.type) :
    GoExprType (fileOf m conf) (exprOf m conf lib p) (tyOf m conf p.field.ts p.field.ts.type).1 ↔ p.field.ts.type ∉ GoLocals ∧
      (p.field.ts.type = "Timestamp" → p.field.default ≠ .tsPtr ∧ ∀ t, p.field.default = .str t → parseTimestamp t.toList = none) := by
  have base : ∀ b ∈ BaseTypes, goBaseType m b = b := by
    intro b hb
    unfold goBaseType
    rw [findType_base hm hb]
    rfl
  have nat : ∀ b ∈ BaseTypes, nativeOf m conf b = leafTy m conf b := by
    intro b hb
    unfold nativeOf
    rw [findType_base hm hb]
    rfl
  rw [← goTimeDefault_none hm hr lib]
  rcases param_kind hm hr hsound hk hment with h | h | h | ⟨td, h1, h2, h3⟩
  · have e1 : exprOf m conf lib p = .conv "string" (.str (sourceOf p) (goStringDefault lib p.field.default)) := by
      unfold exprOf
      simp only [h, base "String" (by decide), nat "String" (by decide), true_or, if_true]
      have hl0 : (leafTy m conf "String").1 = .ident "string" := rfl
      have hl : goCoerce (leafTy m conf "String").1.text = "string" := by
        rw [hl0]; change goCoerce "string" = "string"; decide +kernel
      rw [hl, if_pos (by decide)]
    have e2 : (tyOf m conf p.field.ts p.field.ts.type).1 = .ident "string" := by rw [h]; rfl
    rw [e1, e2, h]
    exact ⟨fun _ => ⟨by decide, fun h => absurd h (by decide)⟩, fun _ => .text .str (.inl (by decide)) (by decide)⟩
  · have e1 : exprOf m conf lib p = .time (sourceOf p) (goTimeDefault lib p.field.default) := by
      unfold exprOf
      simp only [h, base "Timestamp" (by decide)]
      rfl
    have e2 : (tyOf m conf p.field.ts p.field.ts.type).1 = .ptr (.ident "Timestamp") := by
      rw [h]; simp [tyOf, leafTy, goPrimitives, goRuntimeType, hrt]
    rw [e1, e2, h]
    constructor
    · intro ht
      generalize hd : goTimeDefault lib p.field.default = d at ht
      cases ht
      exact ⟨by decide, fun _ => rfl⟩
    · rintro ⟨_, h4⟩
      rw [h4 rfl]
      exact .time
  · have ints : ∀ b t, b ∈ BaseTypes → (leafTy m conf b).1 = .ident t → goCoerce t = t → t ≠ b → b ≠ "String" → b ≠ "UUID" → b ≠ "Timestamp" →
        t ∉ GoLocals → b ∉ GoLocals → t ∈ ["int8", "int16", "int32", "int64"] → b ≠ "Array" → b ≠ "Map" → p.field.ts.type = b →
        (GoExprType (fileOf m conf) (exprOf m conf lib p) (tyOf m conf p.field.ts p.field.ts.type).1 ↔ p.field.ts.type ∉ GoLocals ∧
          (p.field.ts.type = "Timestamp" → goTimeDefault lib p.field.default = none)) := by
      intro b t k1 k2 k3 k4 k5 k6 k7 k8 k9 k10 k11 k12 k13
      have e1 : exprOf m conf lib p = .conv t (.int (sourceOf p) (goIntDefault p.field.default)) := by
        unfold exprOf
        simp only [k13, base b k1, nat b k1, k2, GoTy.text, k3, k5, k6, k7, or_self, if_false, ne_eq, k4, not_false_eq_true, if_true]
      have e2 : (tyOf m conf p.field.ts p.field.ts.type).1 = .ident t := by
        rw [k13]
        unfold tyOf
        rw [if_neg k11, if_neg k12, k2]
      rw [e1, e2, k13]
      exact ⟨fun _ => ⟨k9, fun h => absurd h k7⟩, fun _ => .number .int (.inl k10) k8⟩
    simp only [List.mem_cons, List.not_mem_nil, or_false] at h
    rcases h with h | h | h | h
    · exact ints "Int8" "int8" (by decide) rfl rfl (by decide) (by decide) (by decide) (by decide) (by decide) (by decide) (by decide) (by decide) (by decide) h
    · exact ints "Int16" "int16" (by decide) rfl rfl (by decide) (by decide) (by decide) (by decide) (by decide) (by decide) (by decide) (by decide) (by decide) h
    · exact ints "Int32" "int32" (by decide) rfl rfl (by decide) (by decide) (by decide) (by decide) (by decide) (by decide) (by decide) (by decide) (by decide) h
    · exact ints "Int64" "int64" (by decide) rfl rfl (by decide) (by decide) (by decide) (by decide) (by decide) (by decide) (by decide) (by decide) (by decide) h
  · have hb : td.name ∉ BaseTypes := ((newModel_ok_iff _ _).1 hm).2.1 td h1
    have nb : ∀ b ∈ BaseTypes, p.field.ts.type ≠ b := fun b hb' e => hb (h2 ▸ e ▸ hb')
    have hns : td.ts.type ≠ "Struct" := by rcases h3 with h3 | h3 <;> rw [h3] <;> decide
    have hf : m.findType td.name = some td := (newModel_findType_iff hm _ _).2 (.inl ⟨h1, rfl⟩)
    have hbt : goBaseType m p.field.ts.type = td.ts.type := by unfold goBaseType; rw [← h2, hf]
    have hnat : (nativeOf m conf p.field.ts.type).1 = .ident p.field.ts.type := by rw [← h2, user_leaf hm hr h1, if_neg hns]
    have hid : GoIdent td.name := by
      apply hsound.idents
      unfold GoNames
      apply List.mem_append_right
      refine List.mem_flatMap.2 ⟨td, h1, ?_⟩
      rcases h3 with h3 | h3 <;> simp [GoNamesOf, h3]
    have e1 : exprOf m conf lib p = .conv p.field.ts.type (.str (sourceOf p) (goStringDefault lib p.field.default)) := by
      unfold exprOf
      simp only [hbt, hnat, GoTy.text, goCoerce_ident (h2 ▸ hid)]
      rw [if_pos h3, if_pos]
      rcases h3 with h3 | h3 <;> rw [h3] <;> exact nb _ (by decide)
    have e2 : (tyOf m conf p.field.ts p.field.ts.type).1 = .ident p.field.ts.type := by
      rw [native_tyOf hm hr ⟨_, .inl ⟨td, h1, h2, rfl⟩⟩ (nb _ (by decide)) (nb _ (by decide)), hnat]
    rw [e1, e2]
    constructor
    · intro ht
      refine ⟨?_, fun h => absurd h (nb _ (by decide))⟩
      cases ht with
      | text _ _ h => exact h
      | number _ _ h => exact h
    · rintro ⟨h4, _⟩
      refine .text .str (.inr ⟨"string", by simp, ?_⟩) h4
      rcases h3 with h3 | h3
      · exact ⟨"", (mem_decls hr _).2 (.type h1 (h2 ▸ .string h3))⟩
      · exact ⟨" //UUID", (mem_decls hr _).2 (.type h1 (h2 ▸ .uuid h3))⟩

/-- The steps of a handler assign to fields of the request values of their types. -/
theorem step_typed (lib : GoLib) (hrt : conf.runtime = false) (hsound : GoSound conf.name conf.runtime m.schema) {h : HttpDef}
    (hh : h ∈ m.schema.http) (hserv : GoServable m.schema h) {p : HttpParamSpec} (hp : p ∈ h.inputs) :
    StepTyped (fileOf m conf) (h.inputs.map fun p => fieldOf m conf p.field) (stepOf m conf lib p) ↔
      (BodyInput p = false → p.field.ts.type ∉ GoLocals ∧
      (p.field.ts.type = "Timestamp" → p.field.default ≠ .tsPtr ∧ ∀ t, p.field.default = .str t → parseTimestamp t.toList = none)) := by
  unfold stepOf
  cases hb : BodyInput p with
  | true =>
    simp only [if_true, StepTyped, Bool.true_eq_false, false_implies, iff_true]
    exact ⟨_, List.mem_map_of_mem hp, rfl⟩
  | false =>
    simp only [Bool.false_eq_true, if_false, StepTyped, true_implies]
    have hment : Mentions m.schema p.field.ts.type := .direct (.input hh hp rfl) rfl
    have key := expr_typed hm hr lib hrt hsound (hserv.inputs p hp hb) hment
    rw [← key]
    constructor
    · rintro ⟨fd, h1, h2, h3⟩
      obtain ⟨q, hq, rfl⟩ := List.mem_map.1 h1
      have hnd := (hsound.actionsOnce h hh).1
      have : q = p := by
        have hi := List.inj_on_of_nodup_map hnd
        exact hi hq hp h2
      subst this
      exact h3
    · intro h1
      exact ⟨_, List.mem_map_of_mem hp, rfl, h1⟩

/-! ### All the rules together -/

omit hm hr in
theorem decodes_map (lib : GoLib) (l : List HttpParamSpec) : Decodes (l.map (stepOf m conf lib)) ↔ ∃ p ∈ l, BodyInput p = true := by
  unfold Decodes
  constructor
  · rintro ⟨f, h⟩
    obtain ⟨p, hp, h⟩ := List.mem_map.1 h
    refine ⟨p, hp, ?_⟩
    unfold stepOf at h
    split at h
    · assumption
    · cases h
  · rintro ⟨p, hp, h⟩
    exact ⟨capitalize p.field.name, List.mem_map.2 ⟨p, hp, by simp [stepOf, h]⟩⟩

omit hm hr in
theorem one_decode (lib : GoLib) (l : List HttpParamSpec) (h : (l.filter BodyInput).length ≤ 1) :
    ¬ Decodes (l.map (stepOf m conf lib)) ∨ ∃ a f b, l.map (stepOf m conf lib) = a ++ .decode f :: b ∧ ¬ Decodes a ∧ ¬ Decodes b := by
  induction l with
  | nil => left; simp [Decodes]
  | cons p l ih =>
    cases hb : BodyInput p with
    | true =>
      right
      rw [List.filter_cons_of_pos hb, List.length_cons] at h
      have : l.filter BodyInput = [] := List.eq_nil_of_length_eq_zero (by omega)
      refine ⟨[], capitalize p.field.name, l.map (stepOf m conf lib), by simp [stepOf, hb], by simp [Decodes], ?_⟩
      rw [decodes_map]
      rintro ⟨q, hq, hbq⟩
      have : q ∈ l.filter BodyInput := List.mem_filter.2 ⟨hq, hbq⟩
      simp_all
    | false =>
      rw [List.filter_cons_of_neg (by simp [hb])] at h
      have hs : stepOf m conf lib p = .assign (capitalize p.field.name) (exprOf m conf lib p) := by simp [stepOf, hb]
      rcases ih h with ih | ⟨a, f, b, h1, h2, h3⟩
      · left
        simpa [Decodes, hs] using ih
      · right
        refine ⟨.assign (capitalize p.field.name) (exprOf m conf lib p) :: a, f, b, by rw [List.map_cons, hs, h1]; rfl, ?_, h3⟩
        simpa [Decodes] using h2

theorem case_ok (hc : conf.name ∉ BaseTypes) (hcap : capitalize conf.name = conf.name) (hsound : GoSound conf.name conf.runtime m.schema) {h : HttpDef} (hh : h ∈ m.schema.http)
    {x : HttpExceptionSpec} (hx : x ∈ h.exceptions) (hk : Known m.schema x.type) :
    GoCaseOk (fileOf m conf) (nativeOf m conf x.type).1 ↔
      (∃ td ∈ m.schema.types, td.name = x.type ∧ td.ts.type = "Struct") ∧ x.type ∉ GoLocals := by
  have hu : ∀ td ∈ m.schema.types, td.name ≠ conf.name := by
    intro td htd e
    have hnd := hsound.once
    unfold GoNames at hnd
    rw [List.cons_append, List.nodup_cons] at hnd
    apply hnd.1
    apply List.mem_append_right
    refine List.mem_flatMap.2 ⟨td, htd, ?_⟩
    rw [← e]
    unfold GoNamesOf
    split <;> try simp
    split <;> try simp
    split <;> simp
  have named : ∀ n, GoCaseOk (fileOf m conf) (.ident n) → n = conf.name := by
    intro n h1
    cases h1 with
    | iface h2 _ _ =>
      cases (mem_decls hr _).1 h2 with
      | iface => rfl
      | type _ h3 => cases h3
  constructor
  · intro hok
    obtain ⟨ts, ⟨td, h1, h2, h3⟩ | ⟨h1, h2⟩⟩ := hk
    · rw [← h2, user_leaf hm hr h1] at hok
      by_cases hs : td.ts.type = "Struct"
      · rw [if_pos hs] at hok
        refine ⟨⟨td, h1, h2, hs⟩, ?_⟩
        rw [← h2]
        cases hok with
        | pointer _ h => exact h
      · rw [if_neg hs] at hok
        exact absurd (named _ hok) (hu td h1)
    · exfalso
      have hnat : nativeOf m conf x.type = leafTy m conf x.type := by
        unfold nativeOf
        rw [findType_base hm h1]
        rfl
      rw [hnat] at hok
      unfold leafTy at hok
      have noerr : ∀ n, n ∈ BaseTypes → GoCaseOk (fileOf m conf) (.ptr (.ident n)) → False := by
        intro n hn h1
        cases h1 with
        | pointer h2 _ =>
          cases (mem_decls hr _).1 h2 with
          | type h3 h4 =>
            cases h4
            exact ((newModel_ok_iff _ _).1 hm).2.1 _ h3 hn
      have rt : ∀ n l, n ∈ BaseTypes → GoCaseOk (fileOf m conf) (goRuntimeType conf n l).1 → False := by
        intro n l hn h1
        unfold goRuntimeType at h1
        split at h1
        · cases h1
        · exact noerr n hn h1
      split at hok
      · next hp =>
        have hn : ∀ b ∈ GoPredeclared, capitalize b ≠ b := by decide +kernel
        exact hn _ (prim_predeclared hp) (named _ hok ▸ hcap)
      split at hok
      · exact rt _ _ h1 hok
      split at hok
      · exact rt _ _ h1 hok
      split at hok
      · exact rt _ _ h1 hok
      · dsimp only at hok
        split at hok
        · exact noerr _ h1 hok
        · exact absurd (named _ hok ▸ h1) hc
  · rintro ⟨⟨td, h1, h2, h3⟩, h4⟩
    rw [← h2, user_leaf hm hr h1, if_pos h3]
    refine .pointer ((mem_decls hr _).2 (.type h1 (.error (.inl h3) ?_))) (h2 ▸ h4)
    exact (mem_exceptionsOf _ _).2 ⟨h, hh, x, hx, h2.symm⟩

theorem handler_compiles (hc : conf.name ∉ BaseTypes) (hcap : capitalize conf.name = conf.name) (lib : GoLib) (hrt : conf.runtime = false)
    (hsound : GoSound conf.name conf.runtime m.schema) {h : HttpDef} (hh : h ∈ m.schema.http) (hserv : GoServable m.schema h)
    (hv : HttpOk m.schema h) (hx : (h.exceptions.map (·.type)).Nodup) {e : HttpExpectedSpec} (he : h.expected = some e) :
    GoHandlerCompiles (fileOf m conf) conf.name (handlerOf m conf lib h) ↔
      (∀ p ∈ e.outputs, p.header ≠ "" → GoQuotable p.header) ∧
      (e.status = 204 ∨ e.status = 304 → e.outputs = [] ∧ ∀ p ∈ h.inputs, p.query = "" ∧ BodyInput p = false) ∧
      (¬ (e.status = 204 ∨ e.status = 304) → e.outputs ≠ [] ∧
        ((∀ p ∈ h.inputs, p.query = "") ∨ ∀ p ∈ h.inputs, BodyInput p = false)) ∧
      (∀ x ∈ h.exceptions, ∃ td ∈ m.schema.types, td.name = x.type ∧ td.ts.type = "Struct") ∧
      ((∀ p ∈ h.inputs, BodyInput p = false → p.field.ts.type ∉ GoLocals) ∧ ∀ x ∈ h.exceptions, x.type ∉ GoLocals) ∧
      (∀ p ∈ h.inputs, BodyInput p = false → p.field.ts.type = "Timestamp" → p.field.default ≠ .tsPtr ∧
        ∀ t, p.field.default = .str t → parseTimestamp t.toList = none) := by
  have honce : ((fileOf m conf).decls.flatMap DeclaredNames).Nodup := (once_iff hr).2 ⟨hsound.once, hsound.decimalOnce, hsound.timestampOnce⟩
  have hres : (handlerOf m conf lib h).result = "_" ∨ (handlerOf m conf lib h).result = "res" := by
    unfold handlerOf; dsimp only; split
    · exact .inl rfl
    · exact .inr rfl
  have hres1 : (handlerOf m conf lib h).result = "_" ↔ e.status = 204 ∨ e.status = 304 := by
    unfold handlerOf; simp only [he, Option.getD_some]; split <;> simp [*]
  have hres2 : (handlerOf m conf lib h).result = "res" ↔ ¬ (e.status = 204 ∨ e.status = 304) := by
    unfold handlerOf; simp only [he, Option.getD_some]; split <;> simp [*]
  have hform : (handlerOf m conf lib h).form = true ↔ ∃ p ∈ h.inputs, p.query ≠ "" := by
    simp [handlerOf]
  have hdec : Decodes (handlerOf m conf lib h).steps ↔ ∃ p ∈ h.inputs, BodyInput p = true := decodes_map lib _
  have hhead : (handlerOf m conf lib h).headers = [] ∧ (handlerOf m conf lib h).entity = none ↔ e.outputs = [] := by
    unfold handlerOf
    simp only [he, Option.getD_some, List.map_eq_nil_iff, Option.map_eq_none_iff, List.filter_eq_nil_iff, List.find?_eq_none]
    constructor
    · rintro ⟨h1, h2⟩
      cases ho : e.outputs with
      | nil => rfl
      | cons p l =>
        have k1 := h1 p (by simp [ho])
        have k2 := h2 p (by simp [ho])
        simp [BodyOutput] at k1 k2
        exact absurd k1 k2
    · intro h1
      simp [h1]
  have hout : outputsOf h = e.outputs := by simp [outputsOf, he]
  constructor
  · intro hg
    obtain ⟨fs, hf1, hf2⟩ := hg.request
    have hreq := (mem_decls (conf := conf) hr _).2 (.request hh)
    have hfs : fs = h.inputs.map fun p => fieldOf m conf p.field := by
      have := flatMap_nodup_unique honce hf1 hreq (n := capitalize h.name ++ "Request") (by simp [DeclaredNames, handlerOf]) (by simp [DeclaredNames])
      injection this
    subst hfs
    have hst : ∀ p ∈ h.inputs, BodyInput p = false → p.field.ts.type ∉ GoLocals ∧
        (p.field.ts.type = "Timestamp" → p.field.default ≠ .tsPtr ∧ ∀ t, p.field.default = .str t → parseTimestamp t.toList = none) := by
      intro p hp
      exact (step_typed hm hr lib hrt hsound hh hserv hp).1 (hf2 _ (List.mem_map_of_mem hp))
    have hcs : ∀ x ∈ h.exceptions, (∃ td ∈ m.schema.types, td.name = x.type ∧ td.ts.type = "Struct") ∧ x.type ∉ GoLocals := by
      intro x hx
      exact (case_ok hm hr hc hcap hsound hh hx (hv.exceptionTypes e he x hx)).1 (hg.cases _ (List.mem_map.2 ⟨x, hx, rfl⟩))
    obtain ⟨s1, _, s3⟩ := (handler_scopes _ hres).1 hg.scopes
    have hu := (handler_used _ hres).1 hg.used
    refine ⟨?_, ?_, ?_, fun x hx => (hcs x hx).1, ⟨fun p hp hb => (hst p hp hb).1, fun x hx => (hcs x hx).2⟩, fun p hp hb => (hst p hp hb).2⟩
    · intro p hp hph
      refine hg.quoted (p.header, capitalize p.field.name) ?_
      unfold handlerOf
      simp only [he, Option.getD_some, List.mem_map, List.mem_filter]
      exact ⟨p, ⟨hp, by simpa using hph⟩, rfl⟩
    · intro hs
      obtain ⟨k1, k2, k3, k4⟩ := s3 (hres1.2 hs)
      refine ⟨hhead.1 ⟨k3, k4⟩, fun p hp => ⟨?_, ?_⟩⟩
      · by_contra hq
        rw [hform.2 ⟨p, hp, hq⟩] at k1; cases k1
      · cases hb : BodyInput p with
        | false => rfl
        | true => exact absurd (hdec.2 ⟨p, hp, hb⟩) k2
    · intro hs
      have k := hu (hres2.2 hs)
      refine ⟨fun ho => ?_, ?_⟩
      · obtain ⟨k1, k2⟩ := hhead.2 ho
        rcases k with k | k
        · exact k k1
        · exact k k2
      · by_cases hq : ∃ p ∈ h.inputs, p.query ≠ ""
        · right
          intro p hp
          cases hb : BodyInput p with
          | false => rfl
          | true => exact absurd (hdec.2 ⟨p, hp, hb⟩) (s1 (hform.2 hq))
        · left
          intro p hp
          by_contra h1
          exact hq ⟨p, hp, h1⟩
  · rintro ⟨q1, q2, q3, q4, ⟨q5, q6⟩, q7⟩
    refine ⟨⟨_, (mem_decls hr _).2 .iface, List.mem_map_of_mem hh⟩, ⟨_, (mem_decls hr _).2 (.request hh), ?_⟩,
      ⟨_, (mem_decls hr _).2 (.response hh), ?_, ?_⟩, (handler_scopes _ hres).2 ⟨?_, one_decode lib _ hv.oneBody, ?_⟩, (handler_used _ hres).2 ?_, ?_, ?_, ?_⟩
    · intro st hst
      obtain ⟨p, hp, rfl⟩ := List.mem_map.1 hst
      exact (step_typed hm hr lib hrt hsound hh hserv hp).2 fun hb => ⟨q5 p hp hb, q7 p hp hb⟩
    · intro en hen
      unfold handlerOf at hen
      simp only [he, Option.getD_some, List.mem_map, List.mem_filter] at hen
      obtain ⟨p, ⟨hp, _⟩, rfl⟩ := hen
      exact ⟨_, List.mem_map.2 ⟨p, hout ▸ hp, rfl⟩, rfl⟩
    · intro n hn
      unfold handlerOf at hn
      simp only [he, Option.getD_some, Option.map_eq_some_iff] at hn
      obtain ⟨p, hp, rfl⟩ := hn
      exact ⟨_, List.mem_map.2 ⟨p, hout ▸ List.mem_of_find?_eq_some hp, rfl⟩, rfl⟩
    · intro hf
      rw [hdec]
      obtain ⟨p, hp, hq⟩ := hform.1 hf
      rintro ⟨p', hp', hb⟩
      by_cases hs : e.status = 204 ∨ e.status = 304
      · exact hq ((q2 hs).2 p hp).1
      · rcases (q3 hs).2 with k | k
        · exact hq (k p hp)
        · rw [k p' hp'] at hb; cases hb
    · intro hr1
      obtain ⟨k1, k2⟩ := q2 (hres1.1 hr1)
      refine ⟨?_, ?_, hhead.2 k1⟩
      · cases hf : (handlerOf m conf lib h).form with
        | false => rfl
        | true =>
          obtain ⟨p, hp, hq⟩ := hform.1 hf
          exact absurd (k2 p hp).1 hq
      · rw [hdec]
        rintro ⟨p, hp, hb⟩
        rw [(k2 p hp).2] at hb; cases hb
    · intro hr2
      have k := (q3 (hres2.1 hr2)).1
      by_contra hn
      rw [not_or, not_not, not_not] at hn
      exact k (hhead.1 hn)
    · intro c hcs
      obtain ⟨x, hx, rfl⟩ := List.mem_map.1 hcs
      exact (case_ok hm hr hc hcap hsound hh hx (hv.exceptionTypes e he x hx)).2 ⟨q4 x hx, q6 x hx⟩
    · have heq : (handlerOf m conf lib h).cases.map (·.1) = (h.exceptions.map (·.type)).map fun n => GoTy.ptr (.ident n) := by
        unfold handlerOf
        simp only [List.map_map]
        refine List.map_congr_left fun x hx => ?_
        obtain ⟨td, h1, h2, h3⟩ := q4 x hx
        simp only [Function.comp_apply]
        rw [← h2, user_leaf hm hr h1, if_pos h3]
      rw [heq]
      refine List.Nodup.map ?_ hx
      intro a b hab
      simpa using hab
    · intro en hen
      unfold handlerOf at hen
      simp only [he, Option.getD_some, List.mem_map, List.mem_filter] at hen
      obtain ⟨p, ⟨hp, hph⟩, rfl⟩ := hen
      exact q1 p hp (by simpa using hph)

/-- The server of a schema whose Go types respect the rules of Go respects them exactly when the schema is sound. -/
theorem server_compiles_iff (hc : conf.name ∉ BaseTypes) (hcap : capitalize conf.name = conf.name) (lib : GoLib)
    (hsound : GoSound conf.name conf.runtime m.schema) (hserv : ∀ h ∈ m.schema.http, GoServable m.schema h)
    (hv : ∀ h ∈ m.schema.http, HttpOk m.schema h) (hx : ∀ h ∈ m.schema.http, (h.exceptions.map (·.type)).Nodup)
    (hmeth : ∀ h ∈ m.schema.http, GoQuotable h.method) :
    GoServerCompiles (fileOf m conf) (serverOf m conf lib) ↔ GoServerSound conf.name conf.runtime m.schema := by
  have honce : ((fileOf m conf).decls.flatMap DeclaredNames).Nodup := (once_iff hr).2 ⟨hsound.once, hsound.decimalOnce, hsound.timestampOnce⟩
  have hnames := server_names hr honce (uncapitalize conf.name ++ "Adaptor") rfl
  have hts : .timestamp ∈ (fileOf m conf).decls ↔ WritesTimestamp conf.runtime m.schema := by
    rw [mem_decls hr, ← timestamp_noted hr]
    constructor
    · intro h
      cases h with
      | timestamp h => exact h
      | type _ h => cases h
    · exact .timestamp
  constructor
  · intro h
    have htime := hts.1 h.timestamp
    have hrt : conf.runtime = false := htime.1
    refine ⟨htime, ?_, hnames.1 ⟨h.once, h.packageNames, h.predeclared⟩, ?_⟩
    · intro h1
      apply h.routesUse
      simp [serverOf, h1]
    · intro a ha e he
      have h1 := h.handlers _ (List.mem_map_of_mem ha)
      have h1' : GoHandlerCompiles (fileOf m conf) conf.name (handlerOf m conf lib a) := by
        have : (serverOf m conf lib).service = conf.name := hcap
        rw [this] at h1; exact h1
      obtain ⟨q1, q2, q3, q4, q5, q6⟩ := (handler_compiles hm hr hc hcap lib hrt hsound ha (hserv a ha) (hv a ha) (hx a ha) he).1 h1'
      refine ⟨?_, q1, q2, q3, q4, q5, q6⟩
      intro p q hpq
      have := (h.routes (goRoute a) (List.mem_map_of_mem ha)).1
      obtain ⟨rfl, _⟩ := pathAndQuery_unique hpq
      unfold GoQuotable goRoute goRoutePath at this
      rwa [String.toList_ofList] at this
  · intro h
    have hrt : conf.runtime = false := h.timestamp.1
    obtain ⟨n1, n2, n3⟩ := hnames.2 h.names
    refine ⟨adaptor_ident (hsound.idents _ (by simp [GoNames])), n1, n2, n3, server_imports lib hrt, hts.2 h.timestamp, ?_, ?_, ?_, ?_⟩
    · intro g hg
      obtain ⟨a, ha, rfl⟩ := List.mem_map.1 hg
      obtain ⟨e, he⟩ := (hserv a ha).expected
      have hs := h.served a ha e he
      have : (serverOf m conf lib).service = conf.name := hcap
      rw [this]
      exact (handler_compiles hm hr hc hcap lib hrt hsound ha (hserv a ha) (hv a ha) (hx a ha) he).2
        ⟨hs.headers, hs.nothing, hs.something, hs.exceptions, hs.hidden, hs.times⟩
    · have := hsound.methodsOnce
      simpa [serverOf, handlerOf, Function.comp_def] using this
    · intro h1
      apply h.actions
      simpa [serverOf] using h1
    · intro r hr'
      obtain ⟨a, ha, rfl⟩ := List.mem_map.1 hr'
      obtain ⟨e, he⟩ := (hserv a ha).expected
      have hs := h.served a ha e he
      refine ⟨?_, hmeth a ha, _, List.mem_map_of_mem ha, rfl⟩
      unfold GoQuotable goRoute goRoutePath
      rw [String.toList_ofList]
      exact hs.path _ _ (pathAndQuery _)
end

end Sadl
