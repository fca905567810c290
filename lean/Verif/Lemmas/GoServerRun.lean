import Verif.Lemmas.GoServerRules
/-
What the handlers of a generated Go server do.
-/
namespace Sadl
open Sadl.Spec

theorem defaultText_of (lib : GoLib) (v : Value) : DefaultText lib v (goStringDefault lib v) := by
  unfold goStringDefault
  split
  · exact .none
  · exact .str
  · next h1 h2 => exact .other h1 fun t h => h2 t h

theorem cutOff_of (m e : Int) : CutOff m e (if 0 ≤ e then m * 2 ^ e.toNat else m.tdiv (2 ^ (-e).toNat)) := by
  unfold CutOff
  split
  · rfl
  · have hp : 0 < 2 ^ (-e).toNat := Nat.two_pow_pos _
    have hn : (m.tdiv (2 ^ (-e).toNat)).natAbs = m.natAbs / 2 ^ (-e).toNat := by
      rw [Int.natAbs_tdiv]
      rw [show (2 : Int) ^ (-e).toNat = ((2 ^ (-e).toNat : Nat) : Int) by push_cast; rfl, Int.natAbs_natCast]
      rfl
    have hp' : (0 : Int) < 2 ^ (-e).toNat := by exact_mod_cast hp
    rw [hn]
    refine ⟨Nat.div_mul_le_self _ _, ?_, ?_, ?_⟩
    · have := Nat.lt_div_mul_add (a := m.natAbs) hp
      rw [Nat.add_mul, Nat.one_mul]; omega
    · intro h
      by_contra hm
      have : m.tdiv (2 ^ (-e).toNat) ≤ 0 := by
        have h1 : 0 ≤ (-m).tdiv (2 ^ (-e).toNat) := Int.tdiv_nonneg (by omega) (le_of_lt hp')
        rw [Int.neg_tdiv] at h1; omega
      omega
    · intro h
      by_contra hm
      have : 0 ≤ m.tdiv (2 ^ (-e).toNat) := Int.tdiv_nonneg (by omega) (le_of_lt hp')
      omega

theorem defaultInt_of (v : Value) : DefaultInt v (goIntDefault v) := by
  unfold goIntDefault
  split
  · next d =>
    cases d with
    | fin m e =>
      have h := DefaultInt.fin (cutOff_of m e)
      have he : decAsInt64 (.fin m e) = max (-2 ^ 63) (min (2 ^ 63 - 1) (if 0 ≤ e then m * 2 ^ e.toNat else m.tdiv (2 ^ (-e).toNat))) := by
        unfold decAsInt64
        simp only
        generalize (if 0 ≤ e then m * 2 ^ e.toNat else m.tdiv (2 ^ (-e).toNat)) = n
        split
        · omega
        · split <;> omega
      rw [he]; exact h
    | inf neg =>
      have : decAsInt64 (.inf neg) = (if neg then -2 ^ 63 else 2 ^ 63 - 1) := rfl
      rw [this]; exact .inf
  · next h => exact .none fun d h1 => h d h1

theorem sentAs_of {p : HttpParamSpec} (h : BodyInput p = false) (rq : GoRequest) : SentAs rq p (SourceText rq (sourceOf p)) := by
  unfold sourceOf
  by_cases hq : p.query = ""
  · by_cases hh : p.header = ""
    · have hp : p.path = true := by
        simp [BodyInput, hq, hh] at h; exact h
      simp only [hq, hh, ne_eq, not_true_eq_false, if_false, SourceText]
      exact .path hq hh hp
    · simp only [hq, hh, ne_eq, not_true_eq_false, not_false_eq_true, if_true, if_false, SourceText]
      exact .header hq hh
  · simp only [hq, ne_eq, not_false_eq_true, if_true, SourceText]
    exact .query hq

section
variable {m : Model} (hm : newModel m.schema = .ok m) {conf : GoConf} (hr : GoReady m.schema)
include hm hr

/-- The expressions for parameters. -/
theorem expr_shape (lib : GoLib) (hsound : GoSound conf.name conf.runtime m.schema) {p : HttpParamSpec}
    (hk : OfKind m.schema p.field.ts.type GoParamKinds) (hment : Mentions m.schema p.field.ts.type) :
    (OfKind m.schema p.field.ts.type ["String", "UUID"] ∧ ∃ t, exprOf m conf lib p = .conv t (.str (sourceOf p) (goStringDefault lib p.field.default))) ∨
    (p.field.ts.type = "Timestamp" ∧ exprOf m conf lib p = .time (sourceOf p) (goTimeDefault lib p.field.default)) ∨
    (∃ t bits, (p.field.ts.type, bits) ∈ IntKinds ∧ GoBits.lookup t = some bits ∧
      exprOf m conf lib p = .conv t (.int (sourceOf p) (goIntDefault p.field.default))) := by
  have base : ∀ b ∈ BaseTypes, goBaseType m b = b := by
    intro b hb
    unfold goBaseType
    rw [findType_base hm hb]
    rfl
  have nat : ∀ b ∈ BaseTypes, nativeOf m conf b = leafTy m conf b := by
    intro b hb
    unfold nativeOf
    rw [findType_base hm hb]
    rfl
  rcases param_kind hm hr hsound hk hment with h | h | h | ⟨td, h1, h2, h3⟩
  · refine .inl ⟨⟨_, .inr ⟨by rw [h]; decide, rfl⟩, by rw [h]; decide⟩, "string", ?_⟩
    unfold exprOf
    simp only [h, base "String" (by decide), nat "String" (by decide), true_or, if_true]
    have hl0 : (leafTy m conf "String").1 = .ident "string" := rfl
    have hl : goCoerce (leafTy m conf "String").1.text = "string" := by
      rw [hl0]; change goCoerce "string" = "string"; decide +kernel
    rw [hl, if_pos (by decide)]
  · refine .inr (.inl ⟨h, ?_⟩)
    unfold exprOf
    simp only [h, base "Timestamp" (by decide)]
    rfl
  · have ints : ∀ b t bits, b ∈ BaseTypes → (leafTy m conf b).1 = .ident t → goCoerce t = t → t ≠ b → b ≠ "String" → b ≠ "UUID" → b ≠ "Timestamp" →
        (b, bits) ∈ IntKinds → GoBits.lookup t = some bits → p.field.ts.type = b →
        ∃ t bits, (p.field.ts.type, bits) ∈ IntKinds ∧ GoBits.lookup t = some bits ∧
          exprOf m conf lib p = .conv t (.int (sourceOf p) (goIntDefault p.field.default)) := by
      intro b t bits k1 k2 k3 k4 k5 k6 k7 k8 k9 k10
      refine ⟨t, bits, k10 ▸ k8, k9, ?_⟩
      unfold exprOf
      simp only [k10, base b k1, nat b k1, k2, GoTy.text, k3, k5, k6, k7, or_self, if_false, ne_eq, k4, not_false_eq_true, if_true]
    simp only [List.mem_cons, List.not_mem_nil, or_false] at h
    right; right
    rcases h with h | h | h | h
    · exact ints "Int8" "int8" 8 (by decide) rfl rfl (by decide) (by decide) (by decide) (by decide) (by decide) (by decide) h
    · exact ints "Int16" "int16" 16 (by decide) rfl rfl (by decide) (by decide) (by decide) (by decide) (by decide) (by decide) h
    · exact ints "Int32" "int32" 32 (by decide) rfl rfl (by decide) (by decide) (by decide) (by decide) (by decide) (by decide) h
    · exact ints "Int64" "int64" 64 (by decide) rfl rfl (by decide) (by decide) (by decide) (by decide) (by decide) (by decide) h
  · left
    have hb : td.name ∉ BaseTypes := ((newModel_ok_iff _ _).1 hm).2.1 td h1
    have nb : ∀ b ∈ BaseTypes, p.field.ts.type ≠ b := fun b hb' e => hb (h2 ▸ e ▸ hb')
    have hns : td.ts.type ≠ "Struct" := by rcases h3 with h3 | h3 <;> rw [h3] <;> decide
    have hf : m.findType td.name = some td := (newModel_findType_iff hm _ _).2 (.inl ⟨h1, rfl⟩)
    have hbt : goBaseType m p.field.ts.type = td.ts.type := by unfold goBaseType; rw [← h2, hf]
    have hnat : (nativeOf m conf p.field.ts.type).1 = .ident p.field.ts.type := by rw [← h2, user_leaf hm hr h1, if_neg hns]
    have hid : GoIdent td.name := by
      apply hsound.idents
      unfold GoNames
      apply List.mem_append_right
      refine List.mem_flatMap.2 ⟨td, h1, ?_⟩
      rcases h3 with h3 | h3 <;> simp [GoNamesOf, h3]
    refine ⟨⟨_, .inl ⟨td, h1, h2, rfl⟩, by rcases h3 with h3 | h3 <;> rw [h3] <;> decide⟩, p.field.ts.type, ?_⟩
    unfold exprOf
    simp only [hbt, hnat, GoTy.text, goCoerce_ident (h2 ▸ hid)]
    rw [if_pos h3, if_pos]
    rcases h3 with h3 | h3 <;> rw [h3] <;> exact nb _ (by decide)

variable {τ β : Type}

/-- What the implementation gets for a parameter. -/
theorem expr_delivered (lib : GoLib) (hsound : GoSound conf.name conf.runtime m.schema) {p : HttpParamSpec} (hb : BodyInput p = false)
    (hk : OfKind m.schema p.field.ts.type GoParamKinds) (hment : Mentions m.schema p.field.ts.type) (rd : GoReads τ β) (rq : GoRequest) :
    Delivered lib rd m.schema rq p (ExprValue rd rq (exprOf m conf lib p)) := by
  have hs := sentAs_of hb rq
  rcases expr_shape hm hr lib hsound hk hment with ⟨h1, t, h2⟩ | ⟨h1, h2⟩ | ⟨t, bits, h1, h2, h3⟩
  · rw [h2]
    simp only [ExprValue, GoConvert]
    split
    · next h => exact .noText h1 (h ▸ hs) (defaultText_of lib _)
    · next h => exact .text h1 hs h
  · rw [h2]
    simp only [ExprValue]
    split
    · next h => exact .noTime h1 (h ▸ hs)
    · next h => exact .time h1 hs h
  · rw [h3]
    simp only [ExprValue, GoConvert, h2]
    split
    · next h => exact .noInt h1 hs (.inl h) (defaultInt_of _)
    · next h =>
      cases hp : parseInt 64 (SourceText rq (sourceOf p)) with
      | none => exact .noInt h1 hs (.inr hp) (defaultInt_of _)
      | some n => exact .int h1 hs h hp

omit hm hr in
theorem fill_none (lib : GoLib) (rd : GoReads τ β) (rq : GoRequest) (l : List HttpParamSpec) :
    GoFill rd rq (l.map (stepOf m conf lib)) = none ↔ ∃ p ∈ l, BodyInput p = true ∧ rd.decode (capitalize p.field.name) rq.body = none := by
  induction l with
  | nil => simp [GoFill]
  | cons p l ih =>
    rw [List.map_cons]
    cases hb : BodyInput p with
    | true =>
      have : stepOf m conf lib p = .decode (capitalize p.field.name) := by simp [stepOf, hb]
      rw [this]
      cases hd : rd.decode (capitalize p.field.name) rq.body with
      | none => simp [GoFill, hb, hd]
      | some b => simp [GoFill, ih, hb, hd]
    | false =>
      have : stepOf m conf lib p = .assign (capitalize p.field.name) (exprOf m conf lib p) := by simp [stepOf, hb]
      rw [this]
      simp [GoFill, ih, hb]

theorem fill_some (lib : GoLib) (hsound : GoSound conf.name conf.runtime m.schema) (rd : GoReads τ β) (rq : GoRequest) (l : List HttpParamSpec)
    (hk : ∀ p ∈ l, BodyInput p = false → OfKind m.schema p.field.ts.type GoParamKinds) (hment : ∀ p ∈ l, Mentions m.schema p.field.ts.type)
    {fields : List (String × GoVal τ β)} (h : GoFill rd rq (l.map (stepOf m conf lib)) = some fields) :
    List.Forall₂ (fun p f => f.1 = capitalize p.field.name ∧ Delivered lib rd m.schema rq p f.2) l fields := by
  induction l generalizing fields with
  | nil => simp [GoFill] at h; subst h; exact .nil
  | cons p l ih =>
    rw [List.map_cons] at h
    have ih' := fun {fs} => ih (fun q hq => hk q (by simp [hq])) (fun q hq => hment q (by simp [hq])) (fields := fs)
    cases hb : BodyInput p with
    | true =>
      have : stepOf m conf lib p = .decode (capitalize p.field.name) := by simp [stepOf, hb]
      rw [this] at h
      cases hd : rd.decode (capitalize p.field.name) rq.body with
      | none => simp [GoFill, hd] at h
      | some b =>
        simp only [GoFill, hd, Option.map_eq_some_iff] at h
        obtain ⟨fs, h1, rfl⟩ := h
        exact .cons ⟨rfl, .body hb hd⟩ (ih' h1)
    | false =>
      have : stepOf m conf lib p = .assign (capitalize p.field.name) (exprOf m conf lib p) := by simp [stepOf, hb]
      rw [this] at h
      simp only [GoFill, Option.map_eq_some_iff] at h
      obtain ⟨fs, h1, rfl⟩ := h
      exact .cons ⟨rfl, expr_delivered hm hr lib hsound hb (hk p (by simp) hb) (hment p (by simp)) rd rq⟩ (ih' h1)

omit hm hr in
theorem lookup_cases {l : List HttpExceptionSpec} (hn : (l.map (·.type)).Nodup) {f : String → GoTy} (hf : ∀ a b, f a = f b → a = b)
    {x : HttpExceptionSpec} (hx : x ∈ l) : (l.map fun y => (f y.type, y.status)).lookup (f x.type) = some x.status := by
  induction l with
  | nil => cases hx
  | cons y l ih =>
    rw [List.map_cons, List.nodup_cons] at hn
    rw [List.map_cons, List.lookup_cons]
    rcases List.mem_cons.1 hx with rfl | hx
    · simp
    · have : f x.type ≠ f y.type := by
        intro e
        exact hn.1 (List.mem_map.2 ⟨x, hx, hf _ _ e⟩)
      rw [show (f x.type == f y.type) = false by simpa using this]
      exact ih hn.2 hx

omit hm hr in
theorem lookup_cases_none {l : List HttpExceptionSpec} {f : String → GoTy} {t : GoTy} (ht : ∀ x ∈ l, t ≠ f x.type) :
    (l.map fun y => (f y.type, y.status)).lookup t = none := by
  induction l with
  | nil => rfl
  | cons y l ih =>
    rw [List.map_cons, List.lookup_cons, show (t == f y.type) = false by simpa using ht y (by simp)]
    exact ih fun x hx => ht x (by simp [hx])

variable {ρ ε : Type}

/-- What a handler does. -/
theorem handler_runs (lib : GoLib) (hsound : GoSound conf.name conf.runtime m.schema) {h : HttpDef} (hh : h ∈ m.schema.http)
    (hserv : GoServable m.schema h) (hx : (h.exceptions.map (·.type)).Nodup) {e : HttpExpectedSpec} (he : h.expected = some e)
    (hex : ∀ x ∈ h.exceptions, ∃ td ∈ m.schema.types, td.name = x.type ∧ td.ts.type = "Struct")
    (rd : GoReads τ β) (impl : List (String × GoVal τ β) → GoAnswer ρ ε) (rq : GoRequest) :
    (Refused rd h rq ∧ RunHandler rd impl (handlerOf m conf lib h) rq = .refused) ∨
    (¬ Refused rd h rq ∧ ∃ fields, List.Forall₂ (fun p f => f.1 = capitalize p.field.name ∧ Delivered lib rd m.schema rq p f.2) h.inputs fields ∧
      Answered h e (impl fields) (RunHandler rd impl (handlerOf m conf lib h) rq)) := by
  have hform : (handlerOf m conf lib h).form = true ↔ ∃ p ∈ h.inputs, p.query ≠ "" := by simp [handlerOf]
  have hsteps : (handlerOf m conf lib h).steps = h.inputs.map (stepOf m conf lib) := rfl
  have hcases : (handlerOf m conf lib h).cases = h.exceptions.map fun x => (GoTy.ptr (.ident x.type), x.status) := by
    unfold handlerOf
    refine List.map_congr_left fun x hx => ?_
    obtain ⟨td, h1, h2, h3⟩ := hex x hx
    rw [← h2, user_leaf hm hr h1, if_pos h3]
  unfold RunHandler Refused
  by_cases hq : (∃ p ∈ h.inputs, p.query ≠ "") ∧ rq.formOk = false
  · rw [if_pos ⟨hform.2 hq.1, hq.2⟩]
    exact .inl ⟨.inl hq, rfl⟩
  rw [if_neg (fun h => hq ⟨hform.1 h.1, h.2⟩), hsteps]
  cases hf : GoFill rd rq (h.inputs.map (stepOf m conf lib)) with
  | none => exact .inl ⟨.inr ((fill_none lib rd rq _).1 hf), rfl⟩
  | some fields =>
    refine .inr ⟨?_, fields, fill_some hm hr lib hsound rd rq _ hserv.inputs (fun p hp => .direct (.input hh hp rfl) rfl) hf, ?_⟩
    · rintro (h1 | h1)
      · exact hq h1
      · rw [(fill_none lib rd rq _).2 h1] at hf; cases hf
    · simp only
      cases hi : impl fields with
      | ok res =>
        simp only [handlerOf, he, Option.getD_some, List.map_map, Option.map_map]
        exact .ok
      | error t err =>
        simp only [hcases]
        by_cases hk : ∃ x ∈ h.exceptions, t = .ptr (.ident x.type)
        · obtain ⟨x, hxm, rfl⟩ := hk
          rw [lookup_cases (f := fun n => GoTy.ptr (.ident n)) hx (by intro a b hab; simpa using hab) hxm]
          exact .known hxm
        · have hk' : ∀ x ∈ h.exceptions, t ≠ .ptr (.ident x.type) := fun x hx' ht => hk ⟨x, hx', ht⟩
          rw [lookup_cases_none (f := fun n => GoTy.ptr (.ident n)) hk']
          exact .unknown hk'
end

end Sadl
