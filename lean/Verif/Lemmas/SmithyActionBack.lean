import Verif.Lemmas.SmithyTypeBack
/-
Lemmas about the Smithy import: actions and operations.
-/
namespace Sadl
open Smithy Spec
namespace Smithy

/-! ### The operation shape of an action -/

/-- The status code of an action. -/
def statusOf (h : HttpDef) : Int :=
  match h.expected with
  | some e => e.status
  | none => 200

/-- What the operation shape of an action carries. -/
structure OpTraits (base : String) (h : HttpDef) (sh : Shape) : Prop where
  type : sh.type = "operation"
  input : sh.input = none
  output : sh.output = none
  doc : mget sh.traits "smithy.api#documentation" = some (.str h.comment)
  http : mget sh.traits "smithy.api#http" = some (httpTrait (actionUri base h) h.method (statusOf h))
  keys : ∀ k ∈ List.map Prod.fst sh.traits, k ∈ ignoredTraits ∨ k ∈ annotating
  seen : mget h.annotations "x_paginated" = none → Smithy.seen sh.traits =
      match mget h.annotations "x_tags" with | some t => [("smithy.api#tags", splitTags t)] | none => []

theorem opTraits_put {base : String} {h : HttpDef} {sh : Shape} (ho : OpTraits base h sh) (tr : String) (v : Value)
    (htr : tr ∈ ["smithy.api#readonly", "smithy.api#idempotent", "smithy.api#examples"]) : OpTraits base h (sh.put tr v) := by
  have hne : tr ≠ "smithy.api#documentation" ∧ tr ≠ "smithy.api#http" ∧ tr ∈ ignoredTraits :=
    (by decide : ∀ tr ∈ ["smithy.api#readonly", "smithy.api#idempotent", "smithy.api#examples"],
      tr ≠ "smithy.api#documentation" ∧ tr ≠ "smithy.api#http" ∧ tr ∈ ignoredTraits) tr htr
  refine ⟨ho.type, ho.input, ho.output, ?_, ?_, ?_, ?_⟩
  · simp only [Shape.put, mget_mset, if_neg hne.1.symm, ho.doc]
  · simp only [Shape.put, mget_mset, if_neg hne.2.1.symm, ho.http]
  · intro k hk
    simp only [Shape.put, mem_keys_mset] at hk
    rcases hk with rfl | hk
    · exact .inl hne.2.2
    · exact ho.keys k hk
  · intro hp
    simp only [Shape.put, seen_mset_ignored _ _ _ hne.2.2, ho.seen hp]

/-- The operation shape before its method is looked at. -/
def opStart (base : String) (h : HttpDef) : Shape :=
  let shape := (({ type := "operation" } : Shape).put "smithy.api#documentation" (.str h.comment)).put "smithy.api#http"
    (httpTrait (actionUri base h) h.method (statusOf h))
  match mget h.annotations "x_tags" with
  | some t => shape.put "smithy.api#tags" (splitTags t)
  | none => shape

theorem opStart_traits (base : String) (h : HttpDef) : OpTraits base h (opStart base h) := by
  unfold opStart
  cases ht : mget h.annotations "x_tags" with
  | none =>
    refine ⟨rfl, rfl, rfl, by simp [Shape.put, mget_mset], by simp [Shape.put, mget_mset], ?_, fun _ => ?_⟩
    · simp only [Shape.put, mset, if_neg (by decide : ¬ "smithy.api#documentation" = "smithy.api#http"),
        List.map_cons, List.map_nil, List.mem_cons, List.not_mem_nil, or_false, forall_eq_or_imp, forall_eq]
      exact ⟨.inl (by decide), .inl (by decide)⟩
    · simp [ht, Smithy.seen, ignoredTraits, Shape.put, mset]
  | some t =>
    refine ⟨rfl, rfl, rfl, by simp [Shape.put, mget_mset], by simp [Shape.put, mget_mset], ?_, fun _ => ?_⟩
    · simp only [Shape.put, mset, if_neg (by decide : ¬ "smithy.api#documentation" = "smithy.api#http"),
        if_neg (by decide : ¬ "smithy.api#documentation" = "smithy.api#tags"),
        if_neg (by decide : ¬ "smithy.api#http" = "smithy.api#tags"),
        List.map_cons, List.map_nil, List.mem_cons, List.not_mem_nil, or_false, forall_eq_or_imp, forall_eq]
      exact ⟨.inl (by decide), .inl (by decide), .inr (by decide)⟩
    · simp [ht, Smithy.seen, ignoredTraits, Shape.put, mset]

theorem opTraits_method {base : String} {h : HttpDef} {sh : Shape} (ho : OpTraits base h sh) : OpTraits base h
    (if h.method = "GET" then sh.put "smithy.api#readonly" (.bool true)
      else if h.method = "PUT" ∨ h.method = "DELETE" then sh.put "smithy.api#idempotent" (.bool true) else sh) := by
  split_ifs
  · exact opTraits_put ho _ _ (by decide)
  · exact opTraits_put ho _ _ (by decide)
  · exact ho

theorem actionShape_traits {base : String} {h : HttpDef} {sh : Shape} (hs : actionShape base h = .ok sh) : OpTraits base h sh := by
  have h0 := opStart_traits base h
  unfold actionShape at hs
  cases hp : mget h.annotations "x_paginated" with
  | none =>
    rw [hp] at hs
    injection hs with hs
    rw [← hs]
    exact opTraits_method h0
  | some v =>
    rw [hp] at hs
    simp only [Out.bind_eq_ok] at hs
    obtain ⟨pv, _, s1, hs1, hs⟩ := hs
    injection hs1 with hs1
    injection hs with hs
    rw [← hs, ← hs1]
    apply opTraits_method
    refine ⟨h0.type, h0.input, h0.output, ?_, ?_, ?_, ?_⟩
    · have := h0.doc
      unfold opStart at this
      simp only [Shape.put, mget_mset, if_neg (by decide : ¬ "smithy.api#documentation" = "smithy.api#paginated")]
      exact this
    · have := h0.http
      unfold opStart at this
      simp only [Shape.put, mget_mset, if_neg (by decide : ¬ "smithy.api#http" = "smithy.api#paginated")]
      exact this
    · intro k hk
      simp only [Shape.put, mem_keys_mset] at hk
      rcases hk with rfl | hk
      · exact .inr (by decide)
      · exact h0.keys k hk
    · intro e
      rw [hp] at e
      exact absurd e (by simp)

/-! ### Parameters -/

theorem paramMembers_fresh (f : HttpParamSpec → Member) (ps : List HttpParamSpec) (ms : GoMap Member)
    (h : (ms.map Prod.fst ++ ps.map (·.field.name)).Nodup) :
    paramMembers f ps ms = ms ++ ps.map fun p => (p.field.name, f p) := by
  induction ps generalizing ms with
  | nil => simp [paramMembers]
  | cons p r ih =>
    have e : paramMembers f (p :: r) ms = paramMembers f r (mset ms p.field.name (f p)) := rfl
    have h' : (ms.map Prod.fst ++ ((p.field.name, f p) :: r.map fun p => (p.field.name, f p)).map Prod.fst).Nodup := by
      simpa [List.map_map, Function.comp_def] using h
    obtain ⟨h1, h2⟩ := append_fresh _ h'
    rw [e, h1, ih]
    · simp
    · simpa [List.map_map, Function.comp_def] using h2

theorem inputMember_arrives (T : Transport) (ns : String) (p : HttpParamSpec) : T.member (inputMember ns p) = inputMember ns p := by
  unfold inputMember Transport.member
  simp only []
  split_ifs <;> simp [Member.put, mset, Transport.traits, T.bool, T.str]

theorem outputMember_arrives (T : Transport) (ns : String) (p : HttpParamSpec) : T.member (outputMember ns p) = outputMember ns p := by
  unfold outputMember Transport.member
  simp only []
  split_ifs <;> simp [Member.put, mset, Transport.traits, T.bool, T.str]

theorem input_traits (lib : SLib) (ns : String) (p : HttpParamSpec) :
    (inputMember ns p).target = typeReferenceByName ns p.field.ts.type ∧
    (inputMember ns p).traits.bool lib "smithy.api#httpLabel" = p.path ∧
    (inputMember ns p).traits.bool lib "smithy.api#required" = p.path ∧
    (inputMember ns p).traits.str "smithy.api#httpQuery" = (if p.path then "" else p.query) ∧
    (inputMember ns p).traits.str "smithy.api#httpHeader" = (if p.path ∨ p.query ≠ "" then "" else p.header) ∧
    (inputMember ns p).traits.bool lib "smithy.api#httpPayload" = (!p.path && p.query == "" && p.header == "") ∧
    (inputMember ns p).traits.bool lib "smithy.api#httpQuery" = (!p.path && p.query != "" && lib.truth (.str p.query)) := by
  unfold inputMember
  by_cases h1 : p.path = true
  · simp [h1, Member.put, mset, Traits.bool, Traits.str, mget]
  · simp only [Bool.not_eq_true] at h1
    by_cases h2 : p.query = ""
    · by_cases h3 : p.header = ""
      · simp [h1, h2, h3, Member.put, mset, Traits.bool, Traits.str, mget]
      · simp [h1, h2, h3, Member.put, mset, Traits.bool, Traits.str, mget, asString]
    · simp [h1, h2, Member.put, mset, Traits.bool, Traits.str, mget, asString]

theorem output_traits (lib : SLib) (ns : String) (p : HttpParamSpec) :
    (outputMember ns p).target = typeReferenceByName ns p.field.ts.type ∧
    (outputMember ns p).traits.bool lib "smithy.api#httpLabel" = false ∧
    (outputMember ns p).traits.bool lib "smithy.api#required" = false ∧
    (outputMember ns p).traits.str "smithy.api#httpQuery" = "" ∧
    (outputMember ns p).traits.str "smithy.api#httpHeader" = p.header ∧
    (outputMember ns p).traits.bool lib "smithy.api#httpPayload" = (p.header == "") := by
  unfold outputMember
  by_cases h3 : p.header = ""
  · simp [h3, Member.put, mset, Traits.bool, Traits.str, mget]
  · simp [h3, Member.put, mset, Traits.bool, Traits.str, mget, asString]

theorem input_back (lib : SLib) (ns : String) (hns : '#' ∉ ns.toList) (hs : ns ≠ "smithy.api") (p : HttpParamSpec)
    (ht : ParamTypeKept p) (h1 : p.path = true → p.query = "" ∧ p.header = "") (h2 : p.query ≠ "" → p.header = "") :
    SameParam p (importInput lib (p.field.name, inputMember ns p)) := by
  obtain ⟨t, hk, e⟩ := ht
  obtain ⟨a1, a2, a3, a4, a5, _, _⟩ := input_traits lib ns p
  have hty : p.field.ts.type = t := by rw [e]
  unfold SameParam importInput
  simp only [a1, a2, a3, a4, a5, hty, refKept ns t hns hs hk, e]
  by_cases hp : p.path = true
  · simp [hp, h1 hp]
  · by_cases hq : p.query = ""
    · simp [hp, hq]
    · simp [hp, hq, h2 hq]

theorem output_back (lib : SLib) (ns : String) (hns : '#' ∉ ns.toList) (hs : ns ≠ "smithy.api") (p : HttpParamSpec)
    (ht : ParamTypeKept p) (h1 : p.path = false) (h2 : p.query = "") :
    SameParam p (importOutput lib (p.field.name, outputMember ns p)) := by
  obtain ⟨t, hk, e⟩ := ht
  obtain ⟨a1, a2, a3, a4, a5, _⟩ := output_traits lib ns p
  have hty : p.field.ts.type = t := by rw [e]
  unfold SameParam importOutput importInput
  simp only [a1, a2, a3, a4, a5, hty, refKept ns t hns hs hk, e, h1, h2]

/-- One parameter of the query string. -/
def queryItem (p : HttpParamSpec) : String := p.field.name ++ "={" ++ p.field.name ++ "}"

theorem queryString_more (ns : String) (ps : List HttpParamSpec) (h : ∀ p ∈ ps, p.path = true → p.query = "") (qs : String) (hq : qs ≠ "") :
    queryString (ps.map fun p => (p.field.name, inputMember ns p)) qs =
      (ps.filter (·.query ≠ "")).foldl (fun q p => q ++ "&" ++ p.field.name ++ "={" ++ p.field.name ++ "}") qs := by
  induction ps generalizing qs with
  | nil => rfl
  | cons p r ih =>
    have ih := fun qs => ih (fun p hp => h p (by simp [hp])) qs
    have hs : (inputMember ns p).traits.str "smithy.api#httpQuery" = p.query := by
      rw [(input_traits ⟨fun _ => false, fun _ => 0, fun _ => "", 0⟩ ns p).2.2.2.1]
      by_cases hp : p.path = true
      · simp [hp, h p (by simp) hp]
      · simp [hp]
    simp only [List.map_cons, queryString, hs]
    by_cases hpq : p.query = ""
    · rw [if_neg (by simp [hpq]), ih qs hq]
      simp [hpq]
    · rw [if_pos hpq, if_neg hq, ih]
      · simp [hpq]
      · intro e
        have := congrArg String.toList e
        simp at this

theorem queryString_text (ns : String) (ps : List HttpParamSpec) (h : ∀ p ∈ ps, p.path = true → p.query = "") :
    queryString (ps.map fun p => (p.field.name, inputMember ns p)) "" = QueryText ps := by
  induction ps with
  | nil => rfl
  | cons p r ih =>
    have ih := ih (fun p hp => h p (by simp [hp]))
    have hs : (inputMember ns p).traits.str "smithy.api#httpQuery" = p.query := by
      rw [(input_traits ⟨fun _ => false, fun _ => 0, fun _ => "", 0⟩ ns p).2.2.2.1]
      by_cases hp : p.path = true
      · simp [hp, h p (by simp) hp]
      · simp [hp]
    simp only [List.map_cons, queryString, hs]
    by_cases hpq : p.query = ""
    · rw [if_neg (by simp [hpq]), ih]
      simp [QueryText, hpq]
    · rw [if_pos hpq, if_pos trivial, queryString_more ns r (fun p hp => h p (by simp [hp]))]
      · simp [QueryText, hpq]
      · intro e
        have := congrArg String.toList e
        simp at this

/-! ### The path -/

theorem splitFirst_none_of {c : Char} {l : List Char} (h : c ∉ l) : splitFirst c l = none := by
  induction l with
  | nil => rfl
  | cons a r ih =>
    simp only [List.mem_cons, not_or] at h
    simp [splitFirst, Ne.symm h.1, ih h.2]

theorem splitFirst_some_of {c : Char} {a : List Char} (b : List Char) (h : c ∉ a) : splitFirst c (a ++ c :: b) = some (a, b) := by
  induction a with
  | nil => simp [splitFirst]
  | cons x r ih =>
    simp only [List.mem_cons, not_or] at h
    simp [splitFirst, Ne.symm h.1, ih h.2]

theorem queryText_start (ps : List HttpParamSpec) : QueryText ps = "" ∨ ∃ r, (QueryText ps).toList = '?' :: r := by
  have key : ∀ (l : List HttpParamSpec) (q : String), (∃ r, q.toList = '?' :: r) →
      ∃ r, (l.foldl (fun q p => q ++ "&" ++ p.field.name ++ "={" ++ p.field.name ++ "}") q).toList = '?' :: r := by
    intro l
    induction l with
    | nil => exact fun q h => h
    | cons p r ih =>
      rintro q ⟨t, ht⟩
      exact ih _ ⟨_, by simp only [String.toList_append, ht, List.cons_append]; rfl⟩
  unfold QueryText
  split
  · exact .inl rfl
  · exact .inr (key _ _ ⟨_, by simp only [String.toList_append]; rfl⟩)

theorem actionUri_back (base uri : String) (h : HttpDef) (hu : '?' ∉ (base ++ uri).toList) (hp : h.path = uri ++ QueryText h.inputs) :
    actionUri base h = base ++ uri := by
  have e : (if base ≠ "" then base ++ h.path else h.path) = base ++ h.path := by
    by_cases hb : base = ""
    · simp [hb]
    · simp [hb]
  unfold actionUri
  simp only [e]
  rcases queryText_start h.inputs with hq | ⟨r, hq⟩
  · have : (base ++ h.path) = (base ++ uri) := by simp [hp, hq]
    rw [this, splitFirst_none_of hu]
  · have : (base ++ h.path).toList = (base ++ uri).toList ++ '?' :: r := by
      simp [String.toList_append, hq, hp]
    rw [this, splitFirst_some_of _ hu]
    simp

/-! ### Names -/

theorem charUpper (c : Char) (h : c.toNat < 128) : c.toUpper.toLower.toUpper = c.toUpper ∧ c.toUpper.toNat < 128 ∧ c.toUpper.toLower.toNat < 128 := by
  have key : ∀ n : Fin 128, (Char.ofNat n).toUpper.toLower.toUpper = (Char.ofNat n).toUpper ∧ (Char.ofNat n).toUpper.toNat < 128 ∧
      (Char.ofNat n).toUpper.toLower.toNat < 128 := by decide +kernel
  have := key ⟨c.toNat, h⟩
  rwa [Char.ofNat_toNat] at this

/-- A name that begins like a shape name. -/
def Capital (s : String) : Prop := capitalize s = s

theorem capitalize_again (s : String) : capitalize (capitalize s) = capitalize s := by
  unfold capitalize
  rw [String.toList_ofList]
  cases s.toList with
  | nil => rfl
  | cons c r =>
    by_cases h : c.toNat < 128
    · have h2 := (charUpper c h).2.1
      have h3 : c.toUpper.toUpper = c.toUpper := by
        have key : ∀ n : Fin 128, (Char.ofNat n).toUpper.toUpper = (Char.ofNat n).toUpper := by decide +kernel
        have := key ⟨c.toNat, h⟩
        rwa [Char.ofNat_toNat] at this
      simp [capitalizeL, h, h2, h3]
    · simp [capitalizeL, h]

theorem capitalize_uncapitalize (s : String) (h : Capital s) : capitalize (uncapitalize s) = s := by
  unfold Capital at h
  have hl : capitalizeL s.toList = s.toList := by
    unfold capitalize at h
    have := congrArg String.toList h
    rwa [String.toList_ofList] at this
  unfold capitalize uncapitalize
  rw [String.toList_ofList]
  have : capitalizeL (uncapitalizeL s.toList) = s.toList := by
    cases hs : s.toList with
    | nil => rfl
    | cons c r =>
      rw [hs] at hl
      by_cases hc : c.toNat < 128
      · simp only [capitalizeL, hc, if_true, List.cons.injEq, and_true] at hl
        have h2 := charUpper c hc
        rw [hl] at h2
        simp [uncapitalizeL, capitalizeL, hc, h2.1, h2.2.2]
      · simp [uncapitalizeL, capitalizeL, hc]
  rw [this, String.ofList_toList]

theorem capital_append (a b : String) (ha : a ≠ "") (h : Capital a) : Capital (a ++ b) := by
  unfold Capital capitalize at *
  have hl := congrArg String.toList h
  rw [String.toList_ofList] at hl
  have hne : a.toList ≠ [] := fun e => ha (String.toList_inj.1 (by rw [e]; rfl))
  rw [String.toList_append]
  cases hs : a.toList with
  | nil => exact absurd hs hne
  | cons c r =>
    rw [hs] at hl
    simp only [capitalizeL, List.cons.injEq, and_true] at hl
    simp only [List.cons_append, capitalizeL, hl]
    apply String.toList_inj.1
    simp [String.toList_append, hs]

theorem capital_opName (h : HttpDef) : Capital (OpName h) := by
  unfold OpName
  split
  · by_cases hm : capitalize (lowerAscii h.method) = ""
    · rw [hm]; unfold Capital; decide
    · exact capital_append _ _ hm (capitalize_again _)
  · exact capitalize_again _

theorem uncapitalize_capitalize (n : String) (h : LowerName n) : uncapitalize (capitalize n) = n := by
  unfold uncapitalize capitalize
  rw [String.toList_ofList]
  have : uncapitalizeL (capitalizeL n.toList) = n.toList := by
    cases hs : n.toList with
    | nil => rfl
    | cons c r =>
      have hc := h c r hs
      by_cases h1 : c.toNat < 128
      · have key : ∀ k : Fin 128, ¬ ('A' ≤ Char.ofNat k ∧ Char.ofNat k ≤ 'Z') → (Char.ofNat k).toUpper.toLower = Char.ofNat k ∧
            (Char.ofNat k).toUpper.toNat < 128 := by decide +kernel
        have := key ⟨c.toNat, h1⟩
        rw [show (⟨c.toNat, h1⟩ : Fin 128).val = c.toNat from rfl, Char.ofNat_toNat] at this
        simp [capitalizeL, uncapitalizeL, h1, this hc]
      · simp [capitalizeL, uncapitalizeL, h1]
  rw [this, String.ofList_toList]

theorem toInt32_id (n : Int) (h1 : -2 ^ 31 ≤ n) (h2 : n < 2 ^ 31) : toInt32 n = n := by
  unfold toInt32
  simp only []
  split <;> omega

/-! ### Exceptions -/

theorem marks_status (ns : String) (xs : List HttpExceptionSpec) (t : String) (st : Int) (sh : Shape) (hx : ∃ x ∈ xs, x.type = t)
    (hu : ∀ x ∈ xs, x.type = t → x.status = st) : mget (marks ns xs (q ns t) sh).traits "smithy.api#httpError" = some (.int st) := by
  have keep : ∀ (xs : List HttpExceptionSpec) (sh : Shape), (∀ x ∈ xs, x.type = t → x.status = st) →
      mget sh.traits "smithy.api#httpError" = some (.int st) →
      mget (marks ns xs (q ns t) sh).traits "smithy.api#httpError" = some (.int st) := by
    intro xs
    induction xs with
    | nil => exact fun sh _ h => h
    | cons x r ih =>
      intro sh hu h
      have e : marks ns (x :: r) (q ns t) sh = marks ns r (q ns t) (if q ns t = q ns x.type then markError x sh else sh) := rfl
      rw [e]
      refine ih _ (fun y hy => hu y (by simp [hy])) ?_
      split
      · next he =>
        have := hu x (by simp) (q_inj.1 he).symm
        unfold markError
        simp only []
        split <;> simp [Shape.put, mget_mset, this]
      · exact h
  induction xs generalizing sh with
  | nil => obtain ⟨x, hx, _⟩ := hx; simp at hx
  | cons x r ih =>
    have e : marks ns (x :: r) (q ns t) sh = marks ns r (q ns t) (if q ns t = q ns x.type then markError x sh else sh) := rfl
    rw [e]
    by_cases he : x.type = t
    · refine keep _ _ (fun y hy => hu y (by simp [hy])) ?_
      rw [if_pos (by rw [he])]
      have := hu x (by simp) he
      unfold markError
      simp only []
      split <;> simp [Shape.put, mget_mset, this]
    · refine ih _ ?_ (fun y hy => hu y (by simp [hy]))
      obtain ⟨y, hy, hyt⟩ := hx
      rcases List.mem_cons.1 hy with rfl | hy
      · exact absurd hyt he
      · exact ⟨y, hy, hyt⟩

end Smithy
end Sadl
