import Verif.Lemmas.OpenApiBack
import Verif.Spec.OpenApiFile
/-
The document of a schema of kept types and actions can be printed and read.
-/
namespace Sadl
open Spec

theorem toUint64_lt (n : Int) : toUint64 n < 2 ^ 64 := by
  unfold toUint64
  have h1 := Int.emod_nonneg n (show (2 ^ 64 : Int) ≠ 0 by decide)
  have h2 := Int.emod_lt_of_pos n (show (0 : Int) < 2 ^ 64 by decide)
  omega

theorem leaf_ok {L : JLib} {s : OSchema} (n : Nat) (h1 : s.enum = none) (h2 : s.example = .null) (h3 : s.oneOf = []) (h4 : s.items = none)
    (h5 : s.properties = none) (h6 : s.additionalProperties = none) (h7 : ∀ f ∈ s.min, PrintsBack L f) (h8 : ∀ f ∈ s.max, PrintsBack L f)
    (h9 : s.minLength < 2 ^ 64) (h10 : ∀ k ∈ s.maxLength, k < 2 ^ 64) : OSchemaOk L (n + 1) s :=
  .mk (by rw [h1]; simp) (by rw [h2]; exact ⟨.null, .leaf (by simp) (by simp)⟩) h7 h8 h9 h10 (by rw [h5]; simp) (by rw [h3]; simp)
    (by rw [h4]; simp) (by rw [h5]; simp) (by rw [h6]; simp)

theorem oarray_ok {L : JLib} {s i : OSchema} {n : Nat} (hi : OSchemaOk L n i) (h1 : s.enum = none) (h2 : s.example = .null) (h3 : s.oneOf = [])
    (h4 : s.items = some i) (h5 : s.properties = none) (h6 : s.additionalProperties = none) (h7 : s.min = none) (h8 : s.max = none)
    (h9 : s.minLength = 0) (h10 : s.maxLength = none) : OSchemaOk L (n + 1) s :=
  .mk (by rw [h1]; simp) (by rw [h2]; exact ⟨.null, .leaf (by simp) (by simp)⟩) (by rw [h7]; simp) (by rw [h8]; simp) (by rw [h9]; decide)
    (by rw [h10]; simp) (by rw [h5]; simp) (by rw [h3]; simp) (by rw [h4]; intro t ht; cases ht; exact hi) (by rw [h5]; simp) (by rw [h6]; simp)

theorem ref_ok (L : JLib) (n : Nat) (ref : String) : OSchemaOk L (n + 1) { ref := ref } :=
  leaf_ok n rfl rfl rfl rfl rfl rfl (by simp) (by simp) (show (0 : Nat) < 2 ^ 64 by decide) (by simp)

theorem ostring_ok (L : JLib) (n : Nat) (ts : TypeSpec) : OSchemaOk L (n + 1) (oasString ts) := by
  refine leaf_ok n rfl rfl rfl rfl rfl rfl (by simp [oasString]) (by simp [oasString]) ?_ ?_
  · unfold oasString
    dsimp only
    split
    · exact toUint64_lt _
    · decide
  · unfold oasString
    dsimp only
    intro k hk
    cases hx : ts.maxSize with
    | none => rw [hx] at hk; cases hk
    | some x => rw [hx] at hk; cases hk; exact toUint64_lt x

theorem numeric_ok {L : JLib} {lib : OLib} (n : Nat) {ts : TypeSpec} (hk : BoundsKept lib ts.min ts.max) (hb : BoundsPrint L ts) :
    OSchemaOk L (n + 1) (oasNumeric lib ts) := by
  refine leaf_ok n rfl rfl rfl rfl rfl rfl ?_ ?_ (show (0 : Nat) < 2 ^ 64 by decide) (by simp [oasNumeric])
  · show ∀ f ∈ ts.min.map lib.asFloat64, PrintsBack L f
    intro f hf
    obtain ⟨b, h1, rfl⟩ := Option.mem_map.1 hf
    rw [hk.1 b h1]
    exact hb.1 b h1
  · show ∀ f ∈ ts.max.map lib.asFloat64, PrintsBack L f
    intro f hf
    obtain ⟨b, h1, rfl⟩ := Option.mem_map.1 hf
    rw [hk.2 b h1]
    exact hb.2 b h1

section
variable {s : Schema} {m : Model} (hm : newModel s = .ok m) {lib : OLib} (L : JLib)
include hm

theorem oitem_ok {n : Nat} {items : String} {itd : TypeDef} {sc : OSchema} (k : Nat) (hk : ItemKept s items) (hf : m.findType items = some itd)
    (h : oasSchemaN n lib m itd.ts items = .ok sc) : OSchemaOk L (k + 1) sc := by
  cases n with
  | zero => simp [oasSchemaN] at h
  | succ n =>
    obtain ⟨_, hb, _⟩ := (newModel_ok_iff s m).1 hm
    cases hk with
    | base hn =>
      have hbase : items ∈ BaseTypes := by
        simp only [List.mem_cons, List.not_mem_nil, or_false] at hn
        rcases hn with rfl | rfl | rfl | rfl | rfl | rfl <;> decide
      have hi : itd = baseTypeDef items := by
        rcases (newModel_findType_iff hm items itd).1 hf with ⟨h1, h2⟩ | ⟨_, h2⟩
        · exact absurd (h2 ▸ hbase) (hb itd h1)
        · exact h2
      subst hi
      simp only [List.mem_cons, List.not_mem_nil, or_false] at hn
      rcases hn with rfl | rfl | rfl | rfl | rfl | rfl
      all_goals
        cases h
        refine leaf_ok k rfl rfl rfl rfl rfl rfl (by intro f hf; cases hf) (by intro f hf; cases hf) (show (0 : Nat) < 2 ^ 64 by decide) (by intro f hf; cases hf)
    | @named td htd ht hne =>
      have hi : itd = td := by
        have := (newModel_findType_iff hm td.name td).2 (.inl ⟨htd, rfl⟩)
        rw [hf] at this
        exact Option.some.inj this
      subst hi
      rw [oasSchemaN_succ] at h
      simp only [List.mem_cons, List.not_mem_nil, or_false] at ht
      have : sc = { ref := refPrefix ++ itd.name } := by
        unfold oasSchemaStep at h
        rcases ht with ht | ht
        · simp [ht, hne] at h; exact h.symm
        · simp [ht] at h; exact h.symm
      subst this
      exact ref_ok L k _

theorem arrays_ok {n : Nat} {items : String} {sc : OSchema} (k : Nat) (hi : ItemKept s items)
    (h : oasSchemaN n lib m { type := "Array", items := items } "" = .ok sc) : OSchemaOk L (k + 2) sc := by
  cases n with
  | zero => simp [oasSchemaN] at h
  | succ n =>
    rw [oasSchemaN_succ] at h
    rcases oasStep_cases lib m (oasSchemaN n lib m) { type := "Array", items := items } "" with ⟨ht, e⟩ | ⟨ht, e⟩ | ⟨ht, e⟩ | ⟨ht, e⟩ | ⟨ht, e⟩ | ⟨ht, e⟩ |
      ⟨ht, e⟩ | ⟨ht, e⟩ | ⟨ht, hf, e⟩ | ⟨ht, itd, hf, e⟩ | ⟨ht, hf, e⟩ | ⟨ht, itd, hf, e⟩ | ⟨ht, hn', e⟩ | ⟨ht, hn', e⟩ | ⟨ht, ht', e⟩
    all_goals first | (exfalso; simp [NumTypes] at ht; done) | (exfalso; simp at ht'; done) | skip
    · rw [e] at h; cases h
    · rw [e] at h
      obtain ⟨si, h1, h2⟩ := Ran.bind_eq_ok.1 h
      cases h2
      exact oarray_ok (oitem_ok hm L k hi hf h1) rfl rfl rfl rfl rfl rfl rfl rfl rfl rfl

theorem ofield_ok {n : Nat} {t : TypeSpec} {sc : OSchema} (k : Nat) (hk : FieldKept lib s t) (hb : BoundsPrint L t)
    (h : oasSchemaN n lib m t "" = .ok sc) : OSchemaOk L (k + 2) sc := by
  cases hk with
  | @named td htd hne => rw [named_ref hm htd h]; exact ref_ok L _ _
  | @array items hi => exact arrays_ok hm L k hi h
  | @integer t mn mx ht hbk =>
    cases n with
    | zero => simp [oasSchemaN] at h
    | succ n =>
      simp only [List.mem_cons, List.not_mem_nil, or_false] at ht
      rcases ht with rfl | rfl <;> cases h <;> exact numeric_ok (k + 1) hbk hb
  | bool => cases n with
    | zero => simp [oasSchemaN] at h
    | succ n => cases h; exact leaf_ok _ rfl rfl rfl rfl rfl rfl (by simp) (by simp) (show (0 : Nat) < 2 ^ 64 by decide) (by simp)
  | timestamp => cases n with
    | zero => simp [oasSchemaN] at h
    | succ n => cases h; exact leaf_ok _ rfl rfl rfl rfl rfl rfl (by simp) (by simp) (show (0 : Nat) < 2 ^ 64 by decide) (by simp)
  | string hs => cases n with
    | zero => simp [oasSchemaN] at h
    | succ n => cases h; exact ostring_ok L _ _

theorem oparam_ok {n : Nat} {t : TypeSpec} {sc : OSchema} (k : Nat) (hk : OasParamKept s t) (h : oasSchemaN n lib m t "" = .ok sc) :
    OSchemaOk L (k + 2) sc := by
  cases hk with
  | @named td htd hne => rw [named_ref hm htd h]; exact ref_ok L _ _
  | strings => exact arrays_ok hm L k (.base (by simp)) h
  | @base t ht =>
    cases n with
    | zero => simp [oasSchemaN] at h
    | succ n =>
      simp only [List.mem_cons, List.not_mem_nil, or_false] at ht
      rcases ht with rfl | rfl | rfl | rfl <;> cases h <;>
        exact leaf_ok _ rfl rfl rfl rfl rfl rfl (by intro f hf; cases hf) (by intro f hf; cases hf) (show (0 : Nat) < 2 ^ 64 by decide) (by intro f hf; cases hf)

theorem otype_ok {n : Nat} {td : TypeDef} {sc : OSchema} (k : Nat) (hk : TypeKept lib s td.ts) (hb : BoundsPrint L td.ts)
    (hbf : ∀ f ∈ td.ts.fields, BoundsPrint L f.ts) (h : exportTypeDefN n lib m td = .ok sc) : OSchemaOk L (k + 3) sc := by
  have strs : ∀ (j : Nat) (vs : List String), ∀ v ∈ vs.map Value.str, JLiteralOk L j v := by
    intro j vs v hv
    obtain ⟨x, _, rfl⟩ := List.mem_map.1 hv
    exact ⟨.str _, .leaf (by simp) (by simp)⟩
  have described : ∀ {s0 : OSchema} (desc form : String) (en : Option (List Value)), OSchemaOk L (k + 3) s0 → (∀ v ∈ en.getD [], JLiteralOk L (k + 2) v) →
      OSchemaOk L (k + 3) { s0 with description := desc, format := form, enum := en } := by
    intro s0 desc form en h0 hen
    cases h0 with
    | mk a1 a2 a3 a4 a5 a6 a7 a8 a9 a10 a11 => exact .mk hen a2 a3 a4 a5 a6 a7 a8 a9 a10 a11
  unfold exportTypeDefN at h
  obtain ⟨tname, comment, annos, ts⟩ := td
  dsimp only at hk h hb hbf
  cases hk with
  | bool =>
    cases h
    exact leaf_ok _ rfl rfl rfl rfl rfl rfl (by simp) (by simp) (show (0 : Nat) < 2 ^ 64 by decide) (by simp)
  | timestamp =>
    obtain ⟨s1, h1, h2⟩ := Ran.bind_eq_ok.1 h
    cases h2
    obtain ⟨k, s0, rfl, h3, rfl⟩ := exportTypeDef_string hm h1
    cases h3
    exact leaf_ok _ rfl rfl rfl rfl rfl rfl (by simp) (by simp) (show (0 : Nat) < 2 ^ 64 by decide) (by simp)
  | uuid =>
    obtain ⟨s1, h1, h2⟩ := Ran.bind_eq_ok.1 h
    cases h2
    obtain ⟨k, s0, rfl, h3, rfl⟩ := exportTypeDef_string hm h1
    cases h3
    exact leaf_ok _ rfl rfl rfl rfl rfl rfl (by simp) (by simp) (show (0 : Nat) < 2 ^ 64 by decide) (by simp)
  | @string p mn mx hs =>
    obtain ⟨j, s0, rfl, h3, rfl⟩ := exportTypeDef_string hm h
    cases h3
    exact described comment _ none (ostring_ok L (k + 2) _) (by simp)
  | @values p mn mx vs hs hv =>
    obtain ⟨j, s0, rfl, h3, rfl⟩ := exportTypeDef_string hm h
    cases h3
    obtain ⟨v, hv1, hv2⟩ := hv
    have hne : vs ≠ [] := by rintro rfl; simp at hv1
    have hen : enumOfValues { type := "String", pattern := p, minSize := mn, maxSize := mx, values := some vs } = some (vs.map .str) := by
      cases vs with
      | nil => exact absurd rfl hne
      | cons a r => rfl
    simp only [hen]
    exact described comment _ (some (vs.map .str)) (ostring_ok L (k + 2) _) (strs _ _)
  | @enum symbols hsym =>
    cases h
    refine .mk ?_ ⟨.null, .leaf (by simp [exportEnum]) (by simp [exportEnum])⟩ (by simp [exportEnum]) (by simp [exportEnum]) (show (0 : Nat) < 2 ^ 64 by decide) (by simp [exportEnum]) (by simp [exportEnum])
      (by simp [exportEnum]) (by simp [exportEnum]) (by simp [exportEnum]) (by simp [exportEnum])
    have := strs (k + 2) symbols
    simp only [exportEnum, List.map_map, Option.getD_some]
    exact this
  | @number t mn mx ht hbk =>
    simp only [List.mem_cons, List.not_mem_nil, or_false] at ht
    rcases ht with rfl | rfl | rfl <;> cases h <;> exact numeric_ok _ hbk hb
  | @array items hi =>
    have h : exportArray m (oasSchemaN n lib m) { name := tname, comment := comment, annotations := annos, ts := { type := "Array", items := items } } = .ok sc := h
    unfold exportArray at h
    dsimp only at h
    split at h
    · cases h
    · next itd hf =>
      obtain ⟨si, h1, h2⟩ := Ran.bind_eq_ok.1 h
      cases h2
      exact oarray_ok (oitem_ok hm L (k + 1) hi hf h1) rfl rfl rfl rfl rfl rfl rfl rfl rfl rfl
  | @struct fields hn hf =>
    have h : exportStruct (oasSchemaN n lib m) { name := tname, comment := comment, annotations := annos, ts := { type := "Struct", fields := fields } } = .ok sc := h
    unfold exportStruct at h
    obtain ⟨props, h1, h2⟩ := Ran.bind_eq_ok.1 h
    cases h2
    obtain ⟨l, hl0, h3⟩ := oasProps_list hn (by simp) h1
    rw [List.nil_append] at hl0
    subst hl0
    have hkeys : props.map Prod.fst = fields.map (·.name) := by
      have : ∀ {fs : List StructFieldDef} {l : GoMap OSchema}, List.Forall₂ (fun f e => e.1 = f.name ∧ oasSchemaN n lib m f.ts "" = .ok e.2) fs l →
          l.map Prod.fst = fs.map (·.name) := by
        intro fs l h
        induction h with
        | nil => rfl
        | cons a _ ih => rw [List.map_cons, List.map_cons, ih, a.1]
      exact this h3
    refine .mk (by simp) ⟨.null, .leaf (by simp) (by simp)⟩ (by simp) (by simp) (show (0 : Nat) < 2 ^ 64 by decide) (by simp) ?_ (by simp) (by simp) (fun p hp => ?_) (by simp)
    · rw [Option.getD_some, hkeys]; exact hn
    · rw [Option.getD_some] at hp
      obtain ⟨i, rfl⟩ := List.mem_iff_get.1 hp
      have hlen := h3.length_eq
      obtain ⟨e1, e2⟩ := h3.get (by rw [hlen]; exact i.2) i.2
      exact ofield_ok hm L k (hf _ (List.get_mem _ _)).2.2.2 (hbf _ (List.get_mem _ _)) e2

end

theorem noExamples (L : JLib) (n : Nat) : ExamplesOk L n .null [] := ⟨⟨.null, .leaf (by simp) (by simp)⟩, by simp, by simp⟩

theorem jsonContent_ok {L : JLib} {n : Nat} {s : OSchema} (h : OSchemaOk L n s) : OContentOk L n (jsonContent s) := by
  refine ⟨by simp [jsonContent], fun e he => ?_⟩
  simp only [jsonContent, List.mem_cons, List.not_mem_nil, or_false] at he
  subst he
  exact ⟨fun t ht => by cases ht; exact h, noExamples L n⟩

theorem exportInputs_okay {L : JLib} {n : Nat} {conv : TypeSpec → String → Ran OSchema} {ps : List HttpParamSpec} {op op' : OOperation}
    (hc : ∀ p ∈ ps, ∀ s, conv p.field.ts "" = .ok s → OSchemaOk L n s) (hop : OOperationOk L n op) (h : exportInputs conv ps op = .ok op') :
    OOperationOk L n op' := by
  induction ps generalizing op with
  | nil => cases h; exact hop
  | cons p r ih =>
    unfold exportInputs at h
    obtain ⟨s, h1, h2⟩ := Ran.bind_eq_ok.1 h
    refine ih (fun q hq => hc q (by simp [hq])) ?_ h2
    have hs := hc p (by simp) s h1
    have add : ∀ q : OParam, q.schema = some s → q.example = .null → q.examples = [] → OOperationOk L n { op with parameters := op.parameters ++ [q] } := by
      intro q hq hq1 hq2
      refine ⟨fun x hx => ?_, hop.body, hop.keys, hop.responses⟩
      rcases List.mem_append.1 hx with hx | hx
      · exact hop.parameters x hx
      · rw [List.mem_singleton] at hx
        subst hx
        refine ⟨fun t ht => ?_, by rw [hq1, hq2]; exact noExamples L n⟩
        rw [hq] at ht
        cases ht
        exact hs
    unfold exportInput
    dsimp only
    split
    · exact add _ rfl rfl rfl
    · split
      · exact add _ rfl rfl rfl
      · split
        · exact add _ rfl rfl rfl
        · refine ⟨hop.parameters, fun b hb => ?_, hop.keys, hop.responses⟩
          cases hb
          exact jsonContent_ok hs

theorem exportOutputs_okay {L : JLib} {n : Nat} {conv : TypeSpec → String → Ran OSchema} {ps : List HttpParamSpec} {r r' : OResponse}
    (hc : ∀ p ∈ ps, ∀ s, conv p.field.ts "" = .ok s → OSchemaOk L n s) (hr : OResponseOk L n r) (h : exportOutputs conv ps r = .ok r') :
    OResponseOk L n r' := by
  induction ps generalizing r with
  | nil => cases h; exact hr
  | cons p rest ih =>
    unfold exportOutputs at h
    obtain ⟨s, h1, h2⟩ := Ran.bind_eq_ok.1 h
    refine ih (fun q hq => hc q (by simp [hq])) ?_ h2
    have hs := hc p (by simp) s h1
    unfold exportOutput
    split
    · refine ⟨distinct_mset hr.keys _ _, fun e he s' hs' => ?_, hr.content⟩
      rcases mem_mset_or (k' := e.1) (v' := e.2) he with ⟨_, he⟩ | he
      · rw [he] at hs'; cases hs'; exact hs
      · exact hr.headers e he s' hs'
    · refine ⟨hr.keys, hr.headers, distinct_mset hr.content.1 _ _, fun e he => ?_⟩
      rcases mem_mset_or (k' := e.1) (v' := e.2) he with ⟨_, he⟩ | he
      · rw [he]; exact ⟨fun t ht => by cases ht; exact hs, noExamples L n⟩
      · exact hr.content.2 e he

theorem exportExceptions_okay {L : JLib} {n : Nat} {xs : List HttpExceptionSpec} {rs : GoMap OResponse}
    (hd : (rs.map Prod.fst).Nodup) (hr : ∀ e ∈ rs, OResponseOk L (n + 1) e.2) :
    ((exportExceptions xs rs).map Prod.fst).Nodup ∧ ∀ e ∈ exportExceptions xs rs, OResponseOk L (n + 1) e.2 := by
  induction xs generalizing rs with
  | nil => exact ⟨hd, hr⟩
  | cons x rest ih =>
    unfold exportExceptions
    refine ih (distinct_mset hd _ _) fun e he => ?_
    rcases mem_mset_or (k' := e.1) (v' := e.2) he with ⟨_, he⟩ | he
    · rw [he]
      exact ⟨by simp [exportException], by simp [exportException], jsonContent_ok (ref_ok L n _)⟩
    · exact hr e he

section
variable {s : Schema} {m : Model} (hm : newModel s = .ok m) {lib : OLib} (L : JLib)
include hm

theorem exportOp_okay {n : Nat} {a : HttpDef} {op : OOperation} (hk : OasActionKept lib s a)
    (hb : ∀ e ∈ a.expected, ∀ o ∈ e.outputs, BoundsPrint L o.field.ts) (h : exportOp (oasSchemaN n lib m) a = .ok op) :
    OOperationOk L 3 op := by
  unfold exportOp at h
  obtain ⟨op1, h1, h⟩ := Ran.bind_eq_ok.1 h
  obtain ⟨uri, _, _, _, hin⟩ := hk.uri
  obtain ⟨e, he, _, _, hout, _⟩ := hk.expected
  rw [he] at h
  dsimp only at h
  obtain ⟨r, h2, h⟩ := Ran.bind_eq_ok.1 h
  cases h
  have a1 : OOperationOk L 3 op1 := by
    refine exportInputs_okay (fun p hp sc hsc => ?_) ⟨by simp, by simp, by simp, by simp⟩ h1
    have hp' := hin p hp
    cases hbi : BodyInput p with
    | false => exact oparam_ok hm L 1 (hp'.type hbi) hsc
    | true =>
      obtain ⟨_, _, td, htd, hne, hts⟩ := hp'.body hbi
      rw [hts] at hsc
      rw [named_ref hm htd hsc]
      exact ref_ok L 2 _
  have a2 : OResponseOk L 3 r :=
    exportOutputs_okay (fun p hp sc hsc => ofield_ok hm L 1 (hout p hp).type (hb e he p hp) hsc) ⟨by simp, by simp, by simp, by simp⟩ h2
  obtain ⟨x1, x2⟩ := exportExceptions_okay (L := L) (n := 2) (xs := a.exceptions) (rs := [(sprintInt e.status, r)]) (by simp) (by
    intro x hx
    rw [List.mem_singleton] at hx
    subst hx
    exact a2)
  exact ⟨a1.parameters, a1.body, x1, x2⟩

/-- The document of a schema of kept types and actions without examples, whose bounds can be printed. -/
theorem kept_document {n : Nat} {d : ODoc} (hd : exportOasN n lib m = .ok d) (hex : s.examples = [])
    (hk : ∀ td ∈ s.types, td.name ≠ "" ∧ TypeKept lib s td.ts) (hh : ∀ h ∈ s.http, OasActionKept lib s h) (hb : SchemaBoundsPrint L s) :
    ODocOk L 3 d := by
  have hsch : m.schema = s := by obtain ⟨_, _, _, rfl⟩ := (newModel_ok_iff s m).1 hm; rfl
  obtain ⟨hnd, _, _⟩ := (newModel_ok_iff s m).1 hm
  unfold exportOasN at hd
  obtain ⟨schemas, h1, hd⟩ := Ran.bind_eq_ok.1 hd
  obtain ⟨paths, h2, hd⟩ := Ran.bind_eq_ok.1 hd
  rw [hsch, hex] at hd
  cases hd
  rw [hsch] at h1 h2
  obtain ⟨l0, h5, h6⟩ := exportTypes_list hm hnd (by simp) h1
  rw [List.nil_append] at h5
  subst h5
  obtain ⟨_, _, a3, _, _, a6, _⟩ := exportHttp_ok h2
  have hdist : paths.Distinct := a6 (by simp [GoMap.Distinct])
  refine ⟨?_, fun e he => ?_, hdist, fun e he k op hop => ?_⟩
  · have hkeys : schemas.map Prod.fst = s.types.map (·.name) := by
      have : ∀ {tds : List TypeDef} {l : GoMap OSchema}, List.Forall₂ (fun td e => e.1 = td.name ∧ exportTypeDefN n lib m td = .ok e.2) tds l →
          l.map Prod.fst = tds.map (·.name) := by
        intro tds l h
        induction h with
        | nil => rfl
        | cons a _ ih => rw [List.map_cons, List.map_cons, ih, a.1]
      exact this h6
    show (schemas.map Prod.fst).Nodup
    rw [hkeys]
    exact hnd
  · obtain ⟨i, rfl⟩ := List.mem_iff_get.1 he
    obtain ⟨e1, e2⟩ := h6.get (by rw [h6.length_eq]; exact i.2) i.2
    have htd := List.get_mem s.types ⟨i, by rw [h6.length_eq]; exact i.2⟩
    exact otype_ok hm L 0 (hk _ htd).2 (hb.types _ htd).1 (hb.types _ htd).2 e2
  · have hg : mget paths e.1 = some e.2 := mget_of_mem hdist he
    have hp : pathOp paths e.1 k = some op := by unfold pathOp; rw [hg]; exact hop
    rcases a3 _ _ _ hp with h0 | ⟨a, ha, _, _, hexp⟩
    · cases k <;> cases h0
    · exact exportOp_okay hm L (hh a ha) (hb.outputs a ha) hexp

end

end Sadl
