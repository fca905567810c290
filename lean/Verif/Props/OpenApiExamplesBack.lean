import Verif.Props.OpenApiExamples
import Verif.Props.SwaggerExamples
/-
C123: the examples of types after the export to OpenAPI and the import from it.
-/
namespace Sadl.Props
open Sadl Sadl.Spec

theorem silent_plain {s : OSchema} (h : s.example = .null) (hi : s.items = none) (hp : s.properties = none) : Silent s :=
  silent_of h (fun i h' => by rw [hi] at h'; cases h') (fun ps f p h' => by rw [hp] at h'; cases h')

theorem oasProps_silent {conv : TypeSpec → Ran OSchema} (hc : ∀ ts s, conv ts = .ok s → Silent s) :
    ∀ {fds : List StructFieldDef} {acc ps : GoMap OSchema}, oasProps conv fds acc = .ok ps → (∀ f p, (f, p) ∈ acc → Silent p) → ∀ f p, (f, p) ∈ ps → Silent p
  | [], acc, ps, h, ha => by cases h; exact ha
  | fd :: rest, acc, ps, h, ha => by
    unfold oasProps at h
    obtain ⟨s, h1, h⟩ := Ran.bind_eq_ok.1 h
    refine oasProps_silent hc h fun f p hm => ?_
    rcases mem_mset_or hm with ⟨_, rfl⟩ | hm
    · exact hc _ _ h1
    · exact ha f p hm

theorem oasSchema_silent {lib : OLib} {m : Model} : ∀ {n : Nat} {ts : TypeSpec} {name : String} {s : OSchema}, oasSchemaN n lib m ts name = .ok s → Silent s
  | 0, ts, name, s, h => by cases h
  | n + 1, ts, name, s, h => by
    unfold oasSchemaN oasSchemaStep at h
    have leaf : ∀ {s0 : OSchema}, (Ran.ok s0 = Ran.ok s) → s0.example = .null → s0.items = none → s0.properties = none → Silent s := by
      intro s0 e h1 h2 h3; cases e; exact silent_plain h1 h2 h3
    rcases ite_ok h with h | h
    · exact leaf h rfl rfl rfl
    rcases ite_ok h with h | h
    · rcases ite_ok h with h | h
      · cases h
      · exact leaf h rfl rfl rfl
    rcases ite_ok h with h | h
    · exact leaf h rfl rfl rfl
    rcases ite_ok h with h | h
    · exact leaf h rfl rfl rfl
    rcases ite_ok h with h | h
    · exact leaf h rfl rfl rfl
    rcases ite_ok h with h | h
    · exact leaf h rfl rfl rfl
    rcases ite_ok h with h | h
    · exact leaf h rfl rfl rfl
    rcases ite_ok h with h | h
    · exact leaf h rfl rfl rfl
    rcases ite_ok h with h | h
    · split at h
      · cases h
      · obtain ⟨i, h1, h⟩ := Ran.bind_eq_ok.1 h
        cases h
        exact silent_of rfl (fun i' h' => by cases h'; exact oasSchema_silent h1) (fun ps f p h' => by cases h')
    rcases ite_ok h with h | h
    · split at h
      · cases h
      · obtain ⟨i, h1, h⟩ := Ran.bind_eq_ok.1 h
        exact leaf h rfl rfl rfl
    rcases ite_ok h with h | h
    · rcases ite_ok h with h | h
      · exact leaf h rfl rfl rfl
      · obtain ⟨ps, h1, h⟩ := Ran.bind_eq_ok.1 h
        cases h
        refine silent_of rfl (fun i' h' => by cases h') (fun ps' f p h' hm => ?_)
        cases h'
        exact oasProps_silent (fun ts s h => oasSchema_silent h) h1 (fun f p hm => by cases hm) f p hm
    · exact leaf h rfl rfl rfl

theorem exportString_plain {n : Nat} {lib : OLib} {m : Model} {td : TypeDef} {s : OSchema} (ht : td.ts.type ∈ ["String", "UUID", "Timestamp"])
    (h : exportString (oasSchemaN n lib m) td = .ok s) : s.ref = "" ∧ Silent s := by
  obtain ⟨s1, h1, h⟩ := Ran.bind_eq_ok.1 h
  have hq : s1.ref = "" ∧ s1.items = none ∧ s1.properties = none ∧ s1.example = .null := by
    cases n with
    | zero => cases h1
    | succ n =>
      unfold oasSchemaN oasSchemaStep at h1
      simp only [List.mem_cons, List.not_mem_nil, or_false] at ht
      rcases ht with ht | ht | ht <;> (rw [ht] at h1; simp at h1; subst h1; exact ⟨rfl, rfl, rfl, rfl⟩)
  cases h
  exact ⟨hq.1, silent_plain hq.2.2.2 hq.2.1 hq.2.2.1⟩

/-- The schema of a type is no reference, and gives no example before the examples are added. -/
theorem exportTypeDef_silent {n : Nat} {lib : OLib} {m : Model} {td : TypeDef} {s : OSchema} (h : exportTypeDefN n lib m td = .ok s) :
    s.ref = "" ∧ Silent s := by
  unfold exportTypeDefN at h
  simp only at h
  split_ifs at h with c1 c2 c3 c4 c5 c6 c7 c8 c9 c10
  · obtain ⟨ps, h1, h⟩ := Ran.bind_eq_ok.1 h
    cases h
    refine ⟨rfl, silent_of rfl (fun i' h' => by cases h') (fun ps' f p h' hm => ?_)⟩
    cases h'
    exact oasProps_silent (fun ts s h => oasSchema_silent h) h1 (fun f p hm => by cases hm) f p hm
  · unfold exportArray at h
    split at h
    · cases h
    · obtain ⟨i, h1, h⟩ := Ran.bind_eq_ok.1 h
      cases h
      exact ⟨rfl, silent_of rfl (fun i' h' => by cases h'; exact oasSchema_silent h1) (fun ps f p h' => by cases h')⟩
  · unfold exportMap at h
    split at h
    · cases h
    · obtain ⟨i, h1, h⟩ := Ran.bind_eq_ok.1 h
      cases h
      exact ⟨rfl, silent_plain rfl rfl rfl⟩
  · exact exportString_plain (by rw [c4]; decide) h
  · cases h; exact ⟨rfl, silent_plain rfl rfl rfl⟩
  · cases h; exact ⟨rfl, silent_plain rfl rfl rfl⟩
  · cases h; exact ⟨rfl, silent_plain rfl rfl rfl⟩
  · obtain ⟨s1, h1, h⟩ := Ran.bind_eq_ok.1 h
    cases h
    obtain ⟨a, b⟩ := exportString_plain (by rw [c8]; decide) h1
    refine ⟨a, fun name ex hg => b name ex ?_⟩
    cases hg with
    | own h' => exact .own h'
    | items h1 h2 h3 h4 => exact .items h1 h2 h3 h4
    | property h1 h2 h3 h4 h5 => exact .property h1 h2 h3 h4 h5
  · cases h; exact ⟨rfl, silent_plain rfl rfl rfl⟩
  · obtain ⟨s1, h1, h⟩ := Ran.bind_eq_ok.1 h
    cases h
    obtain ⟨a, b⟩ := exportString_plain (by rw [c10]; decide) h1
    refine ⟨a, fun name ex hg => b name ex ?_⟩
    cases hg with
    | own h' => exact .own h'
    | items h1 h2 h3 h4 => exact .items h1 h2 h3 h4
    | property h1 h2 h3 h4 h5 => exact .property h1 h2 h3 h4 h5

/-- The parts of a response that the import looks at give no examples. -/
def QuietResponse (r : OResponse) : Prop :=
  (∀ n h s, (n, h) ∈ r.headers → h.schema = some s → s.ref = "" → Silent s) ∧
  ∀ s, JsonSchema r.content s → s.ref = "" → Silent s

theorem exportOutputs_quiet {n : Nat} {lib : OLib} {m : Model} : ∀ {ps : List HttpParamSpec} {r r' : OResponse},
    exportOutputs (oasSchemaN n lib m) ps r = .ok r' → QuietResponse r → QuietResponse r'
  | [], r, r', h, hq => by cases h; exact hq
  | p :: rest, r, r', h, hq => by
    unfold exportOutputs at h
    obtain ⟨s, h1, h⟩ := Ran.bind_eq_ok.1 h
    refine exportOutputs_quiet h ?_
    unfold exportOutput
    split_ifs
    · refine ⟨fun n h s' hm hs hr => ?_, hq.2⟩
      rcases mem_mset_or hm with ⟨_, rfl⟩ | hm
      · cases hs; exact oasSchema_silent h1
      · exact hq.1 n h s' hm hs hr
    · refine ⟨hq.1, fun s' hj hr => ?_⟩
      obtain ⟨mt, hg, hs⟩ := hj
      dsimp only at hg
      rw [mget_mset_same] at hg
      cases hg
      cases hs
      exact oasSchema_silent h1

theorem exportExceptions_quiet : ∀ {xs : List HttpExceptionSpec} {rs : GoMap OResponse}, (∀ st r, (st, r) ∈ rs → QuietResponse r) →
    ∀ st r, (st, r) ∈ exportExceptions xs rs → QuietResponse r
  | [], rs, hq => hq
  | x :: rest, rs, hq => by
    unfold exportExceptions
    refine exportExceptions_quiet fun st r hm => ?_
    rcases mem_mset_or hm with ⟨_, rfl⟩ | hm
    · refine ⟨fun n h s hm => (by cases hm), fun s hj hr => ?_⟩
      obtain ⟨mt, hg, hs⟩ := hj
      unfold exportException jsonContent at hg
      simp [mget] at hg
      subst hg
      cases hs
      exact silent_plain rfl rfl rfl
    · exact hq st r hm

theorem exportOp_quiet {n : Nat} {lib : OLib} {m : Model} {h : HttpDef} {op : OOperation} (ho : exportOp (oasSchemaN n lib m) h = .ok op) :
    ∀ st r, (st, r) ∈ op.responses → QuietResponse r := by
  unfold exportOp at ho
  obtain ⟨op1, h1, ho⟩ := Ran.bind_eq_ok.1 ho
  split at ho
  · cases ho
  · obtain ⟨r1, h2, ho⟩ := Ran.bind_eq_ok.1 ho
    cases ho
    refine exportExceptions_quiet fun st r hm => ?_
    rw [List.mem_singleton] at hm
    cases hm
    exact exportOutputs_quiet h2 ⟨fun n h s hm => (by cases hm), fun s ⟨mt, hg, _⟩ => (by cases hg)⟩

theorem quiet_bare {op op' : OOperation} (hb : op'.bare = op.bare) (hq : ∀ st r, (st, r) ∈ op.responses → QuietResponse r) :
    ∀ st r, (st, r) ∈ op'.responses → QuietResponse r := by
  intro st r hm
  have e : bareResponses op'.responses = bareResponses op.responses := congrArg OOperation.responses hb
  have h1 : (st, r.bare) ∈ bareResponses op'.responses := List.mem_map.2 ⟨(st, r), hm, rfl⟩
  rw [e] at h1
  obtain ⟨⟨st0, r0⟩, h2, h3⟩ := List.mem_map.1 h1
  simp only [Prod.mk.injEq] at h3
  obtain ⟨rfl, h3⟩ := h3
  have q := hq _ _ h2
  have hh : r0.headers = r.headers := show r0.bare.headers = r.bare.headers by rw [h3]
  have hc : bareContent r0.content = bareContent r.content := show r0.bare.content = r.bare.content by rw [h3]
  refine ⟨by rw [← hh]; exact q.1, fun s hj hr => q.2 s ?_ hr⟩
  obtain ⟨mt, hg, hs⟩ := hj
  have h4 : mget (bareContent r.content) "application/json" = some mt.bare := by
    unfold bareContent; rw [mget_map, hg]; rfl
  rw [← hc] at h4
  unfold bareContent at h4
  rw [mget_map] at h4
  obtain ⟨mt0, h5, h6⟩ := Option.map_eq_some_iff.1 h4
  refine ⟨mt0, h5, ?_⟩
  have : mt0.bare.schema = mt.bare.schema := by rw [h6]
  exact this.trans hs

/-- C123 (part): after the export to OpenAPI and the import from it, the examples are exactly the last examples of the types that have one, without
their names and comments.  Missing: the other examples, for which it is false, see C110 and C121. -/
theorem C123_back_partial (lib : OLib) (hord : ∀ l, (lib.order l).Perm l) (m : Model) (hm : newModel m.schema = .ok m) (d : ODoc)
    (hd : Exports lib m (.ok d)) (name : String) (m' : Model) (hi : toSadl d name = .ok m') (ex : ExampleDef) :
    ex ∈ m'.schema.examples ↔ ∃ T v, Named m.schema T ∧ T ≠ "" ∧ lastOfType T m.schema.examples = some v ∧ v ≠ .null ∧
      ex = { target := T, «example» := v } := by
  obtain ⟨n, hn⟩ := exports_run hd
  obtain ⟨schemas, paths, h1, h2, h3, h4⟩ := exportOas_ok hord hn
  have hdist : schemas.Distinct := (exportTypes_ok h1).2.2.1 (by simp [GoMap.Distinct])
  have hkeys : d.schemas.map Prod.fst = schemas.map Prod.fst := by
    have := congrArg (List.map Prod.fst) h4.schemas
    simpa [List.map_map, Function.comp_def] using this
  have hdd : d.schemas.Distinct := by unfold GoMap.Distinct at hdist ⊢; rw [hkeys]; exact hdist
  have hcomp : ∀ T c, (T, c) ∈ d.schemas → Named m.schema T ∧ c.ref = "" ∧ ∀ ex, Spec.Gives T c ex → c.example ≠ .null ∧ ex = { target := T, «example» := c.example } := by
    intro T c hc
    have a1 : (T, c.bare) ∈ d.schemas.map (fun e => (e.1, e.2.bare)) := List.mem_map.2 ⟨(T, c), hc, rfl⟩
    rw [h4.schemas] at a1
    obtain ⟨⟨T0, c0⟩, a2, a3⟩ := List.mem_map.1 a1
    simp only [Prod.mk.injEq] at a3
    obtain ⟨rfl, a3⟩ := a3
    rcases (exportTypes_ok h1).2.1 _ _ a2 with a4 | ⟨td, a4, a5, a6⟩
    · cases a4
    obtain ⟨b1, b2⟩ := exportTypeDef_silent a6
    have e1 : c0.ref = c.ref := show c0.bare.ref = c.bare.ref by rw [a3]
    have e2 : c0.items = c.items := show c0.bare.items = c.bare.items by rw [a3]
    have e3 : c0.properties = c.properties := show c0.bare.properties = c.bare.properties by rw [a3]
    have e4 : c0.type = c.type := show c0.bare.type = c.bare.type by rw [a3]
    refine ⟨⟨td, a4, a5⟩, e1 ▸ b1, fun ex hg => ?_⟩
    cases hg with
    | own h' => exact ⟨h', rfl⟩
    | items c1 c2 c3 c4 => exact absurd (Spec.Gives.items (e4 ▸ c1) (e2 ▸ c2) c3 c4) (b2 _ _)
    | property c1 c2 c3 c4 c5 => exact absurd (Spec.Gives.property (e4 ▸ c1) (e3 ▸ c2) c3 c4 c5) (b2 _ _)
  have hex : ∀ T c, (T, c) ∈ d.schemas → c.example = (lastOfType T m.schema.examples).getD .null :=
    fun T c hc => C110_types_partial lib m d hd T c (mget_of_mem hdd hc)
  rw [C121_examples_partial d name m' hi]
  constructor
  · rintro (⟨T, c, b1, b2, -, -, ⟨-, b5⟩ | ⟨b4, -⟩⟩ | ⟨path, pi, op, b1, -, b3, r, b4, b5⟩)
    · obtain ⟨c1, c2, c3⟩ := hcomp T c b1
      obtain ⟨c4, c5⟩ := c3 ex b5
      have c6 := hex T c b1
      cases hl : lastOfType T m.schema.examples with
      | none => rw [hl] at c6; exact absurd c6 c4
      | some v =>
        rw [hl] at c6
        have c7 : c.example = v := c6
        exact ⟨T, v, c1, b2, hl, c7 ▸ c4, by rw [c5, c7]⟩
    · exact absurd (hcomp T c b1).2.1 b4.1
    · exfalso
      have hop : ∃ k, pi.op k = some op := by
        simp only [List.mem_filterMap, List.mem_cons, List.not_mem_nil, or_false, id_eq, exists_eq_right] at b3
        rcases b3 with b3 | b3 | b3 | b3 | b3
        · exact ⟨.get, b3.symm⟩
        · exact ⟨.put, b3.symm⟩
        · exact ⟨.post, b3.symm⟩
        · exact ⟨.delete, b3.symm⟩
        · exact ⟨.head, b3.symm⟩
      obtain ⟨k, hk⟩ := hop
      have hp : pathOp d.paths path k = some op := by unfold pathOp; rw [mget_of_mem h4.distinct b1]; exact hk
      have hb := h4.ops path k
      rw [hp] at hb
      obtain ⟨op0, c1, c2⟩ := Option.map_eq_some_iff.1 hb.symm
      have hq : ∀ st r, (st, r) ∈ op.responses → QuietResponse r := by
        rcases (exportHttp_ok h2).2.2.1 path k op0 c1 with c3 | ⟨a, _, _, _, c3⟩
        · cases k <;> simp [pathOp, mget, OPathItem.op] at c3
        · exact quiet_bare c2.symm (exportOp_quiet c3)
      have hr : ∃ st, (st, r) ∈ op.responses := by
        rcases b4 with ⟨_, st, _, _, _, _, _, hm⟩ | ⟨_, hm⟩
        · exact ⟨st, mget_mem hm⟩
        · exact ⟨_, mget_mem hm⟩
      obtain ⟨st, hr⟩ := hr
      rcases b5 with ⟨nm, hd', s, c3, c4, c5, c6⟩ | ⟨s, c3, c4, c5⟩
      · exact (hq st r hr).1 nm hd' s c3 c4 c5 _ _ c6
      · exact (hq st r hr).2 s c3 c4 _ _ c5
  · rintro ⟨T, v, ⟨td, b1, b2⟩, b3, b4, b5, rfl⟩
    have hk : T ∈ d.schemas.map Prod.fst := by rw [hkeys]; exact ((exportTypes_ok h1).1 T).2 (.inr ⟨td, b1, b2⟩)
    obtain ⟨⟨T0, c⟩, hc, rfl⟩ := List.mem_map.1 hk
    have hb := ((newModel_ok_iff _ _).1 hm).2.1 td b1
    rw [b2] at hb
    have e := hex _ _ hc
    rw [b4] at e
    have e' : c.example = v := e
    refine .inl ⟨_, c, hc, b3, ?_, ?_, .inl ⟨fun hr => hr.1 (hcomp _ _ hc).2.1, ?_⟩⟩
    · intro h; apply hb; rw [h]; show "Decimal" ∈ BaseTypes; decide
    · intro h; exfalso; apply hb; rw [h]; show "Timestamp" ∈ BaseTypes; decide
    · rw [← e']; exact .own (by rw [e']; exact b5)

/-- So examples with a name, and examples of requests and responses, do not come back. -/
theorem C123_refuted_lost (lib : OLib) (hord : ∀ l, (lib.order l).Perm l) (m : Model) (hm : newModel m.schema = .ok m) (d : ODoc)
    (hd : Exports lib m (.ok d)) (name : String) (m' : Model) (hi : toSadl d name = .ok m') (ex : ExampleDef)
    (hl : ex.name ≠ "" ∨ ¬ Named m.schema ex.target) : ex ∉ m'.schema.examples := by
  intro hx
  obtain ⟨T, v, h1, -, -, -, rfl⟩ := (C123_back_partial lib hord m hm d hd name m' hi ex).1 hx
  rcases hl with hl | hl
  · exact hl rfl
  · exact hl h1

/-- The example of a type of the example comes back, and the named one of a response does not. -/
example : ∃ m d m', m.schema = shop ∧ Exports plainO m (.ok d) ∧ toSadl d "x" = .ok m' ∧
    { target := shop.examples[0].target, «example» := shop.examples[0].example } ∈ m'.schema.examples ∧ shop.examples[2] ∉ m'.schema.examples := by
  have h : exportsB plainO shop 5 (fun d => match toSadl d "x" with | .ok _ => true | _ => false) = true := by decide +kernel
  unfold exportsB at h
  split at h
  · next m hm =>
    have hs : m.schema = shop := by obtain ⟨_, _, _, rfl⟩ := (newModel_ok_iff _ _).1 hm; rfl
    split at h
    · next d hd =>
      have hd' : Exports plainO m (.ok d) := ⟨by simp, 5, hd⟩
      cases hi : toSadl d "x" with
      | ok m' =>
        refine ⟨m, d, m', hs, hd', hi, (C123_back_partial plainO (fun _ => .rfl) m (hs ▸ hm) d hd' "x" m' hi _).2 ⟨_, _, ?_, ?_, ?_, ?_, rfl⟩,
          C123_refuted_lost plainO (fun _ => .rfl) m (hs ▸ hm) d hd' "x" m' hi _ (.inl (by decide))⟩
        · rw [hs]; exact shop_named _ (by simp [shop])
        · decide
        · rw [hs]; rfl
        · simp [shop]
      | _ => dsimp only at h; rw [hi] at h; cases h
    · simp at h
  · simp at h

end Sadl.Props
