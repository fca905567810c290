import Verif.Spec.OpenApiGiven
import Verif.Lemmas.OpenApiSafe
/-
The examples that the import of an OpenAPI document records.
-/
namespace Sadl
open Sadl.Spec

theorem mem_ownExample {name : String} {s : OSchema} {ex : ExampleDef} :
    ex ∈ ownExample name s ↔ s.example ≠ .null ∧ ex = { target := name, «example» := s.example } := by
  unfold ownExample
  cases h : s.example <;> simp

theorem convertProps_given {name : String} {required : List String} {P : String × OSchema → ExampleDef → Prop} {ex : ExampleDef} :
    ∀ {ps : List (String × OSchema)} {acc c : Converted}, convertProps name required acc ps = .ok c →
    (∀ f p c', (f, p) ∈ ps → ¬ IsRef p → convertOas (name ++ "." ++ f) p = .ok c' → (ex ∈ c'.examples ↔ P (f, p) ex)) →
    (ex ∈ c.examples ↔ ex ∈ acc.examples ∨ ∃ f p, (f, p) ∈ ps ∧ ¬ IsRef p ∧ P (f, p) ex)
  | [], acc, c, h, _ => by rw [convertProps] at h; cases h; simp
  | (f, p) :: rest, acc, c, h, hP => by
    rw [convertProps] at h
    split at h
    · next acc' ha =>
      rw [convertProps_given h (fun f' p' c' hm => hP f' p' c' (List.mem_cons_of_mem _ hm))]
      rw [convertProp] at ha
      by_cases hr : IsRef p
      · rw [if_pos ((oasTypeRef_ne p).2 hr)] at ha
        cases ha
        dsimp only
        constructor
        · rintro (h1 | ⟨f', p', h1, h2⟩)
          · exact .inl h1
          · exact .inr ⟨f', p', List.mem_cons_of_mem _ h1, h2⟩
        · rintro (h1 | ⟨f', p', h1, h2⟩)
          · exact .inl h1
          · rcases List.mem_cons.1 h1 with h1 | h1
            · cases h1; exact absurd hr h2.1
            · exact .inr ⟨f', p', h1, h2⟩
      · rw [if_neg (fun h => hr ((oasTypeRef_ne p).1 h))] at ha
        split at ha
        · next c' hc =>
          cases ha
          dsimp only
          rw [List.mem_append, hP f p c' List.mem_cons_self hr hc]
          constructor
          · rintro ((h1 | h1) | ⟨f', p', h1, h2⟩)
            · exact .inl h1
            · exact .inr ⟨f, p, List.mem_cons_self, hr, h1⟩
            · exact .inr ⟨f', p', List.mem_cons_of_mem _ h1, h2⟩
          · rintro (h1 | ⟨f', p', h1, h2⟩)
            · exact .inl (.inl h1)
            · rcases List.mem_cons.1 h1 with h1 | h1
              · cases h1; exact .inl (.inr h2.2)
              · exact .inr ⟨f', p', h1, h2⟩
        · cases ha
        · cases ha
    · cases h
    · cases h

theorem gives_iff {name : String} {s : OSchema} {ex : ExampleDef} : Gives name s ex ↔ ex ∈ ownExample name s ∨
    (s.type = "array" ∧ ∃ i, s.items = some i ∧ i.ref = "" ∧ Gives (name ++ ".Items") i ex) ∨
    ((s.type = "" ∨ s.type = "object") ∧ ∃ ps, s.properties = some ps ∧ ∃ f p, (f, p) ∈ ps ∧ ¬ IsRef p ∧ Gives (name ++ "." ++ f) p ex) := by
  constructor
  · intro h
    cases h with
    | own h => exact .inl (mem_ownExample.2 ⟨h, rfl⟩)
    | items h1 h2 h3 h4 => exact .inr (.inl ⟨h1, _, h2, h3, h4⟩)
    | property h1 h2 h3 h4 h5 => exact .inr (.inr ⟨h1, _, h2, _, _, h3, h4, h5⟩)
  · rintro (h | ⟨h1, i, h2, h3, h4⟩ | ⟨h1, ps, h2, f, p, h3, h4, h5⟩)
    · obtain ⟨h1, rfl⟩ := mem_ownExample.1 h; exact .own h1
    · exact .items h1 h2 h3 h4
    · exact .property h1 h2 h3 h4 h5

theorem convertOas_given (k : Nat) : ∀ (s : OSchema), sizeOf s ≤ k → ∀ (name : String) (c : Converted), convertOas name s = .ok c →
    ∀ ex, ex ∈ c.examples ↔ Gives name s ex := by
  induction k with
  | zero => intro s h; cases s; simp at h
  | succ k ih =>
    intro s hs name c h ex
    have hi : ∀ i, s.items = some i → sizeOf i ≤ k := fun i h => by have := sizeOf_items h; omega
    have hp : ∀ ps n p, s.properties = some ps → (n, p) ∈ ps → sizeOf p ≤ k := fun ps n p h h' => by have := sizeOf_prop h h'; omega
    rw [convertOas_eq] at h
    rw [gives_iff]
    have leaf : s.type ≠ "array" → s.type ≠ "" → s.type ≠ "object" → c.examples = ownExample name s → (ex ∈ c.examples ↔
        ex ∈ ownExample name s ∨ (s.type = "array" ∧ ∃ i, s.items = some i ∧ i.ref = "" ∧ Gives (name ++ ".Items") i ex) ∨
        ((s.type = "" ∨ s.type = "object") ∧ ∃ ps, s.properties = some ps ∧ ∃ f p, (f, p) ∈ ps ∧ ¬ IsRef p ∧ Gives (name ++ "." ++ f) p ex)) := by
      intro a1 a2 a3 a4
      rw [a4]
      simp [a1, a2, a3]
    split_ifs at h with h1 h2 h3 h4 h5 h6
    · cases h; exact leaf (by rw [h1]; decide) (by rw [h1]; decide) (by rw [h1]; decide) rfl
    · refine leaf (by rw [h2]; decide) (by rw [h2]; decide) (by rw [h2]; decide) ?_
      split at h <;> (cases h; rfl)
    · have e1 : ¬ (s.type = "" ∨ s.type = "object") := by rw [h3]; decide
      cases hit : s.items with
      | none =>
        rw [hit, convertItems] at h
        cases h
        simp [e1]
      | some i =>
        rw [hit, convertItems] at h
        split_ifs at h with hr
        · cases h
          simp [e1, hr]
        · split at h
          · next c' hc =>
            cases h
            dsimp only
            rw [List.mem_append, ih i (hi i hit) _ c' hc ex]
            have hr' : i.ref = "" := by simpa using hr
            simp [e1, h3, hr']
          · cases h
          · cases h
    · cases h; exact leaf (by rw [h4]; decide) (by rw [h4]; decide) (by rw [h4]; decide) rfl
    · cases h; exact leaf (by rw [h5]; decide) (by rw [h5]; decide) (by rw [h5]; decide) rfl
    · cases hps : s.properties with
      | none =>
        rw [hps, convertProperties] at h
        cases h
        simp [h3]
      | some ps =>
        rw [hps, convertProperties] at h
        rw [convertProps_given (P := fun fp ex => Gives (name ++ "." ++ fp.1) fp.2 ex) h
          (fun f p c' hm hr hc => ih p (hp ps f p hps hm) _ c' hc ex)]
        simp only [h3, h6, false_and, true_and, false_or, Option.some.injEq, exists_eq_left']

theorem convert_given {s : OSchema} {name : String} {c : Converted} (h : convertOas name s = .ok c) (ex : ExampleDef) :
    ex ∈ c.examples ↔ Gives name s ex := convertOas_given _ s le_rfl name c h ex

theorem importHeaders_given {action : String} {ex : ExampleDef} : ∀ {l : GoMap OHeader} {ps : List HttpParamSpec} {exs : List ExampleDef},
    importHeaders action l = .ok (ps, exs) →
    (ex ∈ exs ↔ ∃ n h s, (n, h) ∈ l ∧ h.schema = some s ∧ s.ref = "" ∧ Gives (action ++ ".Expected." ++ headerName n) s ex)
  | [], ps, exs, h => by simp [importHeaders] at h; obtain ⟨rfl, rfl⟩ := h; simp
  | (n, d) :: rest, ps, exs, h => by
    rw [importHeaders] at h
    have step : (∃ n' h s, (n', h) ∈ (n, d) :: rest ∧ h.schema = some s ∧ s.ref = "" ∧ Gives (action ++ ".Expected." ++ headerName n') s ex) ↔
        (∃ s, d.schema = some s ∧ s.ref = "" ∧ Gives (action ++ ".Expected." ++ headerName n) s ex) ∨
        ∃ n' h s, (n', h) ∈ rest ∧ h.schema = some s ∧ s.ref = "" ∧ Gives (action ++ ".Expected." ++ headerName n') s ex := by
      constructor
      · rintro ⟨n', h, s, h1, h2⟩
        rcases List.mem_cons.1 h1 with h1 | h1
        · cases h1; exact .inl ⟨s, h2⟩
        · exact .inr ⟨n', h, s, h1, h2⟩
      · rintro (⟨s, h2⟩ | ⟨n', h, s, h1, h2⟩)
        · exact ⟨n, d, s, List.mem_cons_self, h2⟩
        · exact ⟨n', h, s, List.mem_cons_of_mem _ h1, h2⟩
    rw [step]
    split at h
    · next hn =>
      rw [importHeaders_given h]
      simp [hn]
    · next s hn =>
      obtain ⟨⟨ts, e1⟩, h1, h⟩ := bind_ok_iff.1 h
      obtain ⟨⟨ps', e2⟩, h2, h⟩ := bind_ok_iff.1 h
      cases h
      rw [List.mem_append, importHeaders_given h2]
      have : ex ∈ e1 ↔ s.ref = "" ∧ Gives (action ++ ".Expected." ++ headerName n) s ex := by
        unfold importOutputType at h1
        split_ifs at h1 with hr
        · cases h1; simp [hr]
        · obtain ⟨c, hc, h1⟩ := bind_ok_iff.1 h1
          cases h1
          rw [convert_given hc]
          simp [not_not.1 hr]
      rw [this, hn]
      simp

theorem importResult_given {action : String} {content : GoMap OMedia} {ps : List HttpParamSpec} {exs : List ExampleDef}
    (h : importResult action content = .ok (ps, exs)) (ex : ExampleDef) :
    ex ∈ exs ↔ ∃ s, JsonSchema content s ∧ s.ref = "" ∧ Gives (action ++ ".Expected.payload") s ex := by
  have hj : ∀ s, JsonSchema content s ↔ (mget content "application/json").bind (·.schema) = some s := by
    intro s
    unfold JsonSchema
    rw [Option.bind_eq_some_iff]
  unfold importResult at h
  simp only [hj]
  split at h
  · next hn => cases h; simp [hn]
  · next s hn =>
    obtain ⟨⟨ts, e1⟩, h1, h⟩ := bind_ok_iff.1 h
    cases h
    rw [hn]
    unfold importOutputType at h1
    split_ifs at h1 with hr
    · cases h1; simp [hr]
    · obtain ⟨c, hc, h1⟩ := bind_ok_iff.1 h1
      cases h1
      rw [convert_given hc]
      simp [not_not.1 hr]

theorem expectedStatus_first : ∀ l : GoMap OResponse,
    (∃ pre r0 post, l = pre ++ (expectedStatus l, r0) :: post ∧ (hasPrefix (expectedStatus l) "2" ∨ hasPrefix (expectedStatus l) "3") ∧
      ∀ x ∈ pre, ¬ (hasPrefix x.1 "2" ∨ hasPrefix x.1 "3")) ∨
    (expectedStatus l = "default" ∧ ∀ x ∈ l, ¬ (hasPrefix x.1 "2" ∨ hasPrefix x.1 "3"))
  | [] => .inr ⟨rfl, by simp⟩
  | (st, r) :: rest => by
    unfold expectedStatus
    by_cases h : hasPrefix st "2" ∨ hasPrefix st "3"
    · rw [if_pos h]
      exact .inl ⟨[], r, rest, rfl, h, by simp⟩
    · rw [if_neg h]
      rcases expectedStatus_first rest with ⟨pre, r0, post, h1, h2, h3⟩ | ⟨h1, h2⟩
      · refine .inl ⟨(st, r) :: pre, r0, post, by rw [List.cons_append, ← h1], h2, fun x hx => ?_⟩
        rcases List.mem_cons.1 hx with rfl | hx
        · exact h
        · exact h3 x hx
      · refine .inr ⟨h1, fun x hx => ?_⟩
        rcases List.mem_cons.1 hx with rfl | hx
        · exact h
        · exact h2 x hx

theorem expectedStatus_skip : ∀ {pre : GoMap OResponse} {st : String} {r0 : OResponse} {post : GoMap OResponse},
    (hasPrefix st "2" ∨ hasPrefix st "3") → (∀ x ∈ pre, ¬ (hasPrefix x.1 "2" ∨ hasPrefix x.1 "3")) → expectedStatus (pre ++ (st, r0) :: post) = st
  | [], st, r0, post, h, _ => by rw [List.nil_append, expectedStatus, if_pos h]
  | (s', r') :: pre, st, r0, post, h, hp => by
    rw [List.cons_append, expectedStatus, if_neg (hp _ List.mem_cons_self)]
    exact expectedStatus_skip h fun x hx => hp x (List.mem_cons_of_mem _ hx)

theorem answerOf_iff (rs : GoMap OResponse) (r : OResponse) : AnswerOf rs r ↔ mget rs (expectedStatus rs) = some r := by
  constructor
  · rintro (⟨pre, st, r0, post, h1, h2, h3, h4⟩ | ⟨h1, h2⟩)
    · have : expectedStatus rs = st := by rw [h1]; exact expectedStatus_skip h2 h3
      rw [this]; exact h4
    · rcases expectedStatus_first rs with ⟨pre, r0, post, h3, h4, h5⟩ | ⟨h3, h4⟩
      · have hm : (expectedStatus rs, r0) ∈ rs := by
          have h6 : ∀ st, rs = pre ++ (st, r0) :: post → (st, r0) ∈ rs := by rintro st rfl; simp
          exact h6 _ h3
        exact absurd h4 (h1 _ hm)
      · rw [h3]; exact h2
  · intro h
    rcases expectedStatus_first rs with ⟨pre, r0, post, h3, h4, h5⟩ | ⟨h3, h4⟩
    · exact .inl ⟨pre, _, r0, post, h3, h4, h5, h⟩
    · rw [h3] at h; exact .inr ⟨h4, h⟩

theorem convertOasPath_given {path method : String} {op : OOperation} {hd : HttpDef} {exs : List ExampleDef}
    (h : convertOasPath path op method = .ok (hd, exs)) (ex : ExampleDef) : ex ∈ exs ↔ OperationGives op ex := by
  unfold convertOasPath at h
  dsimp only at h
  obtain ⟨params, -, h⟩ := bind_ok_iff.1 h
  split at h
  · cases h
  · next er he =>
    obtain ⟨code, -, h⟩ := bind_ok_iff.1 h
    obtain ⟨⟨hs, e1⟩, h1, h⟩ := bind_ok_iff.1 h
    obtain ⟨⟨rs, e2⟩, h2, h⟩ := bind_ok_iff.1 h
    obtain ⟨xs, -, h⟩ := bind_ok_iff.1 h
    cases h
    unfold OperationGives
    simp only [answerOf_iff, he, Option.some.injEq, exists_eq_left']
    rw [List.mem_append, importHeaders_given h1, importResult_given h2]

theorem importPath_given {path : String} {pi : OPathItem} {ex : ExampleDef} : ∀ {ms : List (String × OMethod)} {hs : List HttpDef} {exs : List ExampleDef},
    importPath path pi ms = .ok (hs, exs) →
    (ex ∈ exs ↔ ∃ mk op, mk ∈ ms ∧ pi.op mk.2 = some op ∧ hasPrefix path "x-" = false ∧ OperationGives op ex)
  | [], hs, exs, h => by simp [importPath] at h; obtain ⟨rfl, rfl⟩ := h; simp
  | (method, k) :: rest, hs, exs, h => by
    have step : (∃ mk op, mk ∈ (method, k) :: rest ∧ pi.op mk.2 = some op ∧ hasPrefix path "x-" = false ∧ OperationGives op ex) ↔
        (∃ op, pi.op k = some op ∧ hasPrefix path "x-" = false ∧ OperationGives op ex) ∨
        ∃ mk op, mk ∈ rest ∧ pi.op mk.2 = some op ∧ hasPrefix path "x-" = false ∧ OperationGives op ex := by
      constructor
      · rintro ⟨mk, op, h1, h2⟩
        rcases List.mem_cons.1 h1 with rfl | h1
        · exact .inl ⟨op, h2⟩
        · exact .inr ⟨mk, op, h1, h2⟩
      · rintro (⟨op, h2⟩ | ⟨mk, op, h1, h2⟩)
        · exact ⟨_, op, List.mem_cons_self, h2⟩
        · exact ⟨mk, op, List.mem_cons_of_mem _ h1, h2⟩
    rw [step]
    rw [importPath] at h
    split at h
    · next ho => rw [importPath_given h]; simp [ho]
    · next op ho =>
      cases hx : hasPrefix path "x-" with
      | true => rw [hx] at h; simp only [if_true] at h; rw [importPath_given h]; simp [hx]
      | false =>
        rw [hx] at h
        simp only [Bool.false_eq_true, if_false] at h
        obtain ⟨⟨h0, e0⟩, h1, h⟩ := bind_ok_iff.1 h
        obtain ⟨⟨hs', e1⟩, h2, h⟩ := bind_ok_iff.1 h
        cases h
        rw [List.mem_append, importPath_given h2, convertOasPath_given h1, ho]
        simp [hx]

theorem importPaths_given {ex : ExampleDef} : ∀ {l : GoMap OPathItem} {hs : List HttpDef} {exs : List ExampleDef},
    importPaths l = .ok (hs, exs) →
    (ex ∈ exs ↔ ∃ path pi op, (path, pi) ∈ l ∧ ¬ "x-".toList <+: path.toList ∧
      op ∈ [pi.get, pi.put, pi.post, pi.delete, pi.head].filterMap id ∧ OperationGives op ex)
  | [], hs, exs, h => by simp [importPaths] at h; obtain ⟨rfl, rfl⟩ := h; simp
  | (path, pi) :: rest, hs, exs, h => by
    rw [importPaths] at h
    obtain ⟨⟨h0, e0⟩, h1, h⟩ := bind_ok_iff.1 h
    obtain ⟨⟨hs', e1⟩, h2, h⟩ := bind_ok_iff.1 h
    cases h
    have hpre : hasPrefix path "x-" = false ↔ ¬ "x-".toList <+: path.toList := by
      rw [← List.isPrefixOf_iff_prefix, Bool.not_eq_true]; rfl
    have hop : ∀ op, op ∈ [pi.get, pi.put, pi.post, pi.delete, pi.head].filterMap id ↔ ∃ mk ∈ importMethods, pi.op mk.2 = some op := by
      intro op
      simp [importMethods, List.mem_filterMap, OPathItem.op, eq_comm]
    rw [List.mem_append, importPath_given h1, importPaths_given h2]
    constructor
    · rintro (⟨mk, op, a1, a2, a3, a4⟩ | ⟨p, i, op, a1, a2⟩)
      · exact ⟨path, pi, op, List.mem_cons_self, hpre.1 a3, (hop op).2 ⟨mk, a1, a2⟩, a4⟩
      · exact ⟨p, i, op, List.mem_cons_of_mem _ a1, a2⟩
    · rintro ⟨p, i, op, a1, a2, a3, a4⟩
      rcases List.mem_cons.1 a1 with a1 | a1
      · cases a1
        obtain ⟨mk, b1, b2⟩ := (hop op).1 a3
        exact .inl ⟨mk, op, b1, b2, hpre.2 a2, a4⟩
      · exact .inr ⟨p, i, op, a1, a2, a3, a4⟩

theorem importTypes_given {d : ODoc} {ex : ExampleDef} : ∀ {l : GoMap OSchema} {tds : List TypeDef} {exs : List ExampleDef},
    importTypes d.schemas l = .ok (tds, exs) →
    (ex ∈ exs ↔ ∃ n s, (n, s) ∈ l ∧ n ≠ "" ∧ n ≠ "Decimal" ∧ (n = "Timestamp" → s.type ≠ "string") ∧
      ((¬ IsRef s ∧ Gives n s ex) ∨
       (IsRef s ∧ ∃ t s', (s.ref = "#/components/schemas/" ++ t ∨ s.ref = t ∧ ¬ hasPrefix s.ref "#/components/schemas/" = true) ∧
          mget d.schemas t = some s' ∧ Gives t s' ex)))
  | [], tds, exs, h => by simp [importTypes] at h; obtain ⟨rfl, rfl⟩ := h; simp
  | (name, s) :: rest, tds, exs, h => by
    have step : ∀ Q : String → OSchema → Prop, (∃ n s', (n, s') ∈ (name, s) :: rest ∧ Q n s') ↔ Q name s ∨ ∃ n s', (n, s') ∈ rest ∧ Q n s' := by
      intro Q
      constructor
      · rintro ⟨n, s', h1, h2⟩
        rcases List.mem_cons.1 h1 with h1 | h1
        · cases h1; exact .inl h2
        · exact .inr ⟨n, s', h1, h2⟩
      · rintro (h2 | ⟨n, s', h1, h2⟩)
        · exact ⟨_, _, List.mem_cons_self, h2⟩
        · exact ⟨n, s', List.mem_cons_of_mem _ h1, h2⟩
    rw [step]
    rw [importTypes] at h
    simp only at h
    by_cases hv : validSadlName name s = ""
    · rw [if_pos hv] at h
      rw [importTypes_given h]
      constructor
      · exact .inr
      · rintro (⟨h1, h2, h3, -⟩ | h1)
        · exact absurd hv ((validSadlName_ne name s h1).2 ⟨h2, h3⟩)
        · exact h1
    · rw [if_neg hv] at h
      have hk : name ≠ "" := by rintro rfl; exact hv (by simp [validSadlName])
      obtain ⟨h2, h3⟩ := (validSadlName_ne name s hk).1 hv
      have hname : validSadlName name s = name := by
        unfold validSadlName at hv ⊢
        split_ifs at hv ⊢ <;> simp_all
      rw [hname] at h
      obtain ⟨⟨c, cm⟩, hc, h⟩ := bind_ok_iff.1 h
      simp only at h
      split at h
      · cases h
      · obtain ⟨⟨tds', exs'⟩, hrest, h⟩ := bind_ok_iff.1 h
        cases h
        rw [List.mem_append, importTypes_given hrest]
        refine or_congr_left ?_
        by_cases hr : IsRef s
        · rw [if_pos ((oasTypeRef_ne s).2 hr)] at hc
          split at hc
          · next t ht =>
            obtain ⟨c', hc', hc⟩ := bind_ok_iff.1 hc
            cases hc
            rw [convert_given hc']
            constructor
            · intro hg
              exact ⟨hk, h2, h3, .inr ⟨hr, _, _, (oasTypeRef_spec s hr _).2 rfl, ht, hg⟩⟩
            · rintro ⟨-, -, -, ⟨h4, -⟩ | ⟨-, t', s', h4, h5, h6⟩⟩
              · exact absurd hr h4
              · have := (oasTypeRef_spec s hr t').1 h4
                subst this
                rw [ht] at h5
                cases h5
                exact h6
          · cases hc
        · rw [if_neg (fun h => hr ((oasTypeRef_ne s).1 h))] at hc
          obtain ⟨c', hc', hc⟩ := bind_ok_iff.1 hc
          cases hc
          rw [convert_given hc']
          constructor
          · intro hg; exact ⟨hk, h2, h3, .inl ⟨hr, hg⟩⟩
          · rintro ⟨-, -, -, ⟨-, h4⟩ | ⟨h4, -⟩⟩
            · exact h4
            · exact absurd h4 hr

end Sadl
