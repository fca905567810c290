import Verif.Spec.OpenApi
import Verif.Lemmas.Basic
import Verif.Lemmas.NewModel
/-
Lemmas about the export to OpenAPI: operations and examples.
-/
namespace Sadl
open Sadl.Spec

theorem Ran.bind_eq_ok {α β : Type} {x : Ran α} {f : α → Ran β} {b : β} :
    (x >>= f) = .ok b ↔ ∃ a, x = .ok a ∧ f a = .ok b := by
  cases x <;> simp

/-! ### Paths and methods -/

theorem takeWhile_pathAndQuery (l : List Char) : ∃ q, PathAndQuery l (l.takeWhile (· != '?')) q := by
  induction l with
  | nil => exact ⟨[], by simp [PathAndQuery]⟩
  | cons c r ih =>
    obtain ⟨q, h1, h2⟩ := ih
    by_cases hc : c = '?'
    · subst hc; exact ⟨r, by simp [PathAndQuery]⟩
    · have : (c :: r).takeWhile (· != '?') = c :: r.takeWhile (· != '?') := by simp [hc]
      rw [this]
      refine ⟨q, ?_, ?_⟩
      · simp only [List.mem_cons, not_or]; exact ⟨fun h => hc h.symm, h1⟩
      · rcases h2 with h2 | ⟨h2, h3⟩
        · left; simp only [List.cons_append]; rw [← h2]
        · right; exact ⟨by rw [← h2], h3⟩

theorem pathAndQuery_path_unique {l p q p' q' : List Char} (h : PathAndQuery l p q) (h' : PathAndQuery l p' q') : p = p' := by
  induction l generalizing p p' with
  | nil =>
    have e : ∀ {p q}, PathAndQuery [] p q → p = [] := by
      rintro p q ⟨_, h | ⟨h, _⟩⟩
      · simp at h
      · exact h.symm
    rw [e h, e h']
  | cons c r ih =>
    have e : ∀ {p q}, PathAndQuery (c :: r) p q → (c = '?' ∧ p = []) ∨ (c ≠ '?' ∧ ∃ p1, p = c :: p1 ∧ PathAndQuery r p1 q) := by
      rintro p q ⟨h1, h | ⟨h, h2⟩⟩
      · cases p with
        | nil => left; simp at h; exact ⟨h.1, rfl⟩
        | cons a p1 =>
          right
          simp only [List.mem_cons, not_or] at h1
          simp only [List.cons_append, List.cons.injEq] at h
          obtain ⟨rfl, h⟩ := h
          exact ⟨fun hc => h1.1 hc.symm, p1, rfl, h1.2, .inl h⟩
      · subst h
        right
        simp only [List.mem_cons, not_or] at h1
        exact ⟨fun hc => h1.1 hc.symm, r, rfl, h1.2, .inr ⟨rfl, h2⟩⟩
    rcases e h with ⟨h1, h2⟩ | ⟨h1, p1, h2, h3⟩ <;> rcases e h' with ⟨k1, k2⟩ | ⟨k1, p2, k2, k3⟩
    · rw [h2, k2]
    · exact absurd h1 k1
    · exact absurd k1 h1
    · rw [h2, k2, ih h3 k3]

theorem livesAt_iff (base : String) (h : HttpDef) (p : String) : LivesAt base h p ↔ p = oasPath base h := by
  obtain ⟨q, hq⟩ := takeWhile_pathAndQuery (base ++ h.path).toList
  constructor
  · rintro ⟨q', hq'⟩
    have := pathAndQuery_path_unique hq hq'
    unfold oasPath
    rw [this, String.ofList_toList]
  · rintro rfl
    exact ⟨q, by unfold oasPath; rw [String.toList_ofList]; exact hq⟩

theorem oasMethod_iff (method : String) (k : OMethod) :
    oasMethod method = some k ↔ method = methodName k ∧ method ∈ ExportedMethods := by
  unfold oasMethod
  split
  · cases k <;> simp [methodName, ExportedMethods]
  · cases k <;> simp [methodName, ExportedMethods]
  · cases k <;> simp [methodName, ExportedMethods]
  · cases k <;> simp [methodName, ExportedMethods]
  · rename_i h1 h2 h3 h4
    simp only [reduceCtorEq, false_iff, not_and]
    rintro rfl
    cases k <;> simp_all [methodName, ExportedMethods]

theorem oasMethod_none_iff (method : String) : oasMethod method = none ↔ method ∉ ExportedMethods := by
  unfold oasMethod
  split <;> simp_all [ExportedMethods]

theorem op_setOp (pi : OPathItem) (k j : OMethod) (op : OOperation) :
    (pi.setOp k op).op j = if j = k then some op else pi.op j := by
  cases k <;> cases j <;> rfl

/-! ### The loops over inputs, outputs and exceptions -/

theorem exportInputs_ok {conv : TypeSpec → String → Ran OSchema} {ins : List HttpParamSpec} {op op' : OOperation}
    (h : exportInputs conv ins op = .ok op') :
    op'.operationId = op.operationId ∧ op'.summary = op.summary ∧ op'.tags = op.tags ∧ op'.responses = op.responses ∧
    (∃ qs, op'.parameters = op.parameters ++ qs ∧ List.Forall₂ ParamMatches (ins.filter (fun p => !BodyInput p)) qs) ∧
    op'.requestBody.isSome = (op.requestBody.isSome || ins.any BodyInput) := by
  induction ins generalizing op with
  | nil =>
    cases h
    exact ⟨rfl, rfl, rfl, rfl, ⟨[], by simp, by simp⟩, by simp⟩
  | cons p rest ih =>
    unfold exportInputs at h
    obtain ⟨s, hs, h⟩ := Ran.bind_eq_ok.1 h
    obtain ⟨h1, h2, h3, h4, ⟨qs, h5, h6⟩, h7⟩ := ih h
    by_cases hp : p.path = true
    · have hb : BodyInput p = false := by simp [BodyInput, hp]
      simp only [exportInput, hp, if_true] at h1 h2 h3 h4 h5 h7
      refine ⟨h1, h2, h3, h4, ⟨_, by rw [h5, List.append_assoc], ?_⟩, by rw [h7]; simp [hb]⟩
      simp only [List.filter_cons, hb, Bool.not_false, if_true, List.singleton_append]
      exact .cons ⟨rfl, by simp, .inl ⟨hp, rfl, rfl, rfl⟩⟩ h6
    · have hp' : p.path = false := by simpa using hp
      by_cases hq : p.query = ""
      · by_cases hh : p.header = ""
        · have hb : BodyInput p = true := by simp [BodyInput, hp', hq, hh]
          simp only [exportInput, hp', hq, hh, Bool.false_eq_true, ne_eq, not_true_eq_false, not_false_eq_true, if_false, if_true] at h1 h2 h3 h4 h5 h7
          refine ⟨h1, h2, h3, h4, ⟨qs, h5, ?_⟩, by rw [h7]; simp [hb]⟩
          simp only [List.filter_cons, hb]
          exact h6
        · have hb : BodyInput p = false := by simp [BodyInput, hh]
          simp only [exportInput, hp', hq, hh, Bool.false_eq_true, ne_eq, not_true_eq_false, not_false_eq_true, if_false, if_true] at h1 h2 h3 h4 h5 h7
          refine ⟨h1, h2, h3, h4, ⟨_, by simp at h5; rw [h5, List.append_cons], ?_⟩, by rw [h7]; simp [hb]⟩
          simp only [List.filter_cons, hb, Bool.not_false, if_true]
          exact .cons ⟨rfl, by simp, .inr (.inr ⟨hp', hq, hh, rfl, rfl, rfl⟩)⟩ h6
      · have hb : BodyInput p = false := by simp [BodyInput, hq]
        simp only [exportInput, hp', hq, Bool.false_eq_true, ne_eq, not_true_eq_false, not_false_eq_true, if_false, if_true] at h1 h2 h3 h4 h5 h7
        refine ⟨h1, h2, h3, h4, ⟨_, by simp at h5; rw [h5, List.append_cons], ?_⟩, by rw [h7]; simp [hb]⟩
        simp only [List.filter_cons, hb, Bool.not_false, if_true]
        exact .cons ⟨rfl, by simp, .inr (.inl ⟨hp', hq, rfl, rfl, rfl⟩)⟩ h6

theorem isSome_mset {α : Type} (m : GoMap α) (k k2 : String) (v : α) :
    (mget (mset m k v) k2).isSome = (decide (k2 = k) || (mget m k2).isSome) := by
  rw [mget_mset]
  by_cases h : k2 = k <;> simp [h]

theorem exportOutputs_ok {conv : TypeSpec → String → Ran OSchema} {outs : List HttpParamSpec} {r r' : OResponse}
    (h : exportOutputs conv outs r = .ok r') :
    r'.description = r.description ∧
    ((mget r'.content "application/json").isSome = ((mget r.content "application/json").isSome || outs.any BodyOutput)) ∧
    (∀ k, (mget r'.headers k).isSome ↔ (mget r.headers k).isSome ∨ ∃ p ∈ outs, p.header = k ∧ k ≠ "") := by
  induction outs generalizing r with
  | nil => cases h; simp
  | cons p rest ih =>
    unfold exportOutputs at h
    obtain ⟨s, hs, h⟩ := Ran.bind_eq_ok.1 h
    obtain ⟨h1, h2, h3⟩ := ih h
    by_cases hh : p.header = ""
    · have hb : BodyOutput p = true := by simp [BodyOutput, hh]
      simp only [exportOutput, hh, Bool.false_eq_true, ne_eq, not_true_eq_false, not_false_eq_true, if_false, if_true] at h1 h2 h3
      refine ⟨h1, by rw [h2]; simp [hb, isSome_mset], fun k => ?_⟩
      rw [h3]
      simp only [List.mem_cons, exists_eq_or_imp]
      constructor
      · rintro (h | h)
        · exact .inl h
        · exact .inr (.inr h)
      · rintro (h | ⟨h, h'⟩ | h)
        · exact .inl h
        · exact absurd (h.symm.trans hh) h'
        · exact .inr h
    · have hb : BodyOutput p = false := by simp [BodyOutput, hh]
      simp only [exportOutput, hh, Bool.false_eq_true, ne_eq, not_true_eq_false, not_false_eq_true, if_false, if_true] at h1 h2 h3
      refine ⟨h1, by rw [h2]; simp [hb], fun k => ?_⟩
      rw [h3]
      simp only [ne_eq, not_false_eq_true, if_true, isSome_mset, Bool.or_eq_true, decide_eq_true_eq, List.mem_cons,
        exists_eq_or_imp]
      constructor
      · rintro ((h | h) | h)
        · exact .inr (.inl ⟨h.symm, by rw [h]; exact hh⟩)
        · exact .inl h
        · exact .inr (.inr h)
      · rintro (h | ⟨h, h'⟩ | h)
        · exact .inl (.inr h)
        · exact .inl (.inl h.symm)
        · exact .inr h

theorem exportException_key (x : HttpExceptionSpec) : (exportException x).1 = statusKey x.status := by
  by_cases h : x.status = 0 <;> simp [exportException, statusKey, h, sprintInt]

theorem exportExceptions_other (xs : List HttpExceptionSpec) (rs : GoMap OResponse) (k : String)
    (h : ∀ x ∈ xs, statusKey x.status ≠ k) : mget (exportExceptions xs rs) k = mget rs k := by
  induction xs generalizing rs with
  | nil => rfl
  | cons x rest ih =>
    unfold exportExceptions
    rw [ih _ (fun y hy => h y (by simp [hy])), mget_mset_other _ _ _ _ (by rw [exportException_key]; exact (h x (by simp)).symm)]

theorem exportExceptions_mem (xs : List HttpExceptionSpec) (rs : GoMap OResponse)
    (hn : (xs.map (fun x => statusKey x.status)).Nodup) (x : HttpExceptionSpec) (hx : x ∈ xs) :
    mget (exportExceptions xs rs) (statusKey x.status) = some (exportException x).2 := by
  induction xs generalizing rs with
  | nil => cases hx
  | cons y rest ih =>
    unfold exportExceptions
    simp only [List.map_cons, List.nodup_cons] at hn
    rcases List.mem_cons.1 hx with rfl | hx
    · rw [exportExceptions_other, ← exportException_key, mget_mset_same]
      intro z hz he
      exact hn.1 (List.mem_map.2 ⟨z, hz, he⟩)
    · exact ih _ hn.2 hx

theorem exportOp_ok {conv : TypeSpec → String → Ran OSchema} {h : HttpDef} {op : OOperation}
    (ho : exportOp conv h = .ok op) : Describes h op := by
  unfold exportOp at ho
  obtain ⟨op1, h1, ho⟩ := Ran.bind_eq_ok.1 ho
  obtain ⟨a1, a2, a3, a4, ⟨qs, a5, a6⟩, a7⟩ := exportInputs_ok h1
  cases he : h.expected with
  | none => rw [he] at ho; simp at ho
  | some e =>
    rw [he] at ho
    obtain ⟨r, h2, ho⟩ := Ran.bind_eq_ok.1 ho
    cases ho
    obtain ⟨b1, b2, b3⟩ := exportOutputs_ok h2
    refine ⟨a1, a2, ?_, ?_, by simpa using a7, ⟨e, he, ?_⟩, ?_⟩
    · intro hr
      simp only [a3, oasTags, ne_eq, hr, not_false_eq_true, if_true, List.singleton_append, List.head?_cons]
    · simp only [List.nil_append] at a5; rw [a5]; exact a6
    · intro hx
      refine ⟨r, ?_, ?_, by rw [b2]; simp [mget], fun k => by rw [b3]; simp [mget]⟩
      · simp only
        rw [exportExceptions_other _ _ _ hx]
        simp [mget, sprintInt]
      · intro hc; rw [b1]; simp [hc]
    · intro hn x hx
      refine ⟨_, exportExceptions_mem _ _ hn x hx, ?_, ?_⟩
      · intro hc; simp [exportException, hc]
      · exact ⟨{ schema := some { ref := refPrefix ++ x.type } }, { ref := refPrefix ++ x.type },
          by simp only [exportException, jsonContent, mget, if_true], rfl, rfl⟩

/-! ### The loop over the actions -/

/-- The operation at a place of a map of paths. -/
def pathOp (paths : GoMap OPathItem) (p : String) (k : OMethod) : Option OOperation := ((mget paths p).getD {}).op k

theorem pathOp_mset (paths : GoMap OPathItem) (p q : String) (pi : OPathItem) (k : OMethod) :
    pathOp (mset paths p pi) q k = if q = p then pi.op k else pathOp paths q k := by
  unfold pathOp
  rw [mget_mset]
  split <;> simp

theorem exportHttp_ok {n : Nat} {lib : OLib} {m : Model} {hs : List HttpDef} {paths paths' : GoMap OPathItem}
    (h : exportHttpN n lib m hs paths = .ok paths') :
    (∀ p k op, pathOp paths p k = some op → pathOp paths' p k = some op) ∧
    (∀ a ∈ hs, ∀ k, oasMethod a.method = some k → ∃ op, pathOp paths' (oasPath m.schema.base a) k = some op ∧
      exportOp (oasSchemaN n lib m) a = .ok op) ∧
    (∀ p k op, pathOp paths' p k = some op → pathOp paths p k = some op ∨
      ∃ a ∈ hs, p = oasPath m.schema.base a ∧ oasMethod a.method = some k ∧ exportOp (oasSchemaN n lib m) a = .ok op) ∧
    (∀ a ∈ hs, ∀ k, oasMethod a.method = some k → pathOp paths (oasPath m.schema.base a) k = none) ∧
    hs.Pairwise (fun a b => oasMethod a.method ≠ none → oasMethod a.method = oasMethod b.method →
      oasPath m.schema.base a ≠ oasPath m.schema.base b) ∧
    (paths.Distinct → paths'.Distinct) ∧
    (∀ a ∈ hs, ∃ op, exportOp (oasSchemaN n lib m) a = .ok op) := by
  induction hs generalizing paths with
  | nil => cases h; simp
  | cons a rest ih =>
    unfold exportHttpN at h
    simp only at h
    cases hm : oasMethod a.method with
    | none =>
      rw [hm] at h
      obtain ⟨op0, h0, h⟩ := Ran.bind_eq_ok.1 h
      obtain ⟨i1, i2, i3, i4, i5, i6, i7⟩ := ih h
      have same : ∀ q k, pathOp (mset paths (oasPath m.schema.base a) ((mget paths (oasPath m.schema.base a)).getD {})) q k =
          pathOp paths q k := by
        intro q k
        rw [pathOp_mset]
        split
        · next hq => subst hq; rfl
        · rfl
      refine ⟨fun p k op hp => i1 p k op (by rw [same]; exact hp), ?_, ?_, ?_, ?_, fun hd => i6 (distinct_mset hd _ _), ?_⟩
      · intro b hb k hk
        rcases List.mem_cons.1 hb with rfl | hb
        · rw [hm] at hk; cases hk
        · exact i2 b hb k hk
      · intro p k op hp
        rcases i3 p k op hp with h3 | ⟨b, hb, h3⟩
        · left; rwa [same] at h3
        · exact .inr ⟨b, by simp [hb], h3⟩
      · intro b hb k hk
        rcases List.mem_cons.1 hb with rfl | hb
        · rw [hm] at hk; cases hk
        · rw [← same]; exact i4 b hb k hk
      · exact .cons (fun b hb h1 => absurd hm h1) i5
      · intro b hb
        rcases List.mem_cons.1 hb with rfl | hb
        · exact ⟨_, h0⟩
        · exact i7 b hb
    | some k0 =>
      rw [hm] at h
      simp only at h
      cases hop : OPathItem.op ((mget paths (oasPath m.schema.base a)).getD {}) k0 with
      | some x => rw [hop] at h; simp at h
      | none =>
        rw [hop] at h
        obtain ⟨op0, h0, h⟩ := Ran.bind_eq_ok.1 h
        obtain ⟨i1, i2, i3, i4, i5, i6, i7⟩ := ih h
        have look : ∀ q k, pathOp (mset paths (oasPath m.schema.base a)
            (((mget paths (oasPath m.schema.base a)).getD {}).setOp k0 op0)) q k =
            if q = oasPath m.schema.base a ∧ k = k0 then some op0 else pathOp paths q k := by
          intro q k
          rw [pathOp_mset, op_setOp]
          by_cases hq : q = oasPath m.schema.base a
          · subst hq
            by_cases hk : k = k0
            · simp [hk]
            · simp [hk, pathOp]
          · simp [hq]
        refine ⟨?_, ?_, ?_, ?_, ?_, fun hd => i6 (distinct_mset hd _ _), ?_⟩
        · intro p k op hp
          apply i1
          rw [look]
          split
          · next hq => rw [hq.1, hq.2] at hp; unfold pathOp at hp; rw [hop] at hp; cases hp
          · exact hp
        · intro b hb k hk
          rcases List.mem_cons.1 hb with rfl | hb
          · rw [hm] at hk
            cases hk
            exact ⟨op0, i1 _ _ _ (by rw [look]; simp), h0⟩
          · exact i2 b hb k hk
        · intro p k op hp
          rcases i3 p k op hp with h3 | ⟨b, hb, h3⟩
          · rw [look] at h3
            split at h3
            · next hq => cases h3; exact .inr ⟨a, by simp, hq.1, by rw [hm, hq.2], h0⟩
            · exact .inl h3
          · exact .inr ⟨b, by simp [hb], h3⟩
        · intro b hb k hk
          rcases List.mem_cons.1 hb with rfl | hb
          · rw [hm] at hk
            cases hk
            exact hop
          · have := i4 b hb k hk
            rw [look] at this
            split at this
            · cases this
            · exact this
        · refine .cons ?_ i5
          intro b hb _ hbm he
          have := i4 b hb k0 (by rw [← hbm, hm])
          rw [look, ← he] at this
          simp at this
        · intro b hb
          rcases List.mem_cons.1 hb with rfl | hb
          · exact ⟨_, h0⟩
          · exact i7 b hb

end Sadl
