import Verif.Lemmas.OpenApiExamples
import Verif.Lemmas.SchemaJson
import Verif.Lemmas.JsonString
import Verif.Lemmas.OpenApiRefs
import Verif.Spec.OpenApiRules
/-
The rules of OpenAPI for an operation, and the action it is written for.
-/
namespace Sadl
open Sadl.Spec

theorem showInt_inj {a b : Int} (h : showInt a = showInt b) : a = b := by
  have key : ∀ n : Int, n.natAbs ≤ a.natAbs + b.natAbs → IntRange (a.natAbs + b.natAbs + 2) n := by
    intro n hn
    have h2 : a.natAbs + b.natAbs < 2 ^ (a.natAbs + b.natAbs + 1) :=
      lt_trans (Nat.lt_succ_self _) Nat.lt_two_pow_self
    have h3 : ((a.natAbs + b.natAbs : Nat) : Int) < 2 ^ (a.natAbs + b.natAbs + 1) := by exact_mod_cast h2
    unfold IntRange
    rw [show a.natAbs + b.natAbs + 2 - 1 = a.natAbs + b.natAbs + 1 from rfl]
    omega
  have h1 := parseInt_showInt (key a (by omega))
  have h2 := parseInt_showInt (key b (by omega))
  rw [h, h2] at h1
  exact (Option.some_injective _ h1).symm

theorem showInt_default (n : Int) : String.ofList (showInt n) ≠ "default" := by
  intro h
  have h' : showInt n = "default".toList := by rw [← h, String.toList_ofList]
  have hp : ∀ c ∈ showNat n.natAbs, isDigitC c = true := showNat_digits _
  unfold showInt at h'
  split at h'
  · exact absurd (List.cons.inj h').1 (by decide)
  · exact absurd (hp 'd' (by rw [h']; decide)) (by decide)

theorem statusKey_iff (n : Int) : StatusKey (statusKey n) ↔ n = 0 ∨ (100 ≤ n ∧ n < 600) := by
  unfold StatusKey statusKey
  constructor
  · intro h
    by_cases h0 : n = 0
    · exact .inl h0
    · rw [if_neg h0] at h
      rcases h with h | ⟨k, h1, h2, h3⟩
      · exact absurd h (showInt_default n)
      · have : showInt n = showInt k := by simpa using congrArg String.toList h3
        rw [showInt_inj this]
        exact .inr ⟨h1, h2⟩
  · rintro (h | h)
    · rw [if_pos h]; exact .inl rfl
    · rw [if_neg (by omega)]; exact .inr ⟨n, h.1, h.2, rfl⟩

theorem expectedKey_iff (n : Int) : StatusKey (String.ofList (showInt n)) ↔ 100 ≤ n ∧ n < 600 := by
  unfold StatusKey
  constructor
  · rintro (h | ⟨k, h1, h2, h3⟩)
    · exact absurd h (showInt_default n)
    · have : showInt n = showInt k := by simpa using congrArg String.toList h3
      rw [showInt_inj this]
      exact ⟨h1, h2⟩
  · intro h
    exact .inr ⟨n, h.1, h.2, rfl⟩

/-! ### Responses -/

theorem exportExceptions_described {xs : List HttpExceptionSpec} {rs : GoMap OResponse} (h : ∀ k r, (k, r) ∈ rs → r.description ≠ "") :
    ∀ k r, (k, r) ∈ exportExceptions xs rs → r.description ≠ "" := by
  induction xs generalizing rs with
  | nil => exact h
  | cons x rest ih =>
    unfold exportExceptions
    refine ih fun k r hr => ?_
    rcases mem_mset_or hr with e | e
    · obtain ⟨-, rfl⟩ := e
      unfold exportException
      dsimp only
      split_ifs with hc
      · decide
      · exact hc
    · exact h k r e

theorem exportExceptions_keys (xs : List HttpExceptionSpec) (rs : GoMap OResponse) (k : String) :
    k ∈ (exportExceptions xs rs).map Prod.fst ↔ k ∈ rs.map Prod.fst ∨ ∃ x ∈ xs, statusKey x.status = k := by
  induction xs generalizing rs with
  | nil => simp [exportExceptions]
  | cons x rest ih =>
    unfold exportExceptions
    rw [ih]
    have hk : k ∈ (mset rs (exportException x).1 (exportException x).2).map Prod.fst ↔ k = (exportException x).1 ∨ k ∈ rs.map Prod.fst := by
      have h1 := mget_none_iff (m := mset rs (exportException x).1 (exportException x).2) (k := k)
      have h2 := mget_none_iff (m := rs) (k := k)
      rw [mget_mset] at h1
      by_cases hkx : k = (exportException x).1
      · rw [if_pos hkx] at h1
        have : ¬ k ∉ (mset rs (exportException x).1 (exportException x).2).map Prod.fst := fun hn => by simpa using h1.2 hn
        exact ⟨fun _ => .inl hkx, fun _ => not_not.1 this⟩
      · rw [if_neg hkx, h2] at h1
        simp only [hkx, false_or]
        exact (not_iff_not.1 h1).symm
    rw [hk, exportException_key]
    simp only [List.mem_cons, exists_eq_or_imp]
    constructor
    · rintro ((h | h) | h)
      · exact .inr (.inl h.symm)
      · exact .inl h
      · exact .inr (.inr h)
    · rintro (h | h | h)
      · exact .inl (.inr h)
      · exact .inl (.inl h.symm)
      · exact .inr h

theorem exportOp_responses {conv : TypeSpec → String → Ran OSchema} {h : HttpDef} {op : OOperation} (ho : exportOp conv h = .ok op) :
    ∃ e, h.expected = some e ∧ (∀ k r, (k, r) ∈ op.responses → r.description ≠ "") ∧
      ∀ k, k ∈ op.responses.map Prod.fst ↔ k = String.ofList (showInt e.status) ∨ ∃ x ∈ h.exceptions, statusKey x.status = k := by
  unfold exportOp at ho
  obtain ⟨op1, h1, ho⟩ := Ran.bind_eq_ok.1 ho
  cases he : h.expected with
  | none => rw [he] at ho; simp at ho
  | some e =>
    rw [he] at ho
    obtain ⟨r, h2, ho⟩ := Ran.bind_eq_ok.1 ho
    cases ho
    refine ⟨e, rfl, ?_, fun k => ?_⟩
    · refine exportExceptions_described fun k r' hr => ?_
      obtain ⟨-, rfl⟩ := Prod.mk.inj (List.mem_singleton.1 hr)
      rw [(exportOutputs_ok h2).1]
      dsimp only
      split_ifs with hc
      · decide
      · exact hc
    · show k ∈ (exportExceptions _ _).map Prod.fst ↔ _
      rw [exportExceptions_keys]
      simp [sprintInt]

/-- The same, of an operation that was given examples. -/
theorem responses_of_bare {h : HttpDef} {op op' : OOperation} (e : op'.bare = op.bare) {ex : HttpExpectedSpec}
    (h1 : ∀ k r, (k, r) ∈ op.responses → r.description ≠ "")
    (h2 : ∀ k, k ∈ op.responses.map Prod.fst ↔ k = String.ofList (showInt ex.status) ∨ ∃ x ∈ h.exceptions, statusKey x.status = k) :
    (∀ k r, (k, r) ∈ op'.responses → r.description ≠ "") ∧
    ∀ k, k ∈ op'.responses.map Prod.fst ↔ k = String.ofList (showInt ex.status) ∨ ∃ x ∈ h.exceptions, statusKey x.status = k := by
  have hr : bareResponses op'.responses = bareResponses op.responses := congrArg OOperation.responses e
  have hk : ∀ rs : GoMap OResponse, (bareResponses rs).map Prod.fst = rs.map Prod.fst := by
    intro rs; unfold bareResponses; rw [List.map_map]; rfl
  refine ⟨fun k r hkr => ?_, fun k => ?_⟩
  · have hm : (k, r.bare) ∈ bareResponses op'.responses := List.mem_map.2 ⟨(k, r), hkr, rfl⟩
    rw [hr] at hm
    obtain ⟨⟨k', r'⟩, h3, h4⟩ := List.mem_map.1 hm
    have := h1 k' r' h3
    have hb : r'.bare = r.bare := (Prod.mk.inj h4).2
    have hc : r'.bare.description = r.bare.description := by rw [hb]
    exact (show r'.description = r.description from hc) ▸ this
  · rw [← hk, hr, hk]
    exact h2 k

/-! ### Parameters -/

theorem params_places {ps : List HttpParamSpec} {qs : List OParam} (h : List.Forall₂ ParamMatches ps qs) :
    qs.map (fun q => (q.in, q.name)) = ps.map inputPlace := by
  induction h with
  | nil => rfl
  | cons hp _ ih =>
    rw [List.map_cons, List.map_cons, ih]
    congr 1
    unfold inputPlace
    rcases hp.place with ⟨h1, h2, h3, -⟩ | ⟨h1, h2, h3, h4, -⟩ | ⟨h1, h2, h3, h4, h5, -⟩
    · simp [h1, h2, h3]
    · simp [h1, h2, h3, h4]
    · simp [h1, h2, h4, h5]

theorem param_of {ps : List HttpParamSpec} {qs : List OParam} (h : List.Forall₂ ParamMatches ps qs) {q : OParam} (hq : q ∈ qs) :
    ∃ p ∈ ps, ParamMatches p q := by
  induction h with
  | nil => cases hq
  | cons hp _ ih =>
    rcases List.mem_cons.1 hq with rfl | hq
    · exact ⟨_, by simp, hp⟩
    · obtain ⟨p, h1, h2⟩ := ih hq
      exact ⟨p, by simp [h1], h2⟩

theorem param_to {ps : List HttpParamSpec} {qs : List OParam} (h : List.Forall₂ ParamMatches ps qs) {p : HttpParamSpec} (hp : p ∈ ps) :
    ∃ q ∈ qs, ParamMatches p q := by
  induction h with
  | nil => cases hp
  | cons hm _ ih =>
    rcases List.mem_cons.1 hp with rfl | hp
    · exact ⟨_, by simp, hm⟩
    · obtain ⟨q, h1, h2⟩ := ih hp
      exact ⟨q, by simp [h1], h2⟩

/-- The further rules hold exactly for the operations of orderly actions. -/
theorem further_iff {h : HttpDef} {op : OOperation} {e : HttpExpectedSpec} (hd : Describes h op) (he : h.expected = some e)
    (hk : ∀ k, k ∈ op.responses.map Prod.fst ↔ k = String.ofList (showInt e.status) ∨ ∃ x ∈ h.exceptions, statusKey x.status = k) (path : String) :
    FurtherRules path op ↔ Orderly path h := by
  have hpl := params_places hd.params
  have hcov : ∀ w, (∃ p ∈ op.parameters, p.in = "path" ∧ p.name = w) ↔ ∃ p ∈ h.inputs, p.path = true ∧ p.field.name = w := by
    intro w
    constructor
    · rintro ⟨q, hq, h1, h2⟩
      obtain ⟨p, hp, hm⟩ := param_of hd.params hq
      refine ⟨p, (List.mem_filter.1 hp).1, ?_⟩
      rcases hm.place with ⟨a1, _, a3, _⟩ | ⟨_, _, a3, _⟩ | ⟨_, _, _, a4, _⟩
      · exact ⟨a1, a3 ▸ h2⟩
      · rw [h1] at a3; exact absurd a3 (by decide)
      · rw [h1] at a4; exact absurd a4 (by decide)
    · rintro ⟨p, hp, h1, h2⟩
      obtain ⟨q, hq, hm⟩ := param_to hd.params (List.mem_filter.2 ⟨hp, by simp [BodyInput, h1]⟩)
      refine ⟨q, hq, ?_⟩
      rcases hm.place with ⟨_, a2, a3, _⟩ | ⟨a1, _⟩ | ⟨a1, _⟩
      · exact ⟨a2, a3.trans h2⟩
      · rw [h1] at a1; cases a1
      · rw [h1] at a1; cases a1
  have hst : (∀ k r, (k, r) ∈ op.responses → StatusKey k) ↔
      (100 ≤ e.status ∧ e.status < 600) ∧ ∀ x ∈ h.exceptions, x.status = 0 ∨ (100 ≤ x.status ∧ x.status < 600) := by
    have : (∀ k r, (k, r) ∈ op.responses → StatusKey k) ↔ ∀ k ∈ op.responses.map Prod.fst, StatusKey k := by
      constructor
      · intro h1 k hk'
        obtain ⟨⟨k', r⟩, h2, rfl⟩ := List.mem_map.1 hk'
        exact h1 k' r h2
      · intro h1 k r hkr
        exact h1 k (List.mem_map.2 ⟨_, hkr, rfl⟩)
    rw [this]
    constructor
    · intro h1
      exact ⟨(expectedKey_iff _).1 (h1 _ ((hk _).2 (.inl rfl))), fun x hx => (statusKey_iff _).1 (h1 _ ((hk _).2 (.inr ⟨x, hx, rfl⟩)))⟩
    · rintro ⟨h1, h2⟩ k hk'
      rcases (hk k).1 hk' with rfl | ⟨x, hx, rfl⟩
      · exact (expectedKey_iff _).2 h1
      · exact (statusKey_iff _).2 (h2 x hx)
  constructor
  · intro hf
    refine ⟨hpl ▸ hf.distinct, fun w hw => (hcov w).1 (hf.covered w hw), fun e' he' => ?_, (hst.1 hf.statuses).2⟩
    rw [he] at he'
    cases he'
    exact (hst.1 hf.statuses).1
  · intro ho
    exact ⟨hpl ▸ ho.distinct, fun w hw => (hcov w).2 (ho.covered w hw), hst.2 ⟨ho.expected e he, ho.exceptions⟩⟩

end Sadl
