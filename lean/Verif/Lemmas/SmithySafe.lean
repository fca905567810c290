import Verif.Lemmas.SmithyOps
import Verif.Spec.SmithySafe
/-
When the import of a Smithy model panics.
-/
namespace Sadl
namespace Smithy
open Sadl.Spec

/-- The result is a value exactly under the condition, and a panic otherwise. -/
def OkIff (o : Out α) (P : Prop) : Prop := (P → ∃ a, o = .ok a) ∧ (¬P → ∃ e, o = .panic e)

theorem okIff_ok (a : α) : OkIff (.ok a : Out α) True := ⟨fun _ => ⟨a, rfl⟩, fun h => absurd trivial h⟩

theorem okIff_panic (e : String) : OkIff (.panic e : Out α) False := ⟨fun h => h.elim, fun _ => ⟨e, rfl⟩⟩

theorem OkIff.bind {o : Out α} {f : α → Out β} {P Q : Prop} (h1 : OkIff o P) (h2 : ∀ a, OkIff (f a) Q) : OkIff (o >>= f) (P ∧ Q) := by
  constructor
  · rintro ⟨p, q⟩
    obtain ⟨a, ha⟩ := h1.1 p
    obtain ⟨b, hb⟩ := (h2 a).1 q
    exact ⟨b, by rw [ha]; exact hb⟩
  · intro h
    by_cases p : P
    · obtain ⟨a, ha⟩ := h1.1 p
      obtain ⟨e, he⟩ := (h2 a).2 fun q => h ⟨p, q⟩
      exact ⟨e, by rw [ha]; exact he⟩
    · obtain ⟨e, he⟩ := h1.2 p
      exact ⟨e, by rw [he]; rfl⟩

theorem OkIff.congr {o : Out α} {P Q : Prop} (h : OkIff o P) (e : P ↔ Q) : OkIff o Q :=
  ⟨fun q => h.1 (e.2 q), fun q => h.2 fun p => q (e.1 p)⟩

/-- Followed by a value. -/
theorem OkIff.then {o : Out α} {f : α → β} {P : Prop} (h : OkIff o P) : OkIff (do .ok (f (← o)) : Out β) P :=
  (h.bind fun a => okIff_ok (f a)).congr (by simp)

theorem importTrait_safe (lib : SLib) (ast : Ast) (annos : GoMap String) (k : String) (v : Value) :
    OkIff (importTrait lib ast annos k v) (k ∉ knownTraits → ∀ s, mget ast.shapes k = some s → s.traits.map "smithy.api#trait" ≠ none) := by
  have known : ∀ {a : GoMap String}, k ∈ knownTraits → OkIff (.ok a : Out (GoMap String)) (k ∉ knownTraits → ∀ s, mget ast.shapes k = some s → s.traits.map "smithy.api#trait" ≠ none) :=
    fun h => (okIff_ok _).congr ⟨fun _ hn => absurd h hn, fun _ => trivial⟩
  unfold importTrait
  by_cases c1 : k = "smithy.api#error"
  · rw [if_pos c1]; exact known (by rw [c1]; decide)
  rw [if_neg c1]
  by_cases c2 : k = "smithy.api#httpError"
  · rw [if_pos c2]; exact known (by rw [c2]; decide)
  rw [if_neg c2]
  by_cases c3 : k ∈ ignoredTraits
  · rw [if_pos c3]
    refine known ?_
    have : ∀ x ∈ ignoredTraits, x ∈ knownTraits := by decide
    exact this k c3
  rw [if_neg c3]
  by_cases c4 : k = "smithy.api#tags"
  · rw [if_pos c4]; exact known (by rw [c4]; decide)
  rw [if_neg c4]
  by_cases c5 : k = "smithy.api#timestampFormat"
  · rw [if_pos c5]; exact known (by rw [c5]; decide)
  rw [if_neg c5]
  by_cases c6 : k = "smithy.api#enumValue"
  · rw [if_pos c6]; exact known (by rw [c6]; decide)
  rw [if_neg c6]
  by_cases c7 : k = "smithy.api#deprecated"
  · rw [if_pos c7]; exact known (by rw [c7]; decide)
  rw [if_neg c7]
  by_cases c8 : k = "smithy.api#paginated"
  · rw [if_pos c8]; exact known (by rw [c8]; decide)
  rw [if_neg c8]
  have hk : k ∉ knownTraits := by
    intro h
    have : ∀ x ∈ knownTraits, x = "smithy.api#error" ∨ x = "smithy.api#httpError" ∨ x ∈ ignoredTraits ∨ x = "smithy.api#tags" ∨ x = "smithy.api#timestampFormat" ∨
      x = "smithy.api#enumValue" ∨ x = "smithy.api#deprecated" ∨ x = "smithy.api#paginated" := by decide
    rcases this k h with h | h | h | h | h | h | h | h
    · exact c1 h
    · exact c2 h
    · exact c3 h
    · exact c4 h
    · exact c5 h
    · exact c6 h
    · exact c7 h
    · exact c8 h
  cases hs : mget ast.shapes k with
  | none => exact (okIff_ok _).congr ⟨fun _ _ s e => (by cases e), fun _ => trivial⟩
  | some s =>
    cases ht : s.traits.map "smithy.api#trait" with
    | some ms =>
      simp only [ht]
      refine (okIff_ok _).congr ⟨fun _ _ s' e => ?_, fun _ => trivial⟩
      cases e; rw [ht]; simp
    | none =>
      simp only [ht]
      exact (okIff_panic _).congr ⟨fun h => h.elim, fun h => h hk s rfl ht⟩

theorem importTraits_safe (lib : SLib) (ast : Ast) (t : Traits) (annos : GoMap String) : OkIff (importTraits lib ast t annos) (TraitsSafe ast t) := by
  induction t generalizing annos with
  | nil => exact (okIff_ok _).congr ⟨fun _ kv h => absurd h List.not_mem_nil, fun _ => trivial⟩
  | cons kv rest ih =>
    obtain ⟨k, v⟩ := kv
    unfold importTraits
    refine ((importTrait_safe lib ast annos k v).bind fun a => ih a).congr ?_
    unfold TraitsSafe
    simp only [List.forall_mem_cons]

theorem importElements_safe (lib : SLib) (ast : Ast) (ms : GoMap Member) : OkIff (importElements lib ast ms) (∀ km ∈ ms, TraitsSafe ast km.2.traits) := by
  induction ms with
  | nil => exact (okIff_ok _).congr ⟨fun _ kv h => absurd h List.not_mem_nil, fun _ => trivial⟩
  | cons km rest ih =>
    obtain ⟨k, mem⟩ := km
    unfold importElements
    refine ((importTraits_safe lib ast mem.traits []).bind fun a => ih.then).congr ?_
    simp only [List.forall_mem_cons]

theorem importVariants_safe (lib : SLib) (ast : Ast) (ms : GoMap Member) : OkIff (importVariants lib ast ms) (∀ km ∈ ms, TraitsSafe ast km.2.traits) := by
  induction ms with
  | nil => exact (okIff_ok _).congr ⟨fun _ kv h => absurd h List.not_mem_nil, fun _ => trivial⟩
  | cons km rest ih =>
    obtain ⟨k, mem⟩ := km
    unfold importVariants
    refine ((importTraits_safe lib ast mem.traits []).bind fun a => ih.then).congr ?_
    simp only [List.forall_mem_cons]

theorem importFields_safe (lib : SLib) (ast : Ast) (ms : GoMap Member) : OkIff (importFields lib ast ms) (∀ km ∈ ms, TraitsSafe ast km.2.traits) := by
  induction ms with
  | nil => exact (okIff_ok _).congr ⟨fun _ kv h => absurd h List.not_mem_nil, fun _ => trivial⟩
  | cons km rest ih =>
    obtain ⟨k, mem⟩ := km
    unfold importFields
    refine ((importTraits_safe lib ast mem.traits []).bind fun a => ih.then).congr ?_
    simp only [List.forall_mem_cons]

theorem membersOf_safe (ast : Ast) (name : String) : OkIff (membersOf ast name) (mget ast.shapes name ≠ none) := by
  unfold membersOf
  cases h : mget ast.shapes name with
  | none => exact (okIff_panic _).congr (by simp)
  | some s => exact (okIff_ok _).congr (by simp)

theorem plainInputs_safe (lib : SLib) (ast : Ast) (ref : Option String) : OkIff (plainInputs lib ast ref) (∀ t, ref = some t → mget ast.shapes t ≠ none) := by
  cases ref with
  | none => exact (okIff_ok _).congr ⟨fun _ t e => (by cases e), fun _ => trivial⟩
  | some t => exact (membersOf_safe ast t).then.congr ⟨fun h u e => by cases e; exact h, fun h => h t rfl⟩

theorem plainOutputs_safe (ast : Ast) (ref : Option String) : OkIff (plainOutputs ast ref) (∀ t, ref = some t → mget ast.shapes t ≠ none) := by
  cases ref with
  | none => exact (okIff_ok _).congr ⟨fun _ t e => (by cases e), fun _ => trivial⟩
  | some t => exact (membersOf_safe ast t).then.congr ⟨fun h u e => by cases e; exact h, fun h => h t rfl⟩

theorem importOutputs_safe (lib : SLib) (ast : Ast) (ref : Option String) :
    OkIff (importOutputs lib ast ref) (∀ t, ref = some t → t ≠ "smithy.api#Unit" → mget ast.shapes t ≠ none) := by
  cases ref with
  | none => exact (okIff_ok _).congr ⟨fun _ t e => (by cases e), fun _ => trivial⟩
  | some t =>
    unfold importOutputs
    by_cases c : t = "smithy.api#Unit"
    · dsimp only; rw [if_pos c]
      exact (okIff_ok _).congr ⟨fun _ u e h => by cases e; exact absurd c h, fun _ => trivial⟩
    · dsimp only; rw [if_neg c]
      unfold membersOf
      cases h : mget ast.shapes t with
      | none => exact (okIff_panic _).congr ⟨fun h => h.elim, fun h' => h' t rfl c h⟩
      | some s =>
        dsimp only
        by_cases b : bindsOutput lib s.members = true
        · rw [if_pos b]; exact (okIff_ok _).congr ⟨fun _ u e _ => by cases e; rw [h]; simp, fun _ => trivial⟩
        · rw [if_neg b]; exact (okIff_ok _).congr ⟨fun _ u e _ => by cases e; rw [h]; simp, fun _ => trivial⟩

theorem importErrors_safe (lib : SLib) (ast : Ast) (es : List String) : OkIff (importErrors lib ast es) (∀ e ∈ es, mget ast.shapes e ≠ none) := by
  induction es with
  | nil => exact (okIff_ok _).congr ⟨fun _ kv h => absurd h List.not_mem_nil, fun _ => trivial⟩
  | cons e rest ih =>
    unfold importErrors
    cases h : mget ast.shapes e with
    | none => exact (okIff_panic _).congr ⟨fun h => h.elim, fun h' => h' e (.head _) h⟩
    | some st =>
      refine ih.then.congr ?_
      simp only [List.forall_mem_cons, h]
      simp

theorem hasMethod_iff (s : Shape) : HasMethod s ↔ asString ((traitMember s "smithy.api#http" "method").getD .null) ≠ "" := by
  unfold HasMethod
  cases h : traitMember s "smithy.api#http" "method" with
  | none => simp [asString]
  | some v => cases v <;> simp [asString]

theorem importOperation_safe (lib : SLib) (suf : Suffixes) (ast : Ast) (name : String) (s : Shape) (acc : Imported) :
    OkIff (importOperationShape lib suf ast name s acc) (TraitsSafe ast s.traits ∧ OpSafe ast s) := by
  unfold importOperationShape
  dsimp only
  rw [trait_getKey, trait_getKey]
  by_cases c : HasMethod s
  · rw [if_neg ((hasMethod_iff s).1 c)]
    refine OkIff.congr (P := TraitsSafe ast s.traits ∧ (∀ t, s.output = some t → t ≠ "smithy.api#Unit" → mget ast.shapes t ≠ none) ∧ ∀ e ∈ s.errors, mget ast.shapes e ≠ none) (OkIff.then ?_) ?_
    · unfold importAction
      refine (importTraits_safe lib ast s.traits []).bind fun a => ?_
      exact (importOutputs_safe lib ast s.output).bind fun b => (importErrors_safe lib ast s.errors).then
    · exact ⟨fun h => ⟨h.1, fun n => absurd c n, fun n => absurd c n, fun _ => h.2.1, fun _ => h.2.2⟩, fun h => ⟨h.1, h.2.output c, h.2.errors c⟩⟩
  · rw [if_pos (Decidable.not_not.1 (mt (hasMethod_iff s).2 c))]
    refine OkIff.congr (P := TraitsSafe ast s.traits ∧ (∀ t, s.input = some t → mget ast.shapes t ≠ none) ∧ ∀ t, s.output = some t → mget ast.shapes t ≠ none) (OkIff.then ?_) ?_
    · unfold importPlainOperation
      refine (importTraits_safe lib ast s.traits []).bind fun a => ?_
      exact (plainInputs_safe lib ast s.input).bind fun b => (plainOutputs_safe ast s.output).then
    · exact ⟨fun h => ⟨h.1, fun _ => h.2.1, fun _ => h.2.2, fun n => absurd n c, fun n => absurd n c⟩, fun h => ⟨h.1, h.2.plainInput c, h.2.plainOutput c⟩⟩

/-- A shape is imported exactly if it is safe, unless it is left out. -/
theorem importShape_safe (lib : SLib) (suf : Suffixes) (ast : Ast) (io : List String) (name : String) (s : Shape) (acc : Imported) :
    OkIff (importShape lib suf ast io name s acc) (name ∉ io → ShapeSafe ast s) := by
  unfold importShape
  by_cases c0 : name ∈ io
  · rw [if_pos c0]; exact (okIff_ok _).congr ⟨fun _ n => absurd c0 n, fun _ => trivial⟩
  rw [if_neg c0]
  refine OkIff.congr (P := ShapeSafe ast s) ?_ ⟨fun h _ => h, fun h => h c0⟩
  -- what is left of the conditions for a given kind
  have plain : s.type ∈ ["string", "blob", "service", "resource"] → ShapeSafe ast s := by
    intro h
    simp only [List.mem_cons, List.not_mem_nil, or_false] at h
    constructor <;> rcases h with h | h | h | h <;> rw [h] <;> simp [shapeKinds]
  have traits : s.type ∈ numberShapes ++ ["timestamp", "boolean"] → (TraitsSafe ast s.traits ↔ ShapeSafe ast s) := by
    intro h
    simp only [numberShapes, List.cons_append, List.nil_append, List.mem_cons, List.not_mem_nil, or_false] at h
    refine ⟨fun ht => ?_, fun hs => hs.traits ?_⟩
    · constructor
      case traits => exact fun _ => ht
      all_goals rcases h with h | h | h | h | h | h | h | h | h | h <;> rw [h] <;> simp [shapeKinds]
    · rcases h with h | h | h | h | h | h | h | h | h | h <;> rw [h] <;> decide
  have members : s.type ∈ ["structure", "union", "enum"] → (TraitsSafe ast s.traits ∧ (∀ km ∈ s.members, TraitsSafe ast km.2.traits) ↔ ShapeSafe ast s) := by
    intro h
    refine ⟨fun ht => ?_, fun hs => ⟨hs.traits ?_, hs.members h⟩⟩
    · simp only [List.mem_cons, List.not_mem_nil, or_false] at h
      constructor
      case traits => exact fun _ => ht.1
      case members => exact fun _ => ht.2
      all_goals rcases h with h | h | h <;> rw [h] <;> simp [shapeKinds]
    · simp only [List.mem_cons, List.not_mem_nil, or_false] at h
      rcases h with h | h | h <;> rw [h] <;> decide
  have list : s.type ∈ ["list", "set"] → (s.member ≠ none ↔ ShapeSafe ast s) := by
    intro h
    refine ⟨fun ht => ?_, fun hs => hs.list h⟩
    simp only [List.mem_cons, List.not_mem_nil, or_false] at h
    constructor
    case list => exact fun _ => ht
    all_goals rcases h with h | h <;> rw [h] <;> simp [shapeKinds]
  have listOk : ∀ u, OkIff (importListShape lib name s u) (s.member ≠ none) := by
    intro u
    unfold importListShape
    cases h : s.member with
    | none => exact (okIff_panic _).congr (by simp)
    | some mem => exact (okIff_ok _).congr (by simp)
  by_cases c1 : s.type ∈ numberShapes
  · rw [if_pos c1]; exact ((importTraits_safe lib ast s.traits []).then.then).congr (traits (List.mem_append_left _ c1))
  rw [if_neg c1]
  by_cases c2 : s.type = "string"
  · rw [if_pos c2]
    have := plain (by rw [c2]; decide)
    cases hs : importStringShape lib name s with
    | none => exact (okIff_ok _).congr ⟨fun _ => this, fun _ => trivial⟩
    | some t => exact (okIff_ok _).congr ⟨fun _ => this, fun _ => trivial⟩
  rw [if_neg c2]
  by_cases c3 : s.type = "timestamp"
  · rw [if_pos c3]; exact ((importTraits_safe lib ast s.traits []).then.then).congr (traits (by rw [c3]; decide))
  rw [if_neg c3]
  by_cases c4 : s.type = "boolean"
  · rw [if_pos c4]; exact ((importTraits_safe lib ast s.traits []).then.then).congr (traits (by rw [c4]; decide))
  rw [if_neg c4]
  by_cases c5 : s.type = "list"
  · rw [if_pos c5]; exact (listOk _).then.congr (list (by rw [c5]; decide))
  rw [if_neg c5]
  by_cases c6 : s.type = "set"
  · rw [if_pos c6]; exact (listOk _).then.congr (list (by rw [c6]; decide))
  rw [if_neg c6]
  by_cases c7 : s.type = "map"
  · rw [if_pos c7]
    refine OkIff.congr (P := s.key ≠ none ∧ s.value ≠ none) (OkIff.then ?_) ⟨fun h => ?_, fun h => h.map c7⟩
    · unfold importMapShape
      cases hk : s.key with
      | none => exact (okIff_panic _).congr (by simp)
      | some k => cases hv : s.value with
        | none => exact (okIff_panic _).congr (by simp)
        | some v => exact (okIff_ok _).congr (by simp)
    · constructor
      case map => exact fun _ => h
      all_goals rw [c7]; simp [shapeKinds]
  rw [if_neg c7]
  by_cases c8 : s.type = "structure"
  · rw [if_pos c8]
    exact (((importTraits_safe lib ast s.traits []).bind fun a => (importFields_safe lib ast s.members).then).then).congr (members (by rw [c8]; decide))
  rw [if_neg c8]
  by_cases c9 : s.type = "union"
  · rw [if_pos c9]
    exact (((importTraits_safe lib ast s.traits []).bind fun a => (importVariants_safe lib ast s.members).then).then).congr (members (by rw [c9]; decide))
  rw [if_neg c9]
  by_cases c10 : s.type = "blob"
  · rw [if_pos c10]
    exact (okIff_ok _).congr ⟨fun _ => plain (by rw [c10]; decide), fun _ => trivial⟩
  rw [if_neg c10]
  by_cases c11 : s.type = "enum"
  · rw [if_pos c11]
    exact (((importTraits_safe lib ast s.traits []).bind fun a => (importElements_safe lib ast s.members).then).then).congr (members (by rw [c11]; decide))
  rw [if_neg c11]
  by_cases c12 : s.type = "service"
  · rw [if_pos c12]; exact (okIff_ok _).congr ⟨fun _ => plain (by rw [c12]; decide), fun _ => trivial⟩
  rw [if_neg c12]
  by_cases c13 : s.type = "operation"
  · rw [if_pos c13]
    refine (importOperation_safe lib suf ast name s acc).congr ⟨fun h => ?_, fun h => ⟨h.traits (by rw [c13]; decide), h.operation c13⟩⟩
    constructor
    case traits => exact fun _ => h.1
    case operation => exact fun _ => h.2
    all_goals rw [c13]; simp [shapeKinds]
  rw [if_neg c13]
  by_cases c14 : s.type = "resource"
  · rw [if_pos c14]; exact (okIff_ok _).congr ⟨fun _ => plain (by rw [c14]; decide), fun _ => trivial⟩
  rw [if_neg c14]
  refine (okIff_panic _).congr ⟨fun h => h.elim, fun h => ?_⟩
  have hk := h.kind
  simp only [numberShapes, List.mem_cons, List.not_mem_nil, or_false, not_or] at c1
  simp [shapeKinds, c1, c2, c3, c4, c5, c6, c7, c8, c9, c10, c11, c12, c13, c14] at hk

theorem service_safe (ast : Ast) {s : Shape} (h : s.type = "service") : ShapeSafe ast s := by
  constructor <;> rw [h] <;> simp [shapeKinds]

theorem importShapes_safe (lib : SLib) (suf : Suffixes) (ast : Ast) (io : List String) (service : String) (shapes : GoMap Shape) (acc : Imported) :
    OkIff (importShapes lib suf ast io service shapes acc) (∀ p ∈ shapes, p.1 ∉ io → ShapeSafe ast p.2) := by
  induction shapes generalizing acc with
  | nil => exact (okIff_ok _).congr ⟨fun _ kv h => absurd h List.not_mem_nil, fun _ => trivial⟩
  | cons ks rest ih =>
    obtain ⟨k, s⟩ := ks
    unfold importShapes
    by_cases c : s.type ≠ "service" ∨ k = service
    · rw [if_pos c]
      refine ((importShape_safe lib suf ast io k s acc).bind fun a => ih a).congr ?_
      simp only [List.forall_mem_cons]
    · rw [if_neg c]
      refine (ih acc).congr ?_
      simp only [List.forall_mem_cons]
      have : s.type = "service" := Decidable.not_not.1 fun h => c (.inl h)
      exact ⟨fun h => ⟨fun _ => service_safe ast this, h⟩, fun h => h.2⟩

/-- The scan collects all inputs and outputs. -/
theorem scanShapes_bound {service : String} {shapes : GoMap Shape} {found : String × String} {io : List String} {r : (String × String) × List String}
    (h : scanShapes service shapes found io = .ok r) :
    (∀ n ∈ io, n ∈ r.2) ∧ ∀ n k op, (k, op) ∈ shapes → op.type = "operation" → op.input = some n ∨ op.output = some n → n ∈ r.2 := by
  induction shapes generalizing found io with
  | nil => cases h; exact ⟨fun _ h => h, fun n k op hm => absurd hm List.not_mem_nil⟩
  | cons ks rest ih =>
    obtain ⟨k0, s⟩ := ks
    have next : ∀ {f : String × String}, s.type ≠ "operation" → scanShapes service rest f io = .ok r →
        (∀ n ∈ io, n ∈ r.2) ∧ ∀ n k op, (k, op) ∈ (k0, s) :: rest → op.type = "operation" → op.input = some n ∨ op.output = some n → n ∈ r.2 := by
      intro f hne hf
      refine ⟨(ih hf).1, fun n k op hm ht ho => ?_⟩
      rcases List.mem_cons.1 hm with e | e
      · cases e; exact absurd ht hne
      · exact (ih hf).2 n k op e ht ho
    unfold scanShapes at h
    by_cases c1 : s.type = "service"
    · have hne : s.type ≠ "operation" := by rw [c1]; decide
      rw [if_pos c1] at h
      by_cases c2 : service ≠ ""
      · rw [if_pos c2] at h
        by_cases c3 : k0 ≠ service
        · rw [if_pos c3] at h; exact next hne h
        · rw [if_neg c3] at h; exact next hne h
      · rw [if_neg c2] at h
        by_cases c3 : found.1 ≠ ""
        · rw [if_pos c3] at h; cases h
        · rw [if_neg c3] at h; exact next hne h
    · rw [if_neg c1] at h
      by_cases c2 : s.type = "operation"
      · rw [if_pos c2] at h
        refine ⟨fun n hn => (ih h).1 n (List.mem_append_left _ (List.mem_append_left _ hn)), fun n k op hm ht ho => ?_⟩
        rcases List.mem_cons.1 hm with e | e
        · cases e
          apply (ih h).1
          rcases ho with ho | ho
          · exact List.mem_append_left _ (List.mem_append_right _ (by rw [ho]; simp))
          · exact List.mem_append_right _ (by rw [ho]; simp)
        · exact (ih h).2 n k op e ht ho
      · rw [if_neg c2] at h; exact next c2 h

/-- When the scan ends: it does not panic. -/
theorem scanShapes_ok (service : String) (shapes : GoMap Shape) (found : String × String) (io : List String) (hk : ∀ p ∈ shapes, p.1 ≠ "") :
    if service ≠ "" ∨ (shapes.filter fun p => p.2.type = "service").length ≤ (if found.1 = "" then 1 else 0)
    then ∃ r, scanShapes service shapes found io = .ok r else ∃ e, scanShapes service shapes found io = .err e := by
  induction shapes generalizing found io with
  | nil => simp [scanShapes]
  | cons ks rest ih =>
    obtain ⟨k0, s⟩ := ks
    have hk' : ∀ p ∈ rest, p.1 ≠ "" := fun p hp => hk p (.tail _ hp)
    have hk0 : k0 ≠ "" := hk _ (.head _)
    unfold scanShapes
    by_cases c1 : s.type = "service"
    · rw [if_pos c1]
      rw [List.filter_cons_of_pos (by simpa using c1)]
      by_cases c2 : service ≠ ""
      · rw [if_pos (.inl c2), if_pos c2]
        by_cases c3 : k0 ≠ service
        · rw [if_pos c3]; have := ih found io hk'; rw [if_pos (.inl c2)] at this; exact this
        · rw [if_neg c3]; have := ih (k0, s.version) io hk'; rw [if_pos (.inl c2)] at this; exact this
      · rw [if_neg (c := service ≠ "") c2]
        by_cases c3 : found.1 ≠ ""
        · rw [if_pos c3, if_neg (c := found.1 = "") c3]
          rw [if_neg (by
            rintro (h | h)
            · exact c2 h
            · simp at h)]
          exact ⟨_, rfl⟩
        · rw [if_neg (c := found.1 ≠ "") c3]
          have c3 : found.1 = "" := Decidable.not_not.1 c3
          have := ih (k0, s.version) io hk'
          rw [if_neg (c := (k0, s.version).1 = "") hk0] at this
          rw [if_pos (c := found.1 = "") c3]
          have e : ∀ n : Nat, n + 1 ≤ 1 ↔ n ≤ 0 := by omega
          simp only [List.length_cons, e]
          exact this
    · rw [if_neg c1]
      rw [List.filter_cons_of_neg (by simpa using c1)]
      by_cases c2 : s.type = "operation"
      · rw [if_pos c2]; exact ih _ _ hk'
      · rw [if_neg c2]; exact ih _ _ hk'

end Smithy
end Sadl
