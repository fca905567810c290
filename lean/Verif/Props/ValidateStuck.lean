import Verif.Lemmas.ValidateStuck
import Verif.Props.Java
/-
C05: when validation returns, exactly.
-/
namespace Sadl.Props
open Sadl Sadl.Spec

/-- C05: exactly when `Validate` never returns, for definitions of built-in types: when the value gets to a type that is defined as
itself, such as `Union`. -/
theorem C05_exact_partial (lib : Lib) (s : Schema) (m : Model) (h : newModel s = .ok m) (hk : SimpleKinds s) (name : String) (v : Value)
    (hv : Real v) : RunsForever lib m name v ↔ ∃ ts, Defines s name ts ∧ Stuck lib (Defines s) ts v := by
  rw [← means_eq_defines h]
  constructor
  · intro hr
    cases hf : m.findType name with
    | none =>
      have := hr 0
      rw [validate, validateNamed, hf] at this
      cases this
    | some td =>
      refine ⟨td.ts, ⟨td, hf, rfl⟩, ?_⟩
      by_contra hs
      have hU : m.Means "Union" { type := "Union" } := by rw [means_eq_defines h]; exact .inr ⟨by decide, rfl⟩
      obtain ⟨n, hn⟩ := returns_all (lib := lib) (simple_model h hk) hU hv td.ts hs
      have := hr n
      rw [validate, validateNamed, hf] at this
      exact hn this
  · rintro ⟨ts, hd, hs⟩ fuel
    rw [validate, validateNamed_means hd]
    exact stuck_forever hs hv fuel

/-- C05: validation against the types of an accepted source returns in all other cases. -/
theorem C05_accepted_partial (plib : PLib) (m : Model) (h : Accepted plib m) (lib : Lib) (name : String) (v : Value) (hv : Real v) :
    (RunsForever lib m name v ↔ ∃ ts, Defines m.schema name ts ∧ Stuck lib (Defines m.schema) ts v) ∧
    ((¬ ∃ ts, Defines m.schema name ts ∧ Stuck lib (Defines m.schema) ts v) → Accepts lib m name v ∨ Rejects lib m name v) := by
  have key := C05_exact_partial lib m.schema m (accepted_newModel h) (accepted_kinds h) name v hv
  refine ⟨key, fun hs => ?_⟩
  rw [← key] at hs
  unfold RunsForever at hs
  push Not at hs
  obtain ⟨n, hn⟩ := hs
  cases hr : validate lib m n name v with
  | none => exact absurd hr hn
  | some r =>
    cases r with
    | ok u => exact .inl ⟨n, hr⟩
    | error e => exact .inr ⟨n, e, hr⟩

/-- `type Choice Union<String,Int32>` and `type Bag Array<Choice>` -/
def unionSource : List Token :=
  [sym "type", sym "Choice", sym "Union", punct .openAngle, sym "String", punct .comma, sym "Int32", punct .closeAngle, nl,
   sym "type", sym "Bag", sym "Array", punct .openAngle, sym "Choice", punct .closeAngle, nl]

/-- The type of that name is of the given kind, with the given items. -/
def kindOf (m : Model) (name kind items : String) : Bool :=
  match m.schema.types.find? (fun td => td.name = name) with
  | some td => decide (td.ts.type = kind ∧ td.ts.items = items)
  | none => false

theorem kindOf_defines {m : Model} {name kind items : String} (h : kindOf m name kind items = true) :
    ∃ td ∈ m.schema.types, td.name = name ∧ td.ts.type = kind ∧ td.ts.items = items := by
  unfold kindOf at h
  split at h
  · next td hf =>
    obtain ⟨h1, h2⟩ := of_decide_eq_true h
    exact ⟨td, List.mem_of_find?_eq_some hf, by simpa using List.find?_some hf, h1, h2⟩
  · cases h

/-- The hypotheses can be met: in an accepted source with a union and an array of it, the empty array is accepted or rejected, and an
array with anything in it is validated forever. -/
theorem C05_example : ∃ m, Accepted noLib m ∧ ∀ lib, (Accepts lib m "Bag" (.arr []) ∨ Rejects lib m "Bag" (.arr [])) ∧
    ∀ s, RunsForever lib m "Bag" (.arr [.str s]) := by
  obtain ⟨m, h1, h2⟩ := accepted_of noLib unionSource (fun m => kindOf m "Bag" "Array" "Choice" && kindOf m "Choice" "Union" "") (by decide +kernel)
    (by decide +kernel)
  rw [Bool.and_eq_true] at h2
  obtain ⟨tb, hb, b1, b2, b3⟩ := kindOf_defines h2.1
  obtain ⟨tc, hc, c1, c2, _⟩ := kindOf_defines h2.2
  have hn := accepted_newModel h1
  have db : Defines m.schema "Bag" tb.ts := .inl ⟨tb, hb, b1, rfl⟩
  refine ⟨m, h1, fun lib => ⟨(C05_accepted_partial noLib m h1 lib "Bag" _ (.arr (by simp))).2 ?_, fun s => ?_⟩⟩
  · rintro ⟨ts, hd, hs⟩
    rw [defines_unique hn hd db] at hs
    generalize hv : Value.arr [] = v at hs
    cases hs with
    | self t h _ _ => rw [b2] at h; exact h (by decide)
    | named t h _ _ => rw [b2] at h; exact h (by decide)
    | item pre x post => simp at hv
    | entry => cases hv
    | field => cases hv
    | amount => cases hv
    | unit => cases hv
  · refine (C05_accepted_partial noLib m h1 lib "Bag" _ (.arr fun x hx => ?_)).1.2 ⟨tb.ts, db, ?_⟩
    · rw [List.mem_singleton] at hx
      subst hx
      exact .atom (by simp) (by simp)
    · exact .item [] (.str s) [] tc.ts b2 (by rw [b3]; decide) (by rw [b3]; exact .inl ⟨tc, hc, c1, rfl⟩) (by simp)
        (.self { type := "Union" } (by rw [c2]; decide) (by rw [c2]; exact .inr ⟨by decide, rfl⟩) c2.symm)

/-- C05, refuted without unions too: `type List List` is accepted, and no value is ever accepted or rejected by it. -/
theorem C05_refuted_list : ∃ m, Accepted noLib m ∧ (∀ td ∈ m.schema.types, td.ts.type ≠ "Union") ∧ ∀ lib v, Real v → RunsForever lib m "List" v := by
  obtain ⟨m, h1, h2⟩ := accepted_of noLib [sym "type", sym "List", sym "List", nl]
    (fun m => kindOf m "List" "List" "Any" && m.schema.types.all fun td => decide (td.ts.type ≠ "Union")) (by decide +kernel) (by decide +kernel)
  rw [Bool.and_eq_true, List.all_eq_true] at h2
  obtain ⟨td, h3, h4, h5, _⟩ := kindOf_defines h2.1
  refine ⟨m, h1, fun x hx => of_decide_eq_true (h2.2 x hx), fun lib v hv => ?_⟩
  have hd : Defines m.schema "List" td.ts := .inl ⟨td, h3, h4, rfl⟩
  exact (C05_accepted_partial noLib m h1 lib "List" v hv).1.2 ⟨td.ts, hd, .self td.ts (by rw [h5]; decide) (by rw [h5]; exact hd) rfl⟩

end Sadl.Props
