import Verif.Lemmas.TypeRefs
import Verif.Props.ValidateStuck
/-
C103: the set of built-in types a model makes use of.
-/
namespace Sadl.Props
open Sadl Sadl.Spec

/-- C103: if the collection returns, it has exactly the built-in types that some type of the model leads to. -/
theorem C103_result (s : Schema) (m : Model) (h : newModel s = .ok m) (fuel : Nat) (r : GoMap Bool)
    (hr : allTypeRefs m fuel = some (.ok r)) (k : String) : mget r k = some true ↔ BuiltInUsed s k := by
  have hs : m.schema = s := ((newModel_ok_iff s m).1 h).2.2.2 ▸ rfl
  unfold allTypeRefs at hr
  rw [hs] at hr
  have := (noteAll_each (P := fun refs r td => Noted s refs r td.ts) (fun refs td r h' => note_sound h fuel refs td.ts r h')
    (fun refs r td hp => hp) _ _ _ hr).2 k
  rw [this]
  simp [mget, BuiltInUsed]

/-- C103: it returns exactly if every path from every type of the model ends, and ends at a known name. -/
theorem C103_returns (s : Schema) (m : Model) (h : newModel s = .ok m) :
    (∃ fuel r, allTypeRefs m fuel = some (.ok r)) ↔ ∀ td ∈ s.types, Grounded s td.ts := by
  have hs : m.schema = s := ((newModel_ok_iff s m).1 h).2.2.2 ▸ rfl
  unfold allTypeRefs
  rw [hs]
  constructor
  · rintro ⟨fuel, r, hr⟩
    exact (noteAll_each (P := fun refs r td => Noted s refs r td.ts) (fun refs td r h' => note_sound h fuel refs td.ts r h')
      (fun refs r td hp => hp) _ _ _ hr).1
  · intro hg
    obtain ⟨n, hn⟩ := noteAll_returns (fun fuel refs (td : TypeDef) => noteTypeRefs m fuel refs td.ts) s.types
      (fun td htd => note_returns h (hg td htd))
    obtain ⟨r, hr⟩ := hn n le_rfl []
    exact ⟨n, r, hr⟩

/-- C103: both, for the model of an accepted source. -/
theorem C103_accepted_partial (lib : PLib) (m : Model) (h : Accepted lib m) :
    (∀ fuel r, allTypeRefs m fuel = some (.ok r) → ∀ k, mget r k = some true ↔ BuiltInUsed m.schema k) ∧
    ((∃ fuel r, allTypeRefs m fuel = some (.ok r)) ↔ ∀ td ∈ m.schema.types, Grounded m.schema td.ts) :=
  ⟨fun fuel r => C103_result m.schema m (accepted_newModel h) fuel r, C103_returns m.schema m (accepted_newModel h)⟩

/-- A type that leads back to itself is not grounded. -/
theorem not_grounded {s : Schema} {ts : TypeSpec} (h : Relation.TransGen (TypeLeadsTo s) ts ts) : ¬ Grounded s ts := by
  intro hg
  induction hg with
  | @mk ts _ _ ih =>
    obtain ⟨t, h1, h2⟩ := (Relation.TransGen.head'_iff).1 h
    exact ih t h1 (Relation.TransGen.tail' h2 h1)

/-- `type Tree Struct { label String; children Array<Tree> }` -/
def treeSource : List Token :=
  [sym "type", sym "Tree", sym "Struct", punct .openBrace, nl, sym "label", sym "String", nl,
   sym "children", sym "Array", punct .openAngle, sym "Tree", punct .closeAngle, nl, punct .closeBrace, nl]

/-- The type of that name is a structure with a field that is an array of it. -/
def selfArray (m : Model) (name : String) : Bool :=
  m.schema.types.any fun td => decide (td.name = name ∧ td.ts.type = "Struct") &&
    td.ts.fields.any fun f => decide (f.ts.type = "Array" ∧ f.ts.items = name)

/-- C103 fails for recursive types: for this accepted source the collection never returns. -/
theorem C103_refuted_recursive : ∃ m, Accepted noLib m ∧ ∀ fuel r, allTypeRefs m fuel ≠ some (.ok r) := by
  obtain ⟨m, h1, h2⟩ := accepted_of noLib treeSource (fun m => selfArray m "Tree") (by decide +kernel) (by decide +kernel)
  refine ⟨m, h1, fun fuel r hr => ?_⟩
  have hg := (C103_returns m.schema m (accepted_newModel h1)).1 ⟨fuel, r, hr⟩
  unfold selfArray at h2
  obtain ⟨td, htd, h3⟩ := List.any_eq_true.1 h2
  rw [Bool.and_eq_true] at h3
  obtain ⟨h4, h5⟩ := of_decide_eq_true h3.1
  obtain ⟨f, hf, h6⟩ := List.any_eq_true.1 h3.2
  obtain ⟨h7, h8⟩ := of_decide_eq_true h6
  refine not_grounded ?_ (hg td htd)
  exact .tail (.single (.field f h5 hf)) (.ref "Tree" (.inl ⟨h7, h8.symm⟩) (.inl ⟨td, htd, h4, rfl⟩))

/-- `type Rows Array<Map>` -/
def rowsSource : List Token := [sym "type", sym "Rows", sym "Array", punct .openAngle, sym "Map", punct .closeAngle, nl]

/-- `type Choice Union<String,Missing>` -/
def missingVariantSource : List Token :=
  [sym "type", sym "Choice", sym "Union", punct .openAngle, sym "String", punct .comma, sym "Missing", punct .closeAngle, nl]

/-- The collection crashes. -/
def refsPanic (m : Model) : Bool := match allTypeRefs m 10 with | some (.panic _) => true | _ => false

theorem refsPanic_iff {m : Model} (h : refsPanic m = true) : ∃ msg, allTypeRefs m 10 = some (.panic msg) := by
  unfold refsPanic at h
  split at h
  · next msg hm => exact ⟨msg, hm⟩
  · cases h

/-- C103 fails for bare collections: with an array of maps in an accepted source the collection crashes, because a bare `Map` has no
items and no keys to look up. -/
theorem C103_refuted_bare : ∃ m, Accepted noLib m ∧ ∃ fuel msg, allTypeRefs m fuel = some (.panic msg) := by
  obtain ⟨m, h1, h2⟩ := accepted_of noLib rowsSource refsPanic (by decide +kernel) (by decide +kernel)
  exact ⟨m, h1, 10, refsPanic_iff h2⟩

/-- C103 fails for unions of undefined types, which are accepted. -/
theorem C103_refuted_missing : ∃ m, Accepted noLib m ∧ ∃ fuel msg, allTypeRefs m fuel = some (.panic msg) := by
  obtain ⟨m, h1, h2⟩ := accepted_of noLib missingVariantSource refsPanic (by decide +kernel) (by decide +kernel)
  exact ⟨m, h1, 10, refsPanic_iff h2⟩

/-- A structure with a timestamp, a map of `Nums` and an open structure, and `type Nums Array<Int32>` -/
def pointSource : List Token :=
  [sym "type", sym "Point", sym "Struct", punct .openBrace, nl, sym "at", sym "Timestamp", nl,
   sym "tags", sym "Map", punct .openAngle, sym "String", punct .comma, sym "Nums", punct .closeAngle, nl,
   sym "open", sym "Struct", nl, punct .closeBrace, nl,
   sym "type", sym "Nums", sym "Array", punct .openAngle, sym "Int32", punct .closeAngle, nl]

def refsAre (m : Model) (yes no : List String) : Bool :=
  match allTypeRefs m 10 with
  | some (.ok r) => yes.all (fun k => mget r k = some true) && no.all (fun k => mget r k = none)
  | _ => false

/-- The hypotheses can be met: this accepted source makes use of timestamps, strings, integers and open structures, and not of
booleans or unions. -/
theorem C103_example : ∃ m, Accepted noLib m ∧ (∀ td ∈ m.schema.types, Grounded m.schema td.ts) ∧
    (∀ k ∈ ["Timestamp", "String", "Int32", "Struct"], BuiltInUsed m.schema k) ∧ ∀ k ∈ ["Bool", "Union", "Array", "Map", "Int64"], ¬ BuiltInUsed m.schema k := by
  obtain ⟨m, h1, h2⟩ := accepted_of noLib pointSource
    (fun m => refsAre m ["Timestamp", "String", "Int32", "Struct"] ["Bool", "Union", "Array", "Map", "Int64"]) (by decide +kernel) (by decide +kernel)
  unfold refsAre at h2
  obtain ⟨hr, hg⟩ := C103_accepted_partial noLib m h1
  split at h2
  · next r hm =>
    rw [Bool.and_eq_true, List.all_eq_true, List.all_eq_true] at h2
    refine ⟨m, h1, hg.1 ⟨10, r, hm⟩, fun k hk => (hr 10 r hm k).1 (by simpa using h2.1 k hk), fun k hk hu => ?_⟩
    have := (hr 10 r hm k).2 hu
    rw [of_decide_eq_true (h2.2 k hk)] at this
    cases this
  · cases h2

end Sadl.Props
