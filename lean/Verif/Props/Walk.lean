import Verif.Props.Import
import Verif.Props.Accepted
import Verif.Spec.Walk
/-
C97: the files that an import reads.
-/
namespace Sadl.Props
open Sadl Sadl.Spec Sadl.Import

theorem knownExt_iff (p : String) : (mget importFileExtensions (ext p)).isSome = true ↔ KnownExt p := by
  unfold KnownExt
  have key : ∀ e : String, (mget importFileExtensions e).isSome = true ↔ e ∈ [".sadl", ".smithy", ".graphql", ".json", ".yaml"] := by
    intro e
    simp only [importFileExtensions, mget, List.mem_cons, List.not_mem_nil, or_false]
    split
    · simp_all
    · split
      · simp_all
      · split
        · simp_all
        · split
          · simp_all
          · split
            · simp_all
            · simp_all [eq_comm]
  exact key _

mutual
theorem walkTree_whole {t : Tree} (p : String) (h : NoErrors t) : (walkTree p t).2 = true ∧
    ∀ q, q ∈ (walkTree p t).1 ↔ FileBelow p t q ∨ DirBelow p t q := by
  cases t with
  | file =>
    refine ⟨rfl, fun q => ?_⟩
    simp only [walkTree, List.mem_singleton]
    constructor
    · rintro rfl; exact .inl .here
    · rintro (h | h) <;> cases h; rfl
  | broken => cases h
  | dir es =>
    have hes : ∀ e ∈ es, NoErrors e.2 := by cases h; assumption
    obtain ⟨h1, h2⟩ := walkEntries_whole (es := es) p hes
    simp only [walkTree, List.mem_cons]
    refine ⟨h1, fun q => ?_⟩
    rw [h2]
    constructor
    · rintro (rfl | ⟨e, he, h | h⟩)
      · exact .inr .here
      · exact .inl (.entry he h)
      · exact .inr (.entry he h)
    · rintro (h | h)
      · cases h with | entry he h => exact .inr ⟨_, he, .inl h⟩
      · cases h with
        | here => exact .inl rfl
        | entry he h => exact .inr ⟨_, he, .inr h⟩
theorem walkEntries_whole {es : List (String × Tree)} (p : String) (h : ∀ e ∈ es, NoErrors e.2) : (walkEntries p es).2 = true ∧
    ∀ q, q ∈ (walkEntries p es).1 ↔ ∃ e ∈ es, FileBelow (joinPath p e.1) e.2 q ∨ DirBelow (joinPath p e.1) e.2 q := by
  cases es with
  | nil => simp [walkEntries]
  | cons x rest =>
    obtain ⟨n, t⟩ := x
    obtain ⟨h1, h2⟩ := walkTree_whole (t := t) (joinPath p n) (h (n, t) (by simp))
    obtain ⟨h3, h4⟩ := walkEntries_whole (es := rest) p fun e he => h e (by simp [he])
    simp only [walkEntries, h1, if_true, h3, List.mem_append, h2, h4, List.mem_cons, exists_eq_or_imp, true_and]
    intro q
    trivial
end

instance (p : String) : Decidable (KnownExt p) := inferInstanceAs (Decidable (_ ∈ _))

section
variable {M : Type} (fs : FileSystem) (valid : String → String → Bool) (run : String → List String → Out M)

/-- What one path gives. -/
def taken (path : String) : List String :=
  if (mget importFileExtensions (ext path)).isSome then [path]
  else if fs.stat path = some true then (walkTree path (fs.tree path)).1.filter fun p => (mget importFileExtensions (ext p)).isSome else []

theorem expandPaths_taken (paths : List String) : expandPaths (World.on fs valid run) paths =
    if ∀ p ∈ paths, KnownExt p ∨ fs.stat p ≠ none then .ok (paths.flatMap (taken fs)) else .err "stat" := by
  induction paths with
  | nil => simp [expandPaths]
  | cons p ps ih =>
    unfold expandPaths
    rw [ih]
    by_cases hk : KnownExt p
    · have hk' := (knownExt_iff p).2 hk
      rw [if_pos hk']
      by_cases hr : ∀ p ∈ ps, KnownExt p ∨ fs.stat p ≠ none
      · rw [if_pos hr, if_pos (by simpa [hk] using hr)]
        simp only [List.flatMap_cons]
        conv_rhs => rw [taken, if_pos hk']
        rfl
      · rw [if_neg hr, if_neg (by simpa [hk] using hr)]
        rfl
    · have hk' : ¬ (mget importFileExtensions (ext p)).isSome = true := fun h => hk ((knownExt_iff p).1 h)
      rw [if_neg hk']
      cases hs : fs.stat p with
      | none =>
        have hneg : ¬ ∀ q ∈ p :: ps, KnownExt q ∨ fs.stat q ≠ none := fun h => by simpa [hk, hs] using h p (by simp)
        have hst : (World.on fs valid run).stat p = none := hs
        rw [hst, if_neg hneg]
      | some d =>
        have hst : (World.on fs valid run).stat p = some d := hs
        rw [hst]
        by_cases hr : ∀ p ∈ ps, KnownExt p ∨ fs.stat p ≠ none
        · rw [if_pos hr, if_pos (by simpa [hk, hs] using hr)]
          simp only [List.flatMap_cons]
          conv_rhs => rw [taken, if_neg hk', hs]
          cases d <;> rfl
        · rw [if_neg hr, if_neg (by simpa [hk, hs] using hr)]
          rfl

/-- C97: a list of files and directories is refused exactly when one that does not have an extension of a format cannot be looked at. -/
theorem C97_refused_iff (paths : List String) : (∃ e, expandPaths (World.on fs valid run) paths = .err e) ↔ ∃ p ∈ paths, ¬ KnownExt p ∧ fs.stat p = none := by
  rw [expandPaths_taken]
  split
  · rename_i h
    constructor
    · rintro ⟨e, he⟩; cases he
    · rintro ⟨p, hp, h1, h2⟩
      exact absurd (h p hp) (by simp [h1, h2])
  · rename_i h
    refine ⟨fun _ => ?_, fun _ => ⟨_, rfl⟩⟩
    simpa using h

/-- C97: the files that are read are those that are given and those in the given directories, at any depth, that have the
extension of a format. -/
theorem C97_files_partial (paths flat : List String) (h : expandPaths (World.on fs valid run) paths = .ok flat) (hs : Searchable fs paths) (q : String) :
    q ∈ flat ↔ ∃ path ∈ paths, LeadsTo fs path q := by
  rw [expandPaths_taken] at h
  split at h
  · injection h with h
    subst h
    simp only [List.mem_flatMap]
    refine exists_congr fun p => and_congr_right fun hp => ?_
    unfold taken
    by_cases hk : KnownExt p
    · rw [if_pos ((knownExt_iff p).2 hk)]
      simp only [List.mem_singleton]
      constructor
      · rintro rfl; exact .itself hk
      · intro h
        cases h with
        | itself _ => rfl
        | below h _ _ _ => exact absurd hk h
    · rw [if_neg fun h => hk ((knownExt_iff p).1 h)]
      by_cases hd : fs.stat p = some true
      · rw [if_pos hd, List.mem_filter, (walkTree_whole p (hs.whole p hp hk hd)).2, knownExt_iff]
        constructor
        · rintro ⟨h | h, hq⟩
          · exact .below hk hd h hq
          · exact absurd hq (hs.names p hp hk hd q h)
        · intro h
          cases h with
          | itself h => exact absurd h hk
          | below _ _ h hq => exact ⟨.inl h, hq⟩
      · rw [if_neg hd]
        simp only [List.not_mem_nil, false_iff]
        intro h
        cases h with
        | itself h => exact hk h
        | below _ h _ _ => exact hd h
  · cases h

/-- C97: what the paths lead to is read in the order of the paths. -/
theorem C97_order (a b fa fb : List String) (ha : expandPaths (World.on fs valid run) a = .ok fa) (hb : expandPaths (World.on fs valid run) b = .ok fb) :
    expandPaths (World.on fs valid run) (a ++ b) = .ok (fa ++ fb) := by
  rw [expandPaths_taken] at ha hb ⊢
  split at ha
  · split at hb
    · rename_i h1 h2
      injection ha with ha
      injection hb with hb
      rw [if_pos, List.flatMap_append, ha, hb]
      intro p hp
      rcases List.mem_append.1 hp with h | h
      · exact h1 p h
      · exact h2 p h
    · cases hb
  · cases ha

end

/-! ### Smithy -/

theorem smithyExt_iff (p : String) : (mget smithyExtensions (ext p)).isSome = true ↔ ext p = ".smithy" ∨ ext p = ".json" := by
  simp only [smithyExtensions, mget]
  split
  · simp_all
  · split
    · simp_all
    · simp_all [eq_comm]

/-- C97: the Smithy importer reads exactly the files that were chosen for it. -/
theorem C97_smithy_paths {M : Type} (w : World M) (fs : FileSystem) (ps : List String) (h : ∀ p ∈ ps, IsKind w p "smithy") : smithyPaths fs ps = .ok ps := by
  induction ps with
  | nil => rfl
  | cons p ps ih =>
    have hp : (mget smithyExtensions (ext p)).isSome = true := by
      obtain ⟨b, a, h1, _⟩ := h p (by simp)
      rw [smithyExt_iff]
      have key : ∀ e ∈ importFileExtensions, "smithy" ∈ e.2 → e.1 = ".smithy" ∨ e.1 = ".json" := by decide
      exact key _ (mget_mem h1) (by simp)
    unfold smithyPaths
    rw [if_pos hp, ih fun q hq => h q (by simp [hq])]
    rfl

/-- C97: given directories, the Smithy importer reads exactly the Smithy files in them, at any depth, next to the files that were given; a path
that does not exist is an error. -/
theorem C97_smithy_expand_partial (fs : FileSystem) (ps : List String) (hs : SmithySearchable fs ps) :
    (∀ r, smithyPaths fs ps = .ok r → ∀ q, q ∈ r ↔ ∃ p ∈ ps, SmithyLeadsTo fs p q) ∧
    ((∃ r, smithyPaths fs ps = .ok r) ↔ ∀ p ∈ ps, SmithyExt p ∨ fs.stat p ≠ none) := by
  induction ps with
  | nil => exact ⟨fun r h q => by simp only [smithyPaths] at h; cases h; simp, by simp [smithyPaths]⟩
  | cons p ps ih =>
    obtain ⟨ih1, ih2⟩ := ih ⟨fun q hq => hs.whole q (by simp [hq]), fun q hq => hs.names q (by simp [hq])⟩
    have bind_ok : ∀ (f : List String → List String), (∃ r, ((smithyPaths fs ps).bind fun r => .ok (f r)) = .ok r) ↔ ∃ r, smithyPaths fs ps = .ok r := by
      intro f
      cases smithyPaths fs ps <;> simp [Out.bind]
    unfold smithyPaths
    by_cases hp : (mget smithyExtensions (ext p)).isSome = true
    · rw [if_pos hp]
      have hk : SmithyExt p := (smithyExt_iff p).1 hp
      constructor
      · intro r h q
        cases hr : smithyPaths fs ps with
        | ok r' =>
          rw [hr] at h
          simp only [Out.bind] at h
          cases h
          simp only [List.mem_cons, ih1 r' hr, exists_eq_or_imp]
          refine or_congr ⟨?_, ?_⟩ Iff.rfl
          · rintro rfl; exact .itself hk
          · intro h
            cases h with
            | itself _ => rfl
            | below h => exact absurd hk h
        | err e => rw [hr] at h; cases h
        | panic e => rw [hr] at h; cases h
      · rw [bind_ok, ih2]
        simp [hk]
    · rw [if_neg hp]
      have hk : ¬ SmithyExt p := fun h => hp ((smithyExt_iff p).2 h)
      cases hst : fs.stat p with
      | none =>
        refine ⟨fun r h => by simp at h, ?_⟩
        simp [hk, hst]
      | some isDir =>
        simp only
        constructor
        · intro r h q
          cases hr : smithyPaths fs ps with
          | ok r' =>
            rw [hr] at h
            simp only [Out.bind] at h
            cases h
            simp only [List.mem_append, ih1 r' hr, List.mem_cons, exists_eq_or_imp]
            refine or_congr ?_ Iff.rfl
            cases isDir with
            | false =>
              simp only [Bool.false_eq_true, if_false, List.not_mem_nil, false_iff]
              intro h
              cases h with
              | itself h => exact hk h
              | below _ h => rw [hst] at h; cases h
            | true =>
              have hw := walkTree_whole p (hs.whole p (by simp) hk hst)
              simp only [if_true, List.mem_filter, smithyExt_iff, hw.2 q]
              constructor
              · rintro ⟨h | h, he⟩
                · exact .below hk hst h he
                · exact absurd he (hs.names p (by simp) hk hst q h)
              · intro h
                cases h with
                | itself h => exact absurd h hk
                | below _ _ h he => exact ⟨.inl h, he⟩
          | err e => rw [hr] at h; cases h
          | panic e => rw [hr] at h; cases h
        · rw [bind_ok, ih2]
          simp [hst]

/-- A directory with a Smithy file, another file, and a directory with a file in it. -/
def smithyDir : FileSystem :=
  { stat := fun p => if p = "m" then some true else none
    tree := fun _ => .dir [("a.smithy", .file), ("b.txt", .file), ("sub", .dir [("c.json", .file)])] }

theorem C97_smithy_expand_example : smithyPaths smithyDir ["m", "d.smithy"] = .ok ["m/a.smithy", "m/sub/c.json", "d.smithy"] ∧
    SmithySearchable smithyDir ["m", "d.smithy"] := by
  have h : (match smithyPaths smithyDir ["m", "d.smithy"] with | .ok r => r == ["m/a.smithy", "m/sub/c.json", "d.smithy"] | _ => false) = true := by decide +kernel
  constructor
  · split at h
    · next r hr => rw [hr, eq_of_beq h]
    · cases h
  · have fe : NoErrors (.dir [("a.smithy", .file), ("b.txt", .file), ("sub", .dir [("c.json", .file)])]) := by
      refine .dir fun e he => ?_
      simp only [List.mem_cons, List.not_mem_nil, or_false] at he
      rcases he with rfl | rfl | rfl
      · exact .file
      · exact .file
      · exact .dir fun e he => by simp only [List.mem_cons, List.not_mem_nil, or_false] at he; subst he; exact .file
    refine ⟨fun p _ _ _ => fe, fun p hp hk hst q hq => ?_⟩
    have hpm : p = "m" := by
      simp only [List.mem_cons, List.not_mem_nil, or_false] at hp
      rcases hp with rfl | rfl
      · rfl
      · simp [smithyDir] at hst
    subst hpm
    have n1 : ¬ SmithyExt "m" := by unfold SmithyExt; decide +kernel
    have n2 : ¬ SmithyExt (joinPath "m" "sub") := by unfold SmithyExt; decide +kernel
    cases hq with
    | here => exact n1
    | entry he hq =>
      simp only [List.mem_cons, List.not_mem_nil, or_false, Prod.mk.injEq] at he
      rcases he with ⟨rfl, rfl⟩ | ⟨rfl, rfl⟩ | ⟨rfl, rfl⟩
      · cases hq
      · cases hq
      · cases hq with
        | here => exact n2
        | entry he hq =>
          simp only [List.mem_cons, List.not_mem_nil, or_false, Prod.mk.injEq] at he
          obtain ⟨rfl, rfl⟩ := he
          cases hq

/-- The models of the files. -/
inductive ReadsAll {A : Type} (l : SmithyLib A) : A → List String → A → Prop
  | nil {a} : ReadsAll l a [] a
  | json {a b c d p ps} : ext p = ".json" → l.load p = .ok b → l.merge a b = .ok c → ReadsAll l c ps d → ReadsAll l a (p :: ps) d
  | smithy {a b c d p ps} : ext p = ".smithy" → l.parse p = .ok b → l.merge a b = .ok c → ReadsAll l c ps d → ReadsAll l a (p :: ps) d

theorem mergeFiles_iff {A : Type} (l : SmithyLib A) (ps : List String) : ∀ a d, mergeFiles l a ps = .ok d ↔ ReadsAll l a ps d := by
  induction ps with
  | nil =>
    intro a d
    constructor
    · intro h; injection h with h; subst h; exact .nil
    · intro h; cases h; rfl
  | cons p ps ih =>
    intro a d
    unfold mergeFiles
    by_cases hj : ext p = ".json"
    · rw [if_pos hj]
      constructor
      · intro h
        cases hl : l.load p with
        | ok b =>
          rw [hl] at h
          change (l.merge a b).bind _ = _ at h
          cases hm : l.merge a b with
          | ok c =>
            rw [hm] at h
            exact .json hj hl hm ((ih c d).1 h)
          | err e => rw [hm] at h; cases h
          | panic e => rw [hm] at h; cases h
        | err e => rw [hl] at h; cases h
        | panic e => rw [hl] at h; cases h
      · intro h
        cases h with
        | json _ h1 h2 h3 =>
          rw [h1]
          show (l.merge a _).bind _ = _
          rw [h2]
          exact (ih _ d).2 h3
        | smithy h0 _ _ _ => rw [hj] at h0; exact absurd h0 (by decide)
    · rw [if_neg hj]
      by_cases hs : ext p = ".smithy"
      · rw [if_pos hs]
        constructor
        · intro h
          cases hl : l.parse p with
          | ok b =>
            rw [hl] at h
            change (l.merge a b).bind _ = _ at h
            cases hm : l.merge a b with
            | ok c =>
              rw [hm] at h
              exact .smithy hs hl hm ((ih c d).1 h)
            | err e => rw [hm] at h; cases h
            | panic e => rw [hm] at h; cases h
          | err e => rw [hl] at h; cases h
          | panic e => rw [hl] at h; cases h
        · intro h
          cases h with
          | json h0 _ _ _ => exact absurd h0 hj
          | smithy _ h1 h2 h3 =>
            rw [h1]
            show (l.merge a _).bind _ = _
            rw [h2]
            exact (ih _ d).2 h3
      · rw [if_neg hs]
        constructor
        · intro h; cases h
        · intro h
          cases h with
          | json h0 _ _ _ => exact absurd h0 hj
          | smithy h0 _ _ _ => exact absurd h0 hs

/-- C97: the model that is imported from Smithy files is that of all files, merged in order, if it is valid. -/
theorem C97_smithy_model {A M : Type} (w : World M) (fs : FileSystem) (l : SmithyLib A) (ps : List String) (h : ∀ p ∈ ps, IsKind w p "smithy") (a : A) :
    assembleModel l fs ps = .ok a ↔ ReadsAll l l.empty ps a ∧ l.validate a = .ok () := by
  unfold assembleModel
  rw [C97_smithy_paths w fs ps h]
  change (mergeFiles l l.empty ps).bind _ = _ ↔ _
  rw [← mergeFiles_iff]
  cases hm : mergeFiles l l.empty ps with
  | ok b =>
    change (l.validate b).bind _ = _ ↔ _
    constructor
    · intro h
      cases hv : l.validate b with
      | ok u => rw [hv] at h; injection h with h; subst h; exact ⟨rfl, hv⟩
      | err e => rw [hv] at h; cases h
      | panic e => rw [hv] at h; cases h
    · rintro ⟨h1, h2⟩
      injection h1 with h1
      subst h1
      rw [h2]
      rfl
  | err e => simp [Out.bind]
  | panic e => simp [Out.bind]

/-! ### Examples -/

/-- A file system with one directory. -/
def oneDir (es : List (String × Tree)) : FileSystem := { stat := fun p => if p = "src" then some true else none, tree := fun p => if p = "src" then .dir es else .broken }

/-- The files that are found in the directory `src`. -/
def foundIn (es : List (String × Tree)) : Option (List String) :=
  match expandPaths (M := Unit) (World.on (oneDir es) (fun _ _ => true) fun _ _ => .ok ()) ["src"] with | .ok l => some l | _ => none

/-- C97 on an example. -/
theorem C97_example : foundIn [("a.sadl", .file), ("more", .dir [("b.json", .file), ("c.txt", .file)])] = some ["src/a.sadl", "src/more/b.json"] := by
  decide +kernel

/-- The hypothesis of `C97_files_partial` can be met. -/
theorem C97_example_searchable : Searchable (oneDir [("a.sadl", .file), ("more", .dir [("b.json", .file)])]) ["src"] where
  whole := by
    intro p hp _ _
    simp only [List.mem_singleton] at hp
    subst hp
    exact .dir (by
      intro e he
      simp only [List.mem_cons, List.not_mem_nil, or_false] at he
      rcases he with rfl | rfl
      · exact .file
      · exact .dir (by intro e he; simp only [List.mem_singleton] at he; subst he; exact .file))
  names := by
    intro p hp _ _ q hq
    simp only [List.mem_singleton] at hp
    subst hp
    change DirBelow "src" (.dir _) q at hq
    have h1 : ¬ KnownExt "src" := by unfold KnownExt; decide +kernel
    have h2 : ¬ KnownExt (joinPath "src" "more") := by unfold KnownExt; decide +kernel
    cases hq with
    | here => exact h1
    | entry he h =>
      simp only [List.mem_cons, List.not_mem_nil, or_false, Prod.mk.injEq] at he
      rcases he with ⟨rfl, rfl⟩ | ⟨rfl, rfl⟩
      · cases h
      · cases h with
        | here => exact h2
        | entry he h =>
          simp only [List.mem_singleton, Prod.mk.injEq] at he
          obtain ⟨rfl, rfl⟩ := he
          cases h

/-- C97: a directory that cannot be read hides the files after it, and no error is reported. -/
theorem C97_refuted_unreadable : foundIn [("a.sadl", .file), ("b", .broken), ("c.sadl", .file)] = some ["src/a.sadl"] := by decide +kernel

/-- C97: a directory whose name has the extension of a format is read as a file. -/
theorem C97_refuted_directory : foundIn [("old.json", .dir [])] = some ["src/old.json"] := by decide +kernel

/-- C97: a file that is given and is also in a given directory is read twice. -/
theorem C97_refuted_twice : (match expandPaths (M := Unit) (World.on (oneDir [("a.smithy", .file)]) (fun _ _ => true) fun _ _ => .ok ())
    ["src/a.smithy", "src"] with | .ok l => some l | _ => none) = some ["src/a.smithy", "src/a.smithy"] := by decide +kernel

end Sadl.Props
