import Verif.Lemmas.Basic
import Verif.Spec.GoExport
import Verif.Model.JavaGenerate
/-
Running the generator of Java: which files are written.
-/
namespace Sadl
open Sadl.Spec

/-- The step goes well. -/
def JavaStep.good : JavaStep → Prop
  | .check o => o = .ok ()
  | .file o => ∃ f, o = .ok f

/-- The file of a step, if it goes well. -/
def JavaStep.file? : JavaStep → Option JavaFile
  | .file (.ok f) => some f
  | _ => none

/-- Writing files until there is an error. -/
def writeAll (os : OS) : List (String × String) → Gen → Gen
  | [], g => g
  | (p, t) :: ws, g => match g.err with
    | some _ => g
    | none => writeAll os ws (g.writeFile os p t)

theorem writeAll_err {os : OS} {ws : List (String × String)} {g : Gen} {e : String} (h : g.err = some e) : writeAll os ws g = g := by
  cases ws with
  | nil => rfl
  | cons w ws => obtain ⟨p, t⟩ := w; simp [writeAll, h]

theorem writeAll_append (os : OS) (a b : List (String × String)) (g : Gen) : writeAll os (a ++ b) g = writeAll os b (writeAll os a g) := by
  induction a generalizing g with
  | nil => rfl
  | cons w a ih =>
    obtain ⟨p, t⟩ := w
    simp only [List.cons_append, writeAll]
    cases h : g.err with
    | some e => simp only; rw [writeAll_err h]
    | none => simp only; exact ih _

theorem writeFile_keepsConfig (os : OS) (g : Gen) (p t : String) : (g.writeFile os p t).config = g.config := by
  unfold Gen.writeFile
  split_ifs <;> rfl

theorem fileExists_iff (os : OS) (g : Gen) (p : String) : g.fileExists os p = true ↔ os.statFails p = true ∨ ∃ c, mget g.files p = some c := by
  unfold Gen.fileExists
  rw [Bool.or_eq_true, Option.isSome_iff_exists]

/-- The three outcomes of writing a file. -/
theorem writeFile_cases (os : OS) (g : Gen) (p t : String) :
    (Protected os g.config g.files p ∧ g.writeFile os p t = g) ∨
    (¬ Protected os g.config g.files p ∧ os.createFails p = true ∧ g.writeFile os p t = { g with err := some "create" }) ∨
    (¬ Protected os g.config g.files p ∧ os.createFails p = false ∧
      g.writeFile os p t = { g with files := mset g.files p (os.written p t), err := os.writeErr p t }) := by
  have hp : (asBool (dataGet g.config ["force-overwrite"]) = false ∧ g.fileExists os p = true) ↔ Protected os g.config g.files p := by
    unfold Protected
    rw [fileExists_iff]
  unfold Gen.writeFile
  by_cases h : asBool (dataGet g.config ["force-overwrite"]) = false ∧ g.fileExists os p = true
  · rw [if_pos h]; exact .inl ⟨hp.1 h, rfl⟩
  · rw [if_neg h]
    cases hc : os.createFails p with
    | true => exact .inr (.inl ⟨fun k => h (hp.2 k), rfl, rfl⟩)
    | false => exact .inr (.inr ⟨fun k => h (hp.2 k), rfl, rfl⟩)

theorem writeAll_config (os : OS) (ws : List (String × String)) (g : Gen) : (writeAll os ws g).config = g.config := by
  induction ws generalizing g with
  | nil => rfl
  | cons w ws ih =>
    obtain ⟨p, t⟩ := w
    unfold writeAll
    split
    · rfl
    · rw [ih, writeFile_keepsConfig]

/-- A path that is protected stays as it is. -/
theorem writeAll_protected (os : OS) (path : String) (ws : List (String × String)) (g : Gen) (h : Protected os g.config g.files path) :
    mget (writeAll os ws g).files path = mget g.files path := by
  induction ws generalizing g with
  | nil => rfl
  | cons w ws ih =>
    obtain ⟨p, t⟩ := w
    unfold writeAll
    split
    · rfl
    · rcases writeFile_cases os g p t with ⟨_, e⟩ | ⟨_, _, e⟩ | ⟨hn, _, e⟩
      · rw [e]; exact ih g h
      · rw [e]; exact ih { g with err := some "create" } h
      · have hne : path ≠ p := by rintro rfl; exact hn h
        have h2 : mget (mset g.files p (os.written p t)) path = mget g.files path := mget_mset_other _ _ _ _ hne
        rw [e]
        rw [ih]
        · exact h2
        · refine ⟨h.1, ?_⟩
          dsimp only
          rw [h2]; exact h.2

/-- A path that changes is one of those that are written. -/
theorem writeAll_changed (os : OS) (path : String) (ws : List (String × String)) (g : Gen) :
    mget (writeAll os ws g).files path = mget g.files path ∨
    ∃ t, (path, t) ∈ ws ∧ mget (writeAll os ws g).files path = some (os.written path t) := by
  induction ws generalizing g with
  | nil => exact .inl rfl
  | cons w ws ih =>
    obtain ⟨p, t⟩ := w
    unfold writeAll
    split
    · exact .inl rfl
    · rcases writeFile_cases os g p t with ⟨_, e⟩ | ⟨_, _, e⟩ | ⟨_, _, e⟩ <;> rw [e]
      · rcases ih g with h | ⟨t', h1, h2⟩
        · exact .inl h
        · exact .inr ⟨t', List.mem_cons_of_mem _ h1, h2⟩
      · rcases ih { g with err := some "create" } with h | ⟨t', h1, h2⟩
        · exact .inl h
        · exact .inr ⟨t', List.mem_cons_of_mem _ h1, h2⟩
      · rcases ih { g with files := mset g.files p (os.written p t), err := os.writeErr p t } with h | ⟨t', h1, h2⟩
        · by_cases hp : path = p
          · subst hp
            exact .inr ⟨t, by simp, by rw [h]; exact mget_mset_same _ _ _⟩
          · exact .inl (by rw [h]; exact mget_mset_other _ _ _ _ hp)
        · exact .inr ⟨t', List.mem_cons_of_mem _ h1, h2⟩

theorem protected_mset {os : OS} {config : Value} {files : GoMap String} {p q c : String} :
    Protected os config (mset files q c) p ↔
      Protected os config files p ∨ (asBool (dataGet config ["force-overwrite"]) = false ∧ p = q) := by
  unfold Protected
  by_cases h : p = q
  · subst h
    rw [mget_mset_same]
    constructor
    · rintro ⟨h1, _⟩; exact .inr ⟨h1, rfl⟩
    · rintro (⟨h1, _⟩ | ⟨h1, _⟩) <;> exact ⟨h1, .inr ⟨_, rfl⟩⟩
  · rw [mget_mset_other _ _ _ _ h]
    simp [h]

/-- Nothing fails exactly when every file is protected, at first or by one with the same path that is written before it, or can
be written. -/
theorem writeAll_ok_iff (os : OS) (ws : List (String × String)) (g : Gen) (hg : g.err = none) :
    (writeAll os ws g).err = none ↔ ∀ before p t after, ws = before ++ (p, t) :: after →
      Protected os g.config g.files p ∨ (asBool (dataGet g.config ["force-overwrite"]) = false ∧ ∃ t', (p, t') ∈ before) ∨
      (os.createFails p = false ∧ os.writeErr p t = none) := by
  induction ws generalizing g with
  | nil => simp [writeAll, hg]
  | cons w ws ih =>
    obtain ⟨p, t⟩ := w
    simp only [writeAll, hg]
    rcases writeFile_cases os g p t with ⟨hp, e⟩ | ⟨hp, hc, e⟩ | ⟨hp, hc, e⟩ <;> rw [e]
    · rw [ih g hg]
      constructor
      · intro h before q u after hs
        cases before with
        | nil =>
          simp only [List.nil_append, List.cons.injEq, Prod.mk.injEq] at hs
          obtain ⟨⟨rfl, rfl⟩, rfl⟩ := hs
          exact .inl hp
        | cons x before =>
          simp only [List.cons_append, List.cons.injEq] at hs
          rcases h before q u after hs.2 with h1 | ⟨h1, t', h2⟩ | h1
          · exact .inl h1
          · exact .inr (.inl ⟨h1, t', List.mem_cons_of_mem _ h2⟩)
          · exact .inr (.inr h1)
      · intro h before q u after hs
        rcases h ((p, t) :: before) q u after (by rw [hs]; rfl) with h1 | ⟨h1, t', h2⟩ | h1
        · exact .inl h1
        · rcases List.mem_cons.1 h2 with h3 | h3
          · injection h3 with h3 _; subst h3; exact .inl hp
          · exact .inr (.inl ⟨h1, t', h3⟩)
        · exact .inr (.inr h1)
    · rw [writeAll_err (e := "create") rfl]
      simp only [reduceCtorEq, false_iff]
      intro h
      rcases h [] p t ws rfl with h1 | ⟨_, _, h2⟩ | ⟨h1, _⟩
      · exact hp h1
      · cases h2
      · rw [hc] at h1; cases h1
    · cases hw : os.writeErr p t with
      | some e' =>
        rw [writeAll_err (e := e') rfl]
        simp only [reduceCtorEq, false_iff]
        intro h
        rcases h [] p t ws rfl with h1 | ⟨_, _, h2⟩ | ⟨_, h1⟩
        · exact hp h1
        · cases h2
        · rw [hw] at h1; cases h1
      | none =>
        rw [ih _ rfl]
        dsimp only
        constructor
        · intro h before q u after hs
          cases before with
          | nil =>
            simp only [List.nil_append, List.cons.injEq, Prod.mk.injEq] at hs
            obtain ⟨⟨rfl, rfl⟩, rfl⟩ := hs
            exact .inr (.inr ⟨hc, hw⟩)
          | cons x before =>
            simp only [List.cons_append, List.cons.injEq] at hs
            obtain ⟨rfl, hs⟩ := hs
            rcases h before q u after hs with h1 | ⟨h1, t', h2⟩ | h1
            · rcases protected_mset.1 h1 with h2 | ⟨h2, rfl⟩
              · exact .inl h2
              · exact .inr (.inl ⟨h2, t, by simp⟩)
            · exact .inr (.inl ⟨h1, t', List.mem_cons_of_mem _ h2⟩)
            · exact .inr (.inr h1)
        · intro h before q u after hs
          rcases h ((p, t) :: before) q u after (by rw [hs]; rfl) with h1 | ⟨h1, t', h2⟩ | h1
          · exact .inl (protected_mset.2 (.inl h1))
          · rcases List.mem_cons.1 h2 with h3 | h3
            · injection h3 with h3 _; subst h3; exact .inl (protected_mset.2 (.inr ⟨h1, rfl⟩))
            · exact .inr (.inl ⟨h1, t', h3⟩)
          · exact .inr (.inr h1)

/-- When nothing fails, a file that is not protected has its text, unless another one with the same path is in the way. -/
theorem writeAll_written (os : OS) (before after : List (String × String)) (p t : String) (g : Gen) (hg : g.err = none)
    (h : (writeAll os (before ++ (p, t) :: after) g).err = none) (hp : ¬ Protected os g.config g.files p)
    (h1 : asBool (dataGet g.config ["force-overwrite"]) = false → ∀ t', (p, t') ∉ before)
    (h2 : asBool (dataGet g.config ["force-overwrite"]) = true → ∀ t', (p, t') ∉ after) :
    mget (writeAll os (before ++ (p, t) :: after) g).files p = some (os.written p t) := by
  rw [writeAll_append] at h ⊢
  have hb : (writeAll os before g).err = none := by
    cases he : (writeAll os before g).err with
    | none => rfl
    | some e => rw [writeAll_err he] at h; rw [he] at h; cases h
  have hcfg := writeAll_config os before g
  have hp' : ¬ Protected os (writeAll os before g).config (writeAll os before g).files p := by
    rw [hcfg]
    rintro ⟨ha, hb'⟩
    rcases writeAll_changed os p before g with h3 | ⟨t', h3, _⟩
    · exact hp ⟨ha, by rw [h3] at hb'; exact hb'⟩
    · exact h1 ha t' h3
  generalize writeAll os before g = g1 at *
  simp only [writeAll, hb] at h ⊢
  rcases writeFile_cases os g1 p t with ⟨h3, _⟩ | ⟨_, _, e⟩ | ⟨_, _, e⟩
  · exact absurd h3 hp'
  · rw [e, writeAll_err (e := "create") rfl] at h; cases h
  · rw [e]
    rw [e] at h
    by_cases hf : asBool (dataGet g.config ["force-overwrite"]) = true
    · rcases writeAll_changed os p after { g1 with files := mset g1.files p (os.written p t), err := os.writeErr p t } with h3 | ⟨t', h3, _⟩
      · rw [h3]; exact mget_mset_same _ _ _
      · exact absurd h3 (h2 hf t')
    · rw [writeAll_protected]
      · exact mget_mset_same _ _ _
      · exact ⟨by dsimp only; rw [hcfg]; simpa using hf, .inr ⟨_, mget_mset_same _ _ _⟩⟩

/-! ### Steps -/

section
variable (os : OS) (path text : JavaFile → String)

/-- What the steps write, if they go well. -/
def stepWrites (steps : List JavaStep) : List (String × String) := (steps.filterMap JavaStep.file?).map fun f => (path f, text f)

theorem javaSteps_err (steps : List JavaStep) {g : Gen} {e : String} (h : g.err = some e) :
    ∃ e', (javaSteps os path text steps g).gen = { g with err := some e' } := by
  induction steps generalizing g e with
  | nil => exact ⟨e, by cases g; cases h; rfl⟩
  | cons x steps ih =>
    cases x with
    | check o =>
      cases o with
      | ok => exact ih h
      | err e' =>
        obtain ⟨e'', h1⟩ := ih (g := { g with err := some e' }) rfl
        exact ⟨e'', h1⟩
      | panic e' => exact ⟨e, by cases g; cases h; rfl⟩
    | file o =>
      obtain ⟨e'', h1⟩ := ih h
      refine ⟨e'', ?_⟩
      rw [← h1]
      simp [javaSteps, h]

/-- Steps that all go well write their files. -/
theorem javaSteps_good (steps : List JavaStep) (hgood : ∀ x ∈ steps, x.good) (g : Gen) :
    javaSteps os path text steps g = { gen := writeAll os (stepWrites path text steps) g } := by
  induction steps generalizing g with
  | nil => rfl
  | cons x steps ih =>
    obtain ⟨h1, h2⟩ := List.forall_mem_cons.1 hgood
    cases x with
    | check o =>
      cases (h1 : o = .ok ())
      exact ih h2 g
    | file o =>
      obtain ⟨f, rfl⟩ := h1
      have e1 : stepWrites path text (.file (.ok f) :: steps) = (path f, text f) :: stepWrites path text steps := rfl
      rw [e1]
      simp only [javaSteps, writeAll]
      cases h : g.err with
      | some e => simp only; rw [ih h2, writeAll_err h]
      | none => simp only; exact ih h2 _

/-- Steps that end without an error all go well. -/
theorem javaSteps_ok (steps : List JavaStep) (g : Gen) (hc : (javaSteps os path text steps g).crash = none)
    (he : (javaSteps os path text steps g).gen.err = none) : (∀ x ∈ steps, x.good) ∧ g.err = none := by
  induction steps generalizing g with
  | nil => exact ⟨by simp, he⟩
  | cons x steps ih =>
    cases x with
    | check o =>
      cases o with
      | ok =>
        obtain ⟨h1, h2⟩ := ih g hc he
        exact ⟨List.forall_mem_cons.2 ⟨rfl, h1⟩, h2⟩
      | err e' => exact absurd (ih _ hc he).2 (by simp)
      | panic e' => cases hc
    | file o =>
      unfold javaSteps at hc he
      cases h : g.err with
      | some e =>
        rw [h] at hc he
        rw [(ih g hc he).2] at h; cases h
      | none =>
        rw [h] at hc he
        cases o with
        | ok f =>
          obtain ⟨h1, _⟩ := ih _ hc he
          exact ⟨List.forall_mem_cons.2 ⟨⟨f, rfl⟩, h1⟩, rfl⟩
        | err e' => exact absurd (ih _ hc he).2 (by simp)
        | panic e' => cases hc

/-- In any case the steps write the first few of their files. -/
theorem javaSteps_prefix (steps : List JavaStep) (g : Gen) :
    ∃ ws, ws <+: stepWrites path text steps ∧ (javaSteps os path text steps g).gen.files = (writeAll os ws g).files := by
  induction steps generalizing g with
  | nil => exact ⟨[], by simp [stepWrites], rfl⟩
  | cons x steps ih =>
    cases x with
    | check o =>
      cases o with
      | ok => exact ih g
      | err e' =>
        obtain ⟨e'', h1⟩ := javaSteps_err os path text steps (g := { g with err := some e' }) rfl
        exact ⟨[], List.nil_prefix, by simp only [javaSteps]; rw [h1]; rfl⟩
      | panic e' => exact ⟨[], List.nil_prefix, rfl⟩
    | file o =>
      cases h : g.err with
      | some e =>
        obtain ⟨e'', h1⟩ := javaSteps_err os path text (.file o :: steps) h
        exact ⟨[], List.nil_prefix, by rw [h1]; rfl⟩
      | none =>
        cases o with
        | ok f =>
          obtain ⟨ws, h1, h2⟩ := ih (g.writeFile os (path f) (text f))
          refine ⟨(path f, text f) :: ws, ?_, ?_⟩
          · exact (List.cons_prefix_cons).2 ⟨rfl, h1⟩
          · simp only [javaSteps, h, writeAll]
            exact h2
        | err e' =>
          obtain ⟨e'', h1⟩ := javaSteps_err os path text steps (g := { g with err := some e' }) rfl
          exact ⟨[], List.nil_prefix, by simp only [javaSteps, h]; rw [h1]; rfl⟩
        | panic e' => exact ⟨[], List.nil_prefix, by simp only [javaSteps, h]; rfl⟩

/-! ### Phases -/

theorem javaPhases_stop (ps : List (List JavaStep)) {r : JavaRun} (h : r.crash ≠ none ∨ r.gen.err ≠ none) :
    javaPhases os path text ps r = r := by
  cases ps with
  | nil => rfl
  | cons p ps =>
    unfold javaPhases
    split
    · next h1 h2 => rcases h with h | h <;> contradiction
    · rfl

theorem javaPhases_ok (ps : List (List JavaStep)) (r : JavaRun) (hc : (javaPhases os path text ps r).crash = none)
    (he : (javaPhases os path text ps r).gen.err = none) : (∀ p ∈ ps, ∀ x ∈ p, x.good) ∧ r.crash = none ∧ r.gen.err = none := by
  induction ps generalizing r with
  | nil => exact ⟨by simp, hc, he⟩
  | cons p ps ih =>
    by_cases hs : r.crash ≠ none ∨ r.gen.err ≠ none
    · rw [javaPhases_stop _ _ _ _ hs] at hc he
      rcases hs with h | h <;> contradiction
    · simp only [not_or, ne_eq, not_not] at hs
      unfold javaPhases at hc he
      rw [hs.1, hs.2] at hc he
      obtain ⟨h1, h2, h3⟩ := ih _ hc he
      exact ⟨List.forall_mem_cons.2 ⟨(javaSteps_ok os path text p r.gen h2 h3).1, h1⟩, hs⟩

theorem javaPhases_good (ps : List (List JavaStep)) (hgood : ∀ p ∈ ps, ∀ x ∈ p, x.good) (g : Gen) :
    javaPhases os path text ps { gen := g } = { gen := writeAll os (stepWrites path text ps.flatten) g } := by
  induction ps generalizing g with
  | nil => rfl
  | cons p ps ih =>
    obtain ⟨h1, h2⟩ := List.forall_mem_cons.1 hgood
    have e1 : stepWrites path text (p :: ps).flatten = stepWrites path text p ++ stepWrites path text ps.flatten := by
      simp [stepWrites, List.filterMap_append]
    cases h : g.err with
    | some e =>
      rw [javaPhases_stop _ _ _ _ (.inr (by simp [h])), writeAll_err h]
    | none =>
      unfold javaPhases
      simp only [h]
      rw [javaSteps_good os path text p h1, ih h2, e1, writeAll_append]

theorem javaSteps_config (steps : List JavaStep) (g : Gen) : (javaSteps os path text steps g).gen.config = g.config := by
  induction steps generalizing g with
  | nil => rfl
  | cons x steps ih =>
    cases x with
    | check o => cases o <;> simp [javaSteps, ih]
    | file o =>
      unfold javaSteps
      split
      · exact ih _
      · cases o with
        | ok f => simp only; rw [ih, writeFile_keepsConfig]
        | err e => simp [ih]
        | panic e => rfl

/-- A path that is protected stays as it is. -/
theorem javaSteps_protected (q : String) (steps : List JavaStep) (g : Gen) (h : Protected os g.config g.files q) :
    mget (javaSteps os path text steps g).gen.files q = mget g.files q := by
  obtain ⟨ws, _, h2⟩ := javaSteps_prefix os path text steps g
  rw [h2]
  exact writeAll_protected os q ws g h

/-- A path that changes is the one of a file. -/
theorem javaSteps_changed (q : String) (steps : List JavaStep) (g : Gen) :
    mget (javaSteps os path text steps g).gen.files q = mget g.files q ∨
    ∃ t, (q, t) ∈ stepWrites path text steps ∧ mget (javaSteps os path text steps g).gen.files q = some (os.written q t) := by
  obtain ⟨ws, h1, h2⟩ := javaSteps_prefix os path text steps g
  rw [h2]
  rcases writeAll_changed os q ws g with h | ⟨t, h, h3⟩
  · exact .inl h
  · exact .inr ⟨t, h1.subset h, h3⟩

theorem javaPhases_protected (q : String) (ps : List (List JavaStep)) (r : JavaRun) (h : Protected os r.gen.config r.gen.files q) :
    mget (javaPhases os path text ps r).gen.files q = mget r.gen.files q := by
  induction ps generalizing r with
  | nil => rfl
  | cons p ps ih =>
    unfold javaPhases
    split
    · have h1 := javaSteps_protected os path text q p r.gen h
      rw [ih, h1]
      unfold Protected at h ⊢
      rw [javaSteps_config, h1]
      exact h
    · rfl

theorem stepWrites_cons (p : List JavaStep) (ps : List (List JavaStep)) :
    stepWrites path text (p :: ps).flatten = stepWrites path text p ++ stepWrites path text ps.flatten := by
  simp [stepWrites, List.filterMap_append]

theorem javaPhases_changed (q : String) (ps : List (List JavaStep)) (r : JavaRun) :
    mget (javaPhases os path text ps r).gen.files q = mget r.gen.files q ∨
    ∃ t, (q, t) ∈ stepWrites path text ps.flatten ∧ mget (javaPhases os path text ps r).gen.files q = some (os.written q t) := by
  induction ps generalizing r with
  | nil => exact .inl rfl
  | cons p ps ih =>
    rw [stepWrites_cons]
    unfold javaPhases
    split
    · rcases ih (javaSteps os path text p r.gen) with h | ⟨t, h, h3⟩
      · rw [h]
        rcases javaSteps_changed os path text q p r.gen with h1 | ⟨t, h1, h2⟩
        · exact .inl h1
        · exact .inr ⟨t, List.mem_append_left _ h1, h2⟩
      · exact .inr ⟨t, List.mem_append_right _ h, h3⟩
    · exact .inl rfl

end

end Sadl
