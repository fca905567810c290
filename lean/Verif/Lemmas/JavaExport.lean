import Verif.Lemmas.JavaRest
import Verif.Lemmas.JavaRun
import Verif.Spec.JavaExport
/-
The steps of the generator of Java.
-/
namespace Sadl
open Sadl.Spec

/-- The files of the steps that go well. -/
def stepFiles (steps : List JavaStep) : List JavaFile := steps.filterMap JavaStep.file?

theorem stepFiles_append (a b : List JavaStep) : stepFiles (a ++ b) = stepFiles a ++ stepFiles b := List.filterMap_append ..
theorem stepFiles_check (o : Out Unit) (b : List JavaStep) : stepFiles (.check o :: b) = stepFiles b := rfl
theorem stepFiles_ok (f : JavaFile) (b : List JavaStep) : stepFiles (.file (.ok f) :: b) = f :: stepFiles b := rfl

theorem good_append {a b : List JavaStep} : (∀ x ∈ a ++ b, x.good) ↔ (∀ x ∈ a, x.good) ∧ ∀ x ∈ b, x.good := List.forall_mem_append
theorem good_cons {a : JavaStep} {b : List JavaStep} : (∀ x ∈ a :: b, x.good) ↔ a.good ∧ ∀ x ∈ b, x.good := List.forall_mem_cons

theorem javaBody_none_iff (m : Model) (conf : JavaConf) (exceptions : List String) (cls : String) (ts : TypeSpec) :
    javaBody m conf exceptions cls ts = none ↔ ts.type ∉ ["Struct", "Enum", "Union", "UnitValue"] := by
  unfold javaBody
  split_ifs with h1 h2 h3 h4 <;> simp [*]

section
variable (m : Model) (conf : JavaConf) (exceptions : List String)

theorem javaPojo_good (ts : TypeSpec) (cls comment : String) (notes : List JNote) :
    (∀ x ∈ (javaPojo m conf exceptions ts cls comment notes).1, x.good) ↔
      (ts.type ∈ ["Struct", "Enum", "Union", "UnitValue"] → ∃ b ns, javaBody m conf exceptions cls ts = some (.ok (b, ns))) := by
  have hk := javaBody_none_iff m conf exceptions cls ts
  unfold javaPojo
  cases h : javaBody m conf exceptions cls ts with
  | none => simp [hk.1 h]
  | some o =>
    have hk' : ts.type ∈ ["Struct", "Enum", "Union", "UnitValue"] := by
      by_contra hc
      rw [hk.2 hc] at h; cases h
    cases o with
    | ok b => obtain ⟨b, ns⟩ := b; simp [hk', JavaStep.good]
    | err e => simp [hk', JavaStep.good]
    | panic e => simp [hk', JavaStep.good]

theorem javaPojo_files (ts : TypeSpec) (cls comment : String) (notes : List JNote) (f : JavaFile) :
    f ∈ stepFiles (javaPojo m conf exceptions ts cls comment notes).1 ↔ ∃ b ns, javaBody m conf exceptions cls ts = some (.ok (b, ns)) ∧
      f = { name := cls, pkg := conf.modelPackage, content := .pojo (javaImports (notes ++ ns)) comment b } := by
  unfold javaPojo
  cases h : javaBody m conf exceptions cls ts with
  | none => simp [stepFiles]
  | some o =>
    cases o with
    | ok b =>
      obtain ⟨b, ns⟩ := b
      simp only [stepFiles_ok, Option.some.injEq, Out.ok.injEq, Prod.mk.injEq]
      constructor
      · intro h; exact ⟨b, ns, ⟨rfl, rfl⟩, by simpa [stepFiles] using h⟩
      · rintro ⟨b', ns', ⟨rfl, rfl⟩, rfl⟩; simp
    | err e => simp [stepFiles, JavaStep.file?]
    | panic e => simp [stepFiles, JavaStep.file?]

theorem javaTypePojos_good (tds : List TypeDef) (notes : List JNote) :
    (∀ x ∈ (javaTypePojos m conf exceptions tds notes).1, x.good) ↔ ∀ td ∈ tds, td.name ≠ "" ∧
      (td.ts.type ∈ ["Struct", "Enum", "Union", "UnitValue"] → ∃ b ns, javaBody m conf exceptions (capitalize td.name) td.ts = some (.ok (b, ns))) := by
  induction tds generalizing notes with
  | nil => simp [javaTypePojos]
  | cons td tds ih =>
    simp only [javaTypePojos]
    rw [List.cons_append, good_cons, good_append, ih, javaPojo_good, List.forall_mem_cons]
    have : (JavaStep.check ((javaCapitalize td.name).bind fun _ => .ok ())).good ↔ td.name ≠ "" := by
      unfold JavaStep.good javaCapitalize
      by_cases h : td.name = "" <;> simp [h, Out.bind]
    rw [this, and_assoc]

theorem javaTypePojos_files (tds : List TypeDef) (notes : List JNote) :
    (∀ f ∈ stepFiles (javaTypePojos m conf exceptions tds notes).1, ∃ td ∈ tds, ∃ b ns imports,
      javaBody m conf exceptions (capitalize td.name) td.ts = some (.ok (b, ns)) ∧
      f = { name := capitalize td.name, pkg := conf.modelPackage, content := .pojo imports td.comment b }) ∧
    (∀ td ∈ tds, ∀ b ns, javaBody m conf exceptions (capitalize td.name) td.ts = some (.ok (b, ns)) →
      ∃ f ∈ stepFiles (javaTypePojos m conf exceptions tds notes).1, f.pkg = conf.modelPackage ∧ f.name = capitalize td.name) := by
  induction tds generalizing notes with
  | nil => simp [javaTypePojos, stepFiles]
  | cons td tds ih =>
    obtain ⟨ih1, ih2⟩ := ih (javaPojo m conf exceptions td.ts (capitalize td.name) td.comment notes).2
    simp only [javaTypePojos]
    rw [List.cons_append, stepFiles_check, stepFiles_append]
    constructor
    · intro f hf
      rcases List.mem_append.1 hf with hf | hf
      · obtain ⟨b, ns, h1, h2⟩ := (javaPojo_files ..).1 hf
        exact ⟨td, by simp, b, ns, _, h1, h2⟩
      · obtain ⟨td', h1, h2⟩ := ih1 f hf
        exact ⟨td', List.mem_cons_of_mem _ h1, h2⟩
    · intro td' htd b ns h
      rcases List.mem_cons.1 htd with rfl | htd
      · exact ⟨_, List.mem_append_left _ ((javaPojo_files ..).2 ⟨b, ns, h, rfl⟩), rfl, rfl⟩
      · obtain ⟨f, h1, h2⟩ := ih2 td' htd b ns h
        exact ⟨f, List.mem_append_right _ h1, h2⟩

/-- The steps for one action. -/
def actionGood (h : HttpDef) : Prop := ∃ n, JavaMethodName h n ∧ n ≠ "" ∧
  (∃ b ns, javaBody m conf [] (capitalize n ++ "Request") (structOf (h.inputs.map HttpParamSpec.field)) = some (.ok (b, ns))) ∧
  ∃ e, h.expected = some e ∧ (∃ x, javaEntity m conf h = .ok x) ∧
    ∃ b ns, javaBody m conf [] (capitalize n ++ "Response") (structOf (e.outputs.map HttpParamSpec.field)) = some (.ok (b, ns))

theorem structOf_kind (fs : List StructFieldDef) : (structOf fs).type ∈ ["Struct", "Enum", "Union", "UnitValue"] := by simp [structOf]

/-- The files for one action. -/
def actionFile (h : HttpDef) (f : JavaFile) : Prop := ∃ n, JavaMethodName h n ∧
  ((∃ b ns imports, javaBody m conf [] (capitalize n ++ "Request") (structOf (h.inputs.map HttpParamSpec.field)) = some (.ok (b, ns)) ∧
      f = { name := capitalize n ++ "Request", pkg := conf.modelPackage, content := .pojo imports "" b }) ∨
   (∃ e b ns imports, h.expected = some e ∧
      javaBody m conf [] (capitalize n ++ "Response") (structOf (e.outputs.map HttpParamSpec.field)) = some (.ok (b, ns)) ∧
      f = { name := capitalize n ++ "Response", pkg := conf.modelPackage, content := .pojo imports "" b }))

theorem javaActionPojos_good (hs : List HttpDef) (notes : List JNote) :
    (∀ x ∈ (javaActionPojos m conf hs notes).1, x.good) ↔ ∀ h ∈ hs, actionGood m conf h := by
  induction hs generalizing notes with
  | nil => simp [javaActionPojos]
  | cons h hs ih =>
    simp only [javaActionPojos]
    rw [List.append_assoc, good_append, good_append, good_cons, ih, List.forall_mem_cons, ← and_assoc, ← and_assoc]
    refine and_congr_left fun _ => ?_
    unfold actionGood
    have e3 : (JavaStep.check ((javaEntity m conf h).bind fun _ => .ok ())).good ↔ ∃ x, javaEntity m conf h = .ok x := by
      unfold JavaStep.good
      cases javaEntity m conf h <;> simp [Out.bind]
    rw [e3]
    cases hn : javaActionName h with
    | err e =>
      have : ∀ n, ¬ JavaMethodName h n := fun n h1 => by rw [(javaActionName_ok h n).2 h1] at hn; cases hn
      simp [Out.bind, JavaStep.good, this]
    | panic e =>
      have : ∀ n, ¬ JavaMethodName h n := fun n h1 => by rw [(javaActionName_ok h n).2 h1] at hn; cases hn
      simp [Out.bind, JavaStep.good, this]
    | ok n =>
      have hn' := (javaActionName_ok h n).1 hn
      have hu : ∀ n', JavaMethodName h n' → n' = n := fun n' h1 => javaMethodName_unique h1 hn'
      by_cases hne : n = ""
      · have e1 : javaRequestType n = .panic "slice bounds out of range" := by rw [hne]; rfl
        simp only [Out.bind, e1]
        constructor
        · rintro ⟨⟨h1, _⟩, _⟩
          have := h1 _ (List.mem_singleton.2 rfl)
          simp [JavaStep.good] at this
        · rintro ⟨n', h1, h2, _⟩; exact absurd ((hu n' h1).trans hne) h2
      · have e1 : javaRequestType n = .ok (capitalize n ++ "Request") := javaRequestType_ok.2 ⟨hne, rfl⟩
        have e2 : javaResponseType n = .ok (capitalize n ++ "Response") := javaResponseType_ok.2 ⟨hne, rfl⟩
        simp only [Out.bind, e1, e2]
        rw [javaPojo_good]
        cases he : h.expected with
        | none =>
          simp only
          constructor
          · rintro ⟨⟨_, h2⟩, _⟩
            have := h2 _ (List.mem_singleton.2 rfl)
            simp [JavaStep.good] at this
          · rintro ⟨n', h1, h2, _, e, h3, _⟩; cases h3
        | some e =>
          simp only
          rw [javaPojo_good]
          constructor
          · rintro ⟨⟨h1, h2⟩, h3⟩
            exact ⟨n, hn', hne, h1 (structOf_kind _), e, rfl, h3, h2 (structOf_kind _)⟩
          · rintro ⟨n', h1, h2, h3, e', h4, h5, h6⟩
            rw [hu n' h1] at h3 h6
            cases h4
            exact ⟨⟨fun _ => h3, fun _ => h6⟩, h5⟩

theorem javaActionPojos_files (hs : List HttpDef) (notes : List JNote) :
    (∀ f ∈ stepFiles (javaActionPojos m conf hs notes).1, ∃ h ∈ hs, actionFile m conf h f) ∧
    ((∀ h ∈ hs, actionGood m conf h) → ∀ h ∈ hs, ∀ n, JavaMethodName h n →
      (∃ f ∈ stepFiles (javaActionPojos m conf hs notes).1, f.pkg = conf.modelPackage ∧ f.name = capitalize n ++ "Request") ∧
      (∃ f ∈ stepFiles (javaActionPojos m conf hs notes).1, f.pkg = conf.modelPackage ∧ f.name = capitalize n ++ "Response")) := by
  induction hs generalizing notes with
  | nil => simp [javaActionPojos, stepFiles]
  | cons h hs ih =>
    simp only [javaActionPojos]
    rw [List.append_assoc, stepFiles_append, stepFiles_append, stepFiles_check]
    constructor
    · intro f hf
      rcases List.mem_append.1 hf with hf | hf
      · refine ⟨h, by simp, ?_⟩
        cases hn : javaActionName h with
        | err e => rw [hn] at hf; simp [Out.bind, stepFiles, JavaStep.file?] at hf
        | panic e => rw [hn] at hf; simp [Out.bind, stepFiles, JavaStep.file?] at hf
        | ok n =>
          rw [hn] at hf
          simp only [Out.bind] at hf
          cases h1 : javaRequestType n with
          | err e => rw [h1] at hf; simp [stepFiles, JavaStep.file?] at hf
          | panic e => rw [h1] at hf; simp [stepFiles, JavaStep.file?] at hf
          | ok x =>
            rw [h1] at hf
            obtain ⟨_, rfl⟩ := javaRequestType_ok.1 h1
            obtain ⟨b, ns, h2, h3⟩ := (javaPojo_files ..).1 hf
            exact ⟨n, (javaActionName_ok h n).1 hn, .inl ⟨b, ns, _, h2, h3⟩⟩
      · rcases List.mem_append.1 hf with hf | hf
        · refine ⟨h, by simp, ?_⟩
          cases hn : javaActionName h with
          | err e => rw [hn] at hf; simp [Out.bind, stepFiles, JavaStep.file?] at hf
          | panic e => rw [hn] at hf; simp [Out.bind, stepFiles, JavaStep.file?] at hf
          | ok n =>
            rw [hn] at hf
            simp only [Out.bind] at hf
            cases h1 : javaResponseType n with
            | err e => rw [h1] at hf; simp [stepFiles, JavaStep.file?] at hf
            | panic e => rw [h1] at hf; simp [stepFiles, JavaStep.file?] at hf
            | ok x =>
              rw [h1] at hf
              obtain ⟨_, rfl⟩ := javaResponseType_ok.1 h1
              cases he : h.expected with
              | none => rw [he] at hf; simp [stepFiles, JavaStep.file?] at hf
              | some e =>
                rw [he] at hf
                obtain ⟨b, ns, h2, h3⟩ := (javaPojo_files ..).1 hf
                exact ⟨n, (javaActionName_ok h n).1 hn, .inr ⟨e, b, ns, _, he, h2, h3⟩⟩
        · obtain ⟨h', h1, h2⟩ := (ih _).1 f hf
          exact ⟨h', List.mem_cons_of_mem _ h1, h2⟩
    · intro hgood h' hh n hn
      obtain ⟨g1, g2⟩ := List.forall_mem_cons.1 hgood
      rcases List.mem_cons.1 hh with rfl | hh
      · obtain ⟨n', hn', hne, ⟨b, ns, hb⟩, e, he, _, b', ns', hb'⟩ := g1
        cases javaMethodName_unique hn hn'
        have e0 := (javaActionName_ok _ n).2 hn
        have e1 : javaRequestType n = .ok (capitalize n ++ "Request") := javaRequestType_ok.2 ⟨hne, rfl⟩
        have e2 : javaResponseType n = .ok (capitalize n ++ "Response") := javaResponseType_ok.2 ⟨hne, rfl⟩
        simp only [e0, Out.bind, e1, e2, he]
        exact ⟨⟨_, List.mem_append_left _ ((javaPojo_files ..).2 ⟨b, ns, hb, rfl⟩), rfl, rfl⟩,
          ⟨_, List.mem_append_right _ (List.mem_append_left _ ((javaPojo_files ..).2 ⟨b', ns', hb', rfl⟩)), rfl, rfl⟩⟩
      · obtain ⟨⟨f, h1, h2⟩, ⟨f', h3, h4⟩⟩ := (ih _).2 g2 h' hh n hn
        exact ⟨⟨f, List.mem_append_right _ (List.mem_append_right _ h1), h2⟩, ⟨f', List.mem_append_right _ (List.mem_append_right _ h3), h4⟩⟩

theorem javaMethods_ok (hs : List HttpDef) {ms : List (String × String × String)} (h : javaMethods hs = .ok ms) : JavaMethodsFor hs ms := by
  unfold JavaMethodsFor
  induction hs generalizing ms with
  | nil => cases h; exact .nil
  | cons x xs ih =>
    unfold javaMethods at h
    obtain ⟨n, h1, h⟩ := gbind_ok.1 h
    obtain ⟨a, h2, h⟩ := gbind_ok.1 h
    obtain ⟨b, h3, h⟩ := gbind_ok.1 h
    obtain ⟨r, h4, h⟩ := gbind_ok.1 h
    cases h
    exact .cons ⟨(javaActionName_ok x n).1 h1, (javaResponseType_ok.1 h2).2, (javaRequestType_ok.1 h3).2⟩ (ih h4)

theorem javaMethods_ready (hs : List HttpDef) : (∃ ms, javaMethods hs = .ok ms) ↔ ∀ h ∈ hs, ∃ n, JavaMethodName h n ∧ n ≠ "" := by
  induction hs with
  | nil => simp [javaMethods]
  | cons x xs ih =>
    rw [List.forall_mem_cons, ← ih]
    simp only [javaMethods, gbind_ok, javaActionName_ok, javaResponseType_ok, javaRequestType_ok]
    constructor
    · rintro ⟨_, n, h1, _, ⟨h2, _⟩, _, _, r, h3, _⟩; exact ⟨⟨n, h1, h2⟩, r, h3⟩
    · rintro ⟨⟨n, h1, h2⟩, r, h3⟩; exact ⟨_, n, h1, _, ⟨h2, rfl⟩, _, ⟨h2, rfl⟩, r, h3, rfl⟩

theorem recovered_ok {α : Type} {x : Out α} {a : α} : recovered x = .ok a ↔ x = .ok a := by
  cases x with
  | ok => rfl
  | err => simp [recovered]
  | panic e => by_cases h : e = stackOverflow <;> simp [recovered, h]

theorem javaInterface_good (notes : List JNote) : (∀ x ∈ (javaInterface m conf notes).1, x.good) ↔
    (conf.name ≠ "" → ∀ h ∈ m.schema.http, actionGood m conf h) := by
  unfold javaInterface
  by_cases hn : conf.name = ""
  · rw [if_pos hn]; simp [hn]
  · rw [if_neg hn]
    simp only
    rw [good_cons, javaActionPojos_good]
    constructor
    · rintro ⟨_, h⟩ _; exact h
    · intro h
      refine ⟨?_, h hn⟩
      obtain ⟨ms, h1⟩ := (javaMethods_ready m.schema.http).2 fun x hx => by
        obtain ⟨n, h1, h2, _⟩ := h hn x hx
        exact ⟨n, h1, h2⟩
      rw [recovered_ok.2 h1]
      exact ⟨_, rfl⟩

theorem javaSupport_good (notes : List JNote) : ∀ x ∈ javaSupport conf notes, x.good := by
  unfold javaSupport
  simp only [List.mem_append]
  rintro x ((h | h) | h) <;> split at h <;> simp only [List.mem_singleton, List.not_mem_nil] at h <;> subst h <;> exact ⟨_, rfl⟩

end

section
variable {s : Schema} {m : Model} (hw : JavaWf s m) (conf : JavaConf)
include hw

theorem javaExceptions_ok (xs : List HttpExceptionSpec) {ys : List String} {ns : List JNote} (h : javaExceptions m conf xs = .ok (ys, ns))
    (cls : String) : cls ∈ ys ↔ ∃ x ∈ xs, ∃ t, JavaBare s conf.instants x.type true t ∧ t.text = cls := by
  induction xs generalizing ys ns with
  | nil => cases h; simp
  | cons x xs ih =>
    unfold javaExceptions at h
    obtain ⟨t, h1, h⟩ := gbind_ok.1 h
    obtain ⟨⟨zs, nz⟩, h2, h⟩ := gbind_ok.1 h
    cases h
    simp only [List.mem_cons, exists_eq_or_imp]
    rw [ih h2]
    refine or_congr_left ?_
    constructor
    · rintro rfl; exact ⟨_, (javaType_bare hw conf _ _ _).1 ⟨t, h1, rfl⟩, rfl⟩
    · rintro ⟨t', h3, rfl⟩
      obtain ⟨jt, h4, rfl⟩ := (javaType_bare hw conf _ _ _).2 h3
      rw [h1] at h4; cases h4; rfl

theorem javaExceptions_ready (xs : List HttpExceptionSpec) : (∃ x, javaExceptions m conf xs = .ok x) ↔
    ∀ x ∈ xs, ∃ t, JavaBare s conf.instants x.type true t := by
  induction xs with
  | nil => simp [javaExceptions]
  | cons p ps ih =>
    rw [List.forall_mem_cons, ← ih]
    simp only [javaExceptions, gbind_ok]
    constructor
    · rintro ⟨x, a, h1, b, h2, _⟩; exact ⟨⟨_, (javaType_bare hw conf _ _ _).1 ⟨a, h1, rfl⟩⟩, b, h2⟩
    · rintro ⟨⟨a, h1⟩, b, h2⟩
      obtain ⟨jt, h3, _⟩ := (javaType_bare hw conf _ _ _).2 h1
      exact ⟨_, jt, h3, b, h2, rfl⟩

variable (ho : ∀ l, (conf.order l).Perm l)
include ho

theorem actionGood_iff (h : HttpDef) : actionGood m conf h ↔ ∃ n, JavaMethodName h n ∧ n ≠ "" ∧
    JavaStructReady s conf.instants conf.lombok conf.immutable false (capitalize n ++ "Request") (h.inputs.map HttpParamSpec.field) ∧
    ∃ e, h.expected = some e ∧ JavaEntityReady s conf.instants e ∧
      JavaStructReady s conf.instants conf.lombok conf.immutable false (capitalize n ++ "Response") (e.outputs.map HttpParamSpec.field) := by
  have key : ∀ cls fs, (∃ b ns, javaBody m conf [] cls (structOf fs) = some (.ok (b, ns))) ↔
      JavaStructReady s conf.instants conf.lombok conf.immutable false cls fs := by
    intro cls fs
    constructor
    · rintro ⟨b, ns, h⟩
      have := (javaBody_ok hw conf ho [] cls (structOf fs) h).2
      simp only [List.not_mem_nil, decide_false] at this
      cases this with
      | struct _ h => exact h
      | enum h => exact absurd h (by simp [structOf])
      | union h => exact absurd h (by simp [structOf])
      | unit h => exact absurd h (by simp [structOf])
    · intro h
      exact javaBody_ready hw conf ho [] cls (structOf fs) (.struct rfl (by simpa [structOf] using h))
  unfold actionGood
  simp only [key]
  refine exists_congr fun n => and_congr_right fun _ => and_congr_right fun _ => and_congr_right fun _ => ?_
  refine exists_congr fun e => and_congr_right fun he => and_congr_left fun _ => ?_
  rw [javaEntity_ready hw conf h, he]
  simp

/-- The exceptions, as they are collected. -/
theorem throwable_iff {exceptions : List String} {ns : List JNote}
    (h : (if conf.serviceException then .ok ([], []) else javaExceptions m conf (s.http.flatMap (·.exceptions))) = .ok (exceptions, ns)) (cls : String) :
    cls ∈ exceptions ↔ JavaThrowable s conf cls := by
  unfold JavaThrowable
  cases hc : conf.serviceException with
  | true => rw [hc] at h; cases h; simp
  | false =>
    rw [hc] at h
    rw [javaExceptions_ok hw conf _ h]
    simp [List.mem_flatMap]
    constructor
    · rintro ⟨x, ⟨h, h1, h2⟩, h3⟩; exact ⟨h, h1, x, h2, h3⟩
    · rintro ⟨h, h1, x, h2, h3⟩; exact ⟨x, ⟨h, h1, h2⟩, h3⟩

theorem javaModel_good : (∀ p ∈ (javaModel m conf).1, ∀ x ∈ p, x.good) ↔ JavaModelReady s conf := by
  have hs := hw.schema_eq
  unfold javaModel
  rw [hs]
  have hex : (∃ x, (if conf.serviceException then .ok ([], []) else javaExceptions m conf (s.http.flatMap (·.exceptions))) = .ok x) ↔
      (conf.serviceException = false → ∀ h ∈ s.http, ∀ x ∈ h.exceptions, ∃ t, JavaBare s conf.instants x.type true t) := by
    cases hc : conf.serviceException with
    | true => simp
    | false =>
      simp only [Bool.false_eq_true, if_false, forall_const]
      rw [javaExceptions_ready hw]
      simp [List.mem_flatMap]
      constructor
      · intro h a ha x hx; exact h x a ha hx
      · intro h x a ha hx; exact h a ha x hx
  cases hx : (if conf.serviceException then .ok ([], []) else javaExceptions m conf (s.http.flatMap (·.exceptions))) with
  | err e =>
    simp only [List.mem_singleton, forall_eq, JavaStep.good, reduceCtorEq, false_iff]
    intro h
    obtain ⟨x, hx'⟩ := hex.2 h.exceptions
    rw [hx] at hx'; cases hx'
  | panic e =>
    simp only [List.mem_singleton, forall_eq, JavaStep.good, reduceCtorEq, false_iff]
    intro h
    obtain ⟨x, hx'⟩ := hex.2 h.exceptions
    rw [hx] at hx'; cases hx'
  | ok x =>
    obtain ⟨exceptions, ns⟩ := x
    have hthrow := throwable_iff hw conf ho hx
    simp only [List.forall_mem_cons, List.not_mem_nil, false_implies, implies_true, and_true]
    rw [javaTypePojos_good, javaInterface_good, hs]
    have ht : (∀ td ∈ s.types, td.name ≠ "" ∧ (td.ts.type ∈ ["Struct", "Enum", "Union", "UnitValue"] →
        ∃ b ns, javaBody m conf exceptions (capitalize td.name) td.ts = some (.ok (b, ns)))) ↔
        ∀ td ∈ s.types, td.name ≠ "" ∧ (td.ts.type ∈ ["Struct", "Enum", "Union", "UnitValue"] →
          ∃ b : Bool, (b = true ↔ JavaThrowable s conf (capitalize td.name)) ∧
            JavaReady s conf.instants conf.lombok conf.immutable b (capitalize td.name) td.ts) := by
      refine forall_congr' fun td => forall_congr' fun htd => and_congr_right fun _ => forall_congr' fun _ => ?_
      constructor
      · rintro ⟨b, ns, h⟩
        exact ⟨_, by rw [decide_eq_true_iff]; exact hthrow _, (javaBody_ok hw conf ho _ _ _ h).2⟩
      · rintro ⟨b, h1, h2⟩
        have : b = decide (capitalize td.name ∈ exceptions) := by
          rw [Bool.eq_iff_iff, h1, decide_eq_true_iff, hthrow]
        rw [this] at h2
        exact javaBody_ready hw conf ho _ _ _ h2
    rw [ht]
    constructor
    · rintro ⟨h1, h2, _⟩
      exact ⟨hex.1 ⟨_, hx⟩, h1, fun hn h hh => (actionGood_iff hw conf ho h).1 (h2 hn h hh)⟩
    · rintro ⟨_, h1, h2⟩
      exact ⟨h1, fun hn h hh => (actionGood_iff hw conf ho h).2 (h2 hn h hh), javaSupport_good _ _⟩

omit ho in
theorem javaServer_good (impl : Bool) (notes : List JNote) : (∀ x ∈ javaServer m conf impl notes, x.good) ↔
    s.name ≠ "" ∧ ∀ h ∈ s.http, JavaResourceReady s conf h := by
  have hs := hw.schema_eq
  unfold javaServer
  simp only [hs]
  rw [good_cons, good_cons]
  have e1 : (JavaStep.check (if s.name = "" then .panic "no model name!" else .ok ())).good ↔ s.name ≠ "" := by
    unfold JavaStep.good
    by_cases h : s.name = "" <;> simp [h]
  rw [e1]
  refine and_congr_right fun _ => ?_
  rw [← javaResources_ready hw]
  constructor
  · rintro ⟨⟨f, h⟩, _⟩
    obtain ⟨r, h1, _⟩ := gbind_ok.1 h
    exact ⟨r, recovered_ok.1 h1⟩
  · rintro ⟨r, h1⟩
    refine ⟨by rw [recovered_ok.2 h1]; exact ⟨_, rfl⟩, ?_⟩
    cases impl with
    | false => simp
    | true =>
      obtain ⟨ms, h2⟩ := (javaMethods_ready s.http).2 fun x hx => ((javaResources_ready hw conf s.http).1 ⟨r, h1⟩ x hx).name
      simp only [if_true, List.forall_mem_cons, List.not_mem_nil, false_implies, implies_true, and_true]
      exact ⟨⟨_, rfl⟩, by rw [recovered_ok.2 h2]; exact ⟨_, rfl⟩⟩

omit ho in
theorem javaClient_good : (∀ x ∈ javaClient m conf, x.good) ↔ s.name ≠ "" ∧ ∀ h ∈ s.http, JavaCallReady s conf h := by
  have hs := hw.schema_eq
  unfold javaClient
  simp only [hs]
  rw [good_cons, good_cons, good_cons, ← javaCalls_ready hw]
  have e1 : (JavaStep.check ((javaCapitalize s.name).bind fun _ => .ok ())).good ↔ s.name ≠ "" := by
    unfold JavaStep.good javaCapitalize
    by_cases h : s.name = "" <;> simp [h, Out.bind]
  rw [e1]
  refine and_congr_right fun _ => ?_
  constructor
  · rintro ⟨_, ⟨f, h⟩, _⟩
    obtain ⟨r, h1, _⟩ := gbind_ok.1 h
    exact ⟨r, recovered_ok.1 h1⟩
  · rintro ⟨r, h1⟩
    exact ⟨⟨_, rfl⟩, by rw [recovered_ok.2 h1]; exact ⟨_, rfl⟩, by simp⟩

theorem javaPlan_good (config : Value) : (∀ p ∈ javaPlan m conf config, ∀ x ∈ p, x.good) ↔ JavaAllReady s conf (JavaParts.of config) := by
  unfold javaPlan
  simp only
  rw [List.forall_mem_append, List.forall_mem_append, List.forall_mem_append]
  have e1 : (∀ p ∈ (if configBool config "model" true then javaModel m conf else ([[]], [])).1, ∀ x ∈ p, x.good) ↔
      (configBool config "model" true = true → JavaModelReady s conf) := by
    cases configBool config "model" true with
    | true => simp [javaModel_good hw conf ho]
    | false => simp
  have e2 : ∀ notes, (∀ p ∈ (if configBool config "server" false then
      [javaServer m conf (configBool config "example-implementation" false) notes] else []), ∀ x ∈ p, x.good) ↔
      (configBool config "server" false = true → s.name ≠ "" ∧ ∀ h ∈ s.http, JavaResourceReady s conf h) := by
    intro notes
    cases configBool config "server" false with
    | true =>
      simp only [if_true, List.mem_singleton, forall_eq, forall_const]
      exact javaServer_good hw conf _ notes
    | false => simp
  have e3 : (∀ p ∈ (if configBool config "client" false then [javaClient m conf] else []), ∀ x ∈ p, x.good) ↔
      (configBool config "client" false = true → s.name ≠ "" ∧ ∀ h ∈ s.http, JavaCallReady s conf h) := by
    cases configBool config "client" false with
    | true =>
      simp only [if_true, List.mem_singleton, forall_eq, forall_const]
      exact javaClient_good hw conf
    | false => simp
  rw [e1, e2, e3]
  constructor
  · rintro ⟨⟨⟨h1, h2⟩, h3⟩, _⟩; exact ⟨h1, h2, h3⟩
  · rintro ⟨h1, h2, h3⟩
    refine ⟨⟨⟨h1, h2⟩, h3⟩, ?_⟩
    split
    · simp only [List.mem_singleton, forall_eq]; exact ⟨_, rfl⟩
    · simp

end
end Sadl
