import Verif.Lemmas.JavaExport
import Verif.Props.JavaClass
import Verif.Props.GoExport
/-
C93: the files that generating Java writes.
-/
namespace Sadl.Props
open Sadl Sadl.Spec

/-- The files that are generated, in the order in which they are written. -/
def javaFilesOf (m : Model) (conf : JavaConf) (config : Value) : List JavaFile := stepFiles (javaPlan m conf config).flatten

theorem javaFilesOf_mem {m : Model} {conf : JavaConf} {config : Value} {f : JavaFile} (h : f ∈ javaFilesOf m conf config) :
    (configBool config "model" true = true ∧ f ∈ stepFiles (javaModel m conf).1.flatten) ∨
    (configBool config "server" false = true ∧ ∃ notes, f ∈ stepFiles (javaServer m conf (configBool config "example-implementation" false) notes)) ∨
    (configBool config "client" false = true ∧ f ∈ stepFiles (javaClient m conf)) ∨
    (configBool config "maven" false = true ∧ f = { name := "pom", pkg := "", content := .pom (javaPomText conf.domain conf.name conf.lombok) }) := by
  unfold javaFilesOf javaPlan at h
  simp only [List.flatten_append, stepFiles_append, List.mem_append] at h
  rcases h with ((h | h) | h) | h
  · split at h
    · next hc => exact .inl ⟨hc, h⟩
    · simp [stepFiles] at h
  · split at h
    · next hc => exact .inr (.inl ⟨hc, _, by simpa using h⟩)
    · simp [stepFiles] at h
  · split at h
    · next hc => exact .inr (.inr (.inl ⟨hc, by simpa using h⟩))
    · simp [stepFiles] at h
  · split at h
    · next hc => exact .inr (.inr (.inr ⟨hc, by simpa [stepFiles, JavaStep.file?] using h⟩))
    · simp [stepFiles] at h

section
variable (lib : PLib) (m : Model) (h : Accepted lib m) (hb : NoBoxes m.schema) (conf : JavaConf) (ho : ∀ l, (conf.order l).Perm l)
include h hb ho

theorem javaModel_files (parts : JavaParts) (hm : parts.model = true) {f : JavaFile} (hf : f ∈ stepFiles (javaModel m conf).1.flatten) :
    JavaFileFor m.schema conf parts f := by
  have hw := accepted_java h hb
  unfold javaModel at hf
  cases hx : (if conf.serviceException then .ok ([], []) else javaExceptions m conf (m.schema.http.flatMap (·.exceptions))) with
  | err e => rw [hx] at hf; simp [stepFiles, JavaStep.file?] at hf
  | panic e => rw [hx] at hf; simp [stepFiles, JavaStep.file?] at hf
  | ok x =>
    obtain ⟨exceptions, ns⟩ := x
    have hthrow := throwable_iff hw conf ho hx
    rw [hx] at hf
    simp only [List.flatten_cons, List.flatten_nil, List.append_nil, stepFiles_append, List.mem_append] at hf
    rcases hf with hf | hf | hf
    · obtain ⟨td, h1, b, ns, imports, h2, rfl⟩ := (javaTypePojos_files ..).1 f hf
      exact .type hm h1 ⟨_, by rw [decide_eq_true_iff]; exact hthrow _, (javaBody_ok hw conf ho _ _ _ h2).1⟩
    · unfold javaInterface at hf
      by_cases hn : conf.name = ""
      · rw [if_pos hn] at hf; simp [stepFiles] at hf
      · rw [if_neg hn] at hf
        simp only at hf
        have key : f ∈ stepFiles (javaActionPojos m conf m.schema.http (javaTypePojos m conf exceptions m.schema.types ns).2).1 ∨
            ∃ ms, javaMethods m.schema.http = .ok ms ∧ f = { name := conf.name, pkg := conf.modelPackage, content := .interface conf.name ms } := by
          cases hms : recovered (javaMethods m.schema.http) with
          | ok ms =>
            rw [hms] at hf
            simp only [Out.bind, stepFiles_ok, List.mem_cons] at hf
            rcases hf with hf | hf
            · exact .inr ⟨ms, recovered_ok.1 hms, hf⟩
            · exact .inl hf
          | err e => rw [hms] at hf; exact .inl (by simpa [Out.bind, stepFiles, JavaStep.file?] using hf)
          | panic e => rw [hms] at hf; exact .inl (by simpa [Out.bind, stepFiles, JavaStep.file?] using hf)
        rcases key with hf | ⟨ms, h1, rfl⟩
        · obtain ⟨a, h1, n, h2, ⟨b, ns', imports, h3, rfl⟩ | ⟨e, b, ns', imports, he, h3, rfl⟩⟩ := (javaActionPojos_files ..).1 f hf
          · have := (javaBody_ok hw conf ho _ _ _ h3).1
            simp only [List.not_mem_nil, decide_false] at this
            exact .request hm hn h1 h2 this
          · have := (javaBody_ok hw conf ho _ _ _ h3).1
            simp only [List.not_mem_nil, decide_false] at this
            exact .response hm hn h1 he h2 this
        · exact .interface hm hn (javaMethods_ok _ h1)
    · unfold javaSupport at hf
      simp only [stepFiles_append, List.mem_append] at hf
      rcases hf with (hf | hf) | hf <;> split at hf
      · simp only [stepFiles, List.filterMap_cons, JavaStep.file?, List.filterMap_nil, List.mem_singleton] at hf
        subst hf; exact .timestamp hm
      · simp [stepFiles] at hf
      · simp only [stepFiles, List.filterMap_cons, JavaStep.file?, List.filterMap_nil, List.mem_singleton] at hf
        subst hf; exact .util hm
      · simp [stepFiles] at hf
      · next hse =>
        simp only [stepFiles, List.filterMap_cons, JavaStep.file?, List.filterMap_nil, List.mem_singleton] at hf
        subst hf; exact .exception hm hse
      · simp [stepFiles] at hf

/-- C93: every file that is generated is one that the settings, the types and the actions ask for, with the content for it. -/
theorem C93_files (config : Value) (f : JavaFile) (hf : f ∈ javaFilesOf m conf config) :
    JavaFileFor m.schema conf (JavaParts.of config) f := by
  have hw := accepted_java h hb
  rcases javaFilesOf_mem hf with ⟨hc, hf⟩ | ⟨hc, notes, hf⟩ | ⟨hc, hf⟩ | ⟨hc, rfl⟩
  · exact javaModel_files lib m h hb conf ho _ hc hf
  · unfold javaServer at hf
    simp only [stepFiles_check] at hf
    have key : (∃ r, javaResources m conf m.schema.http = .ok r ∧ f = { name := capitalize m.schema.name ++ "Resources", pkg := conf.serverPackage, content := .fixed (javaResourcesText conf (capitalize m.schema.name) (JavaRoot m.schema) r.1) }) ∨
        (configBool config "example-implementation" false = true ∧
          ((∃ b, f = { name := "Main", pkg := "", content := .fixed (javaMainText conf (capitalize m.schema.name) b) }) ∨
           ∃ ms, javaMethods m.schema.http = .ok ms ∧
             f = { name := capitalize m.schema.name ++ "Controller", pkg := "", content := .fixed (javaImplText conf (capitalize m.schema.name) ms) })) := by
      have step : ∀ {o : Out JavaFile} {l : List JavaStep}, f ∈ stepFiles (.file o :: l) → o = .ok f ∨ f ∈ stepFiles l := by
        intro o l h
        cases o with
        | ok g =>
          rcases List.mem_cons.1 h with h | h
          · exact .inl (by rw [h])
          · exact .inr h
        | err e => exact .inr h
        | panic e => exact .inr h
      rcases step hf with hf | hf
      · obtain ⟨r, h1, h2⟩ := gbind_ok.1 hf
        cases h2
        exact .inl ⟨r, recovered_ok.1 h1, rfl⟩
      · cases hi : configBool config "example-implementation" false with
        | false => rw [hi] at hf; simp [stepFiles] at hf
        | true =>
          rw [hi] at hf
          refine .inr ⟨rfl, ?_⟩
          rcases step hf with hf | hf
          · cases hf; exact .inl ⟨_, rfl⟩
          · rcases step hf with hf | hf
            · obtain ⟨ms, h1, h2⟩ := gbind_ok.1 hf
              cases h2
              exact .inr ⟨ms, recovered_ok.1 h1, rfl⟩
            · simp [stepFiles] at hf
    rcases key with ⟨⟨rs, ns⟩, h1, rfl⟩ | ⟨hi, ⟨b, rfl⟩ | ⟨ms, h1, rfl⟩⟩
    · exact .resources hc (javaResources_ok hw conf _ h1)
    · exact .main hc hi
    · exact .controller hc hi (javaMethods_ok _ h1)
  · unfold javaClient at hf
    simp only [stepFiles_check, stepFiles_ok, List.mem_cons] at hf
    rcases hf with rfl | hf
    · exact .clientConfig hc
    · cases hcs : recovered (javaCalls m conf m.schema.http) with
      | ok cs =>
        rw [hcs] at hf
        simp only [Out.bind, stepFiles_ok, List.mem_cons] at hf
        rcases hf with rfl | hf
        · exact .client hc (javaCalls_ok hw conf _ (recovered_ok.1 hcs))
        · simp [stepFiles] at hf
      | err e => rw [hcs] at hf; simp [stepFiles, Out.bind, JavaStep.file?] at hf
      | panic e => rw [hcs] at hf; simp [stepFiles, Out.bind, JavaStep.file?] at hf
  · exact .pom hc

/-- C93: when all files can be generated, there is a class for every type, action and part of the project that the settings ask
for, and the Maven project file if it is asked for. -/
theorem C93_complete (config : Value) (hr : JavaAllReady m.schema conf (JavaParts.of config)) :
    (∀ pkg n, JavaWanted m.schema conf (JavaParts.of config) pkg n → ∃ f ∈ javaFilesOf m conf config, f.pkg = pkg ∧ f.name = n) ∧
    ((JavaParts.of config).maven = true → ∃ f ∈ javaFilesOf m conf config, ∃ t, f.content = .pom t) := by
  have hw := accepted_java h hb
  have hgood := (javaPlan_good hw conf ho config).2 hr
  have inModel : configBool config "model" true = true → ∀ f ∈ stepFiles (javaModel m conf).1.flatten, f ∈ javaFilesOf m conf config := by
    intro hc f hf
    unfold javaFilesOf javaPlan
    simp only [List.flatten_append, stepFiles_append, List.mem_append, hc, if_true]
    exact .inl (.inl (.inl hf))
  have inServer : configBool config "server" false = true → ∃ notes, ∀ f ∈ stepFiles (javaServer m conf (configBool config "example-implementation" false) notes),
      f ∈ javaFilesOf m conf config := by
    intro hc
    refine ⟨(if configBool config "model" true then javaModel m conf else ([[]], [])).2, fun f hf => ?_⟩
    unfold javaFilesOf javaPlan
    simp only [List.flatten_append, stepFiles_append, List.mem_append]
    refine .inl (.inl (.inr ?_))
    rw [if_pos hc]
    simpa using hf
  have inClient : configBool config "client" false = true → ∀ f ∈ stepFiles (javaClient m conf), f ∈ javaFilesOf m conf config := by
    intro hc f hf
    unfold javaFilesOf javaPlan
    simp only [List.flatten_append, stepFiles_append, List.mem_append]
    refine .inl (.inr ?_)
    rw [if_pos hc]
    simpa using hf
  have model : configBool config "model" true = true → ∃ exceptions ns,
      (if conf.serviceException then .ok ([], []) else javaExceptions m conf (m.schema.http.flatMap (·.exceptions))) = .ok (exceptions, ns) ∧
      (∀ td ∈ m.schema.types, td.ts.type ∈ ["Struct", "Enum", "Union", "UnitValue"] →
        ∃ b ns, javaBody m conf exceptions (capitalize td.name) td.ts = some (.ok (b, ns))) ∧
      (conf.name ≠ "" → ∀ a ∈ m.schema.http, actionGood m conf a) := by
    intro hc
    have hg := (javaModel_good hw conf ho).2 (hr.model hc)
    unfold javaModel at hg
    cases hx : (if conf.serviceException then .ok ([], []) else javaExceptions m conf (m.schema.http.flatMap (·.exceptions))) with
    | err e => rw [hx] at hg; exact absurd hg (by simp [JavaStep.good])
    | panic e => rw [hx] at hg; exact absurd hg (by simp [JavaStep.good])
    | ok x =>
      obtain ⟨exceptions, ns⟩ := x
      rw [hx] at hg
      simp only [List.forall_mem_cons] at hg
      refine ⟨exceptions, ns, rfl, fun td htd hk => ?_, fun hn a ha => ?_⟩
      · exact ((javaTypePojos_good ..).1 hg.1 td htd).2 hk
      · exact (javaInterface_good ..).1 hg.2.1 hn a ha
  have interfaceFiles : configBool config "model" true = true → conf.name ≠ "" → ∃ notes,
      (∃ f ∈ javaFilesOf m conf config, f.pkg = conf.modelPackage ∧ f.name = conf.name) ∧
      (∀ f ∈ stepFiles (javaActionPojos m conf m.schema.http notes).1, f ∈ javaFilesOf m conf config) := by
    intro hc hn
    obtain ⟨exceptions, ns, hx, _, hact⟩ := model hc
    refine ⟨(javaTypePojos m conf exceptions m.schema.types ns).2, ?_, fun f hf => ?_⟩
    · obtain ⟨ms, h1⟩ := (javaMethods_ready m.schema.http).2 fun x hx => by
        obtain ⟨n, h1, h2, _⟩ := hact hn x hx
        exact ⟨n, h1, h2⟩
      refine ⟨{ name := conf.name, pkg := conf.modelPackage, content := .interface conf.name ms }, inModel hc _ ?_, rfl, rfl⟩
      unfold javaModel
      rw [hx]
      simp only [List.flatten_cons, stepFiles_append, List.mem_append]
      refine .inr (.inl ?_)
      unfold javaInterface
      rw [if_neg hn, recovered_ok.2 h1]
      simp [Out.bind, stepFiles_ok]
    · refine inModel hc f ?_
      unfold javaModel
      rw [hx]
      simp only [List.flatten_cons, stepFiles_append, List.mem_append]
      refine .inr (.inl ?_)
      unfold javaInterface
      rw [if_neg hn]
      simp only
      have step : ∀ (o : Out JavaFile) (l : List JavaStep), f ∈ stepFiles l → f ∈ stepFiles (.file o :: l) := by
        intro o l h
        cases o with
        | ok g => exact List.mem_cons_of_mem _ h
        | err e => exact h
        | panic e => exact h
      exact step _ _ hf
  constructor
  · intro pkg n hwant
    cases hwant with
    | type hc htd hk =>
      obtain ⟨exceptions, ns, hx, hty, _⟩ := model hc
      obtain ⟨b, ns', hbody⟩ := hty _ htd hk
      obtain ⟨f, hf, h1, h2⟩ := (javaTypePojos_files m conf exceptions m.schema.types ns).2 _ htd b ns' hbody
      refine ⟨f, inModel hc f ?_, h1, h2⟩
      unfold javaModel
      rw [hx]
      simp only [List.flatten_cons, stepFiles_append, List.mem_append]
      exact .inl hf
    | interface hc hn =>
      obtain ⟨_, h1, _⟩ := interfaceFiles hc hn
      exact h1
    | request hc hn hh hnm =>
      obtain ⟨notes, _, h1⟩ := interfaceFiles hc hn
      obtain ⟨_, _, _, _, hact⟩ := model hc
      obtain ⟨f, hf, h2⟩ := ((javaActionPojos_files m conf m.schema.http notes).2 (hact hn) _ hh _ hnm).1
      exact ⟨f, h1 f hf, h2⟩
    | response hc hn hh hnm =>
      obtain ⟨notes, _, h1⟩ := interfaceFiles hc hn
      obtain ⟨_, _, _, _, hact⟩ := model hc
      obtain ⟨f, hf, h2⟩ := ((javaActionPojos_files m conf m.schema.http notes).2 (hact hn) _ hh _ hnm).2
      exact ⟨f, h1 f hf, h2⟩
    | exception hc hse =>
      obtain ⟨exceptions, ns, hx, _⟩ := model hc
      refine ⟨{ name := "ServiceException", pkg := conf.modelPackage, content := .fixed javaExceptionText }, inModel hc _ ?_, rfl, rfl⟩
      unfold javaModel
      rw [hx]
      simp only [List.flatten_cons, stepFiles_append, List.mem_append]
      refine .inr (.inr (.inl ?_))
      unfold javaSupport
      simp only [stepFiles_append, List.mem_append, if_pos hse]
      exact .inr (by simp [stepFiles, JavaStep.file?])
    | resources hc =>
      obtain ⟨notes, h1⟩ := inServer hc
      obtain ⟨r, h2⟩ := (javaResources_ready hw conf m.schema.http).2 (hr.server hc).2
      refine ⟨{ name := capitalize m.schema.name ++ "Resources", pkg := conf.serverPackage, content := .fixed (javaResourcesText conf (capitalize m.schema.name) (JavaRoot m.schema) r.1) }, h1 _ ?_, rfl, rfl⟩
      · unfold javaServer
        simp only [stepFiles_check, recovered_ok.2 h2, Out.bind, stepFiles_ok]
        exact List.mem_cons_self ..
    | main hc hi =>
      obtain ⟨notes, h1⟩ := inServer hc
      obtain ⟨r, h2⟩ := (javaResources_ready hw conf m.schema.http).2 (hr.server hc).2
      refine ⟨{ name := "Main", pkg := "", content := .fixed (javaMainText conf (capitalize m.schema.name) (decide (.instant ∈ notes ++ r.2))) }, h1 _ ?_, rfl, rfl⟩
      · unfold javaServer
        have hi' : configBool config "example-implementation" false = true := hi
        simp only [stepFiles_check, recovered_ok.2 h2, Out.bind, stepFiles_ok, hi', if_true]
        exact List.mem_cons_of_mem _ (List.mem_cons_self ..)
    | controller hc hi =>
      obtain ⟨notes, h1⟩ := inServer hc
      obtain ⟨r, h2⟩ := (javaResources_ready hw conf m.schema.http).2 (hr.server hc).2
      obtain ⟨ms, h3⟩ := (javaMethods_ready m.schema.http).2 fun x hx => ((hr.server hc).2 x hx).name
      refine ⟨{ name := capitalize m.schema.name ++ "Controller", pkg := "", content := .fixed (javaImplText conf (capitalize m.schema.name) ms) }, h1 _ ?_, rfl, rfl⟩
      · unfold javaServer
        have hi' : configBool config "example-implementation" false = true := hi
        simp only [stepFiles_check, recovered_ok.2 h2, recovered_ok.2 h3, Out.bind, stepFiles_ok, hi', if_true]
        exact List.mem_cons_of_mem _ (List.mem_cons_of_mem _ (List.mem_cons_self ..))
    | clientConfig hc =>
      refine ⟨{ name := "ClientConfig", pkg := conf.clientPackage, content := .fixed javaClientConfigText }, inClient hc _ ?_, rfl, rfl⟩
      · unfold javaClient
        simp only [stepFiles_check, stepFiles_ok]
        exact List.mem_cons_self ..
    | client hc =>
      obtain ⟨cs, h2⟩ := (javaCalls_ready hw conf m.schema.http).2 (hr.client hc).2
      refine ⟨{ name := capitalize m.schema.name ++ "Client", pkg := conf.clientPackage, content := .fixed (javaClientText conf (capitalize m.schema.name) (JavaRoot m.schema) m.schema.http cs) }, inClient hc _ ?_, rfl, rfl⟩
      · unfold javaClient
        simp only [stepFiles_check, stepFiles_ok, recovered_ok.2 h2, Out.bind]
        exact List.mem_cons_of_mem _ (List.mem_cons_self ..)
  · intro hc
    refine ⟨{ name := "pom", pkg := "", content := .pom (javaPomText conf.domain conf.name conf.lombok) }, ?_, _, rfl⟩
    unfold javaFilesOf javaPlan
    simp only [List.flatten_append, stepFiles_append, List.mem_append]
    refine .inr ?_
    have hc' : configBool config "maven" false = true := hc
    rw [if_pos hc']
    simp [stepFiles, JavaStep.file?]

end

/-! ### Writing -/

theorem firstError_none {mkdir : String → Option String} {ds : List String} : firstError mkdir ds = none ↔ ∀ d ∈ ds, mkdir d = none := by
  induction ds with
  | nil => simp [firstError]
  | cons d ds ih =>
    unfold firstError
    cases h : mkdir d with
    | some e => simp [h]
    | none => simp [h, ih]

theorem javaRunPlan_ok (os : OS) (path text : JavaFile → String) {ps : List (List JavaStep)} (hne : ps ≠ []) (g : Gen) :
    ((javaRunPlan os path text ps g).crash = none ∧ (javaRunPlan os path text ps g).gen.err = none) ↔
      g.err = none ∧ (∀ p ∈ ps, ∀ x ∈ p, x.good) ∧ (writeAll os (stepWrites path text ps.flatten) g).err = none := by
  cases ps with
  | nil => exact absurd rfl hne
  | cons p ps =>
    unfold javaRunPlan
    constructor
    · rintro ⟨hc, he⟩
      change (javaPhases os path text ps (javaSteps os path text p g)).crash = none at hc
      change (javaPhases os path text ps (javaSteps os path text p g)).gen.err = none at he
      obtain ⟨h1, h2, h3⟩ := javaPhases_ok os path text ps _ hc he
      obtain ⟨h4, h5⟩ := javaSteps_ok os path text p g h2 h3
      refine ⟨h5, List.forall_mem_cons.2 ⟨h4, h1⟩, ?_⟩
      rw [javaSteps_good os path text p h4, javaPhases_good os path text ps h1] at he
      rw [stepWrites_cons, writeAll_append]
      exact he
    · rintro ⟨_, h2, h3⟩
      show (javaPhases os path text ps (javaSteps os path text p g)).crash = none ∧ (javaPhases os path text ps (javaSteps os path text p g)).gen.err = none
      obtain ⟨h4, h1⟩ := List.forall_mem_cons.1 h2
      rw [stepWrites_cons, writeAll_append] at h3
      rw [javaSteps_good os path text p h4, javaPhases_good os path text ps h1]
      exact ⟨rfl, h3⟩

theorem javaRunPlan_files (os : OS) (path text : JavaFile → String) {ps : List (List JavaStep)} (hne : ps ≠ []) (g : Gen)
    (h : ∀ p ∈ ps, ∀ x ∈ p, x.good) : (javaRunPlan os path text ps g).gen = writeAll os (stepWrites path text ps.flatten) g := by
  cases ps with
  | nil => exact absurd rfl hne
  | cons p ps =>
    obtain ⟨h4, h1⟩ := List.forall_mem_cons.1 h
    show (javaPhases os path text ps (javaSteps os path text p g)).gen = _
    rw [javaSteps_good os path text p h4, javaPhases_good os path text ps h1, stepWrites_cons, writeAll_append]

theorem javaPlan_ne (m : Model) (conf : JavaConf) (config : Value) : javaPlan m conf config ≠ [] := by
  unfold javaPlan
  simp only
  intro h
  simp only [List.append_eq_nil_iff] at h
  obtain ⟨⟨⟨h, _⟩, _⟩, _⟩ := h
  split at h
  · unfold javaModel at h
    split at h <;> cases h
  · cases h

theorem javaExport_files_eq (os : OS) (mkdir : String → Option String) (env : JavaEnv) (m : Model) (outdir : String) (config : Value)
    (files : GoMap String) : (javaExport os mkdir env m outdir config files).files =
      (javaRunPlan os (JavaFile.path outdir (javaSource config)) (JavaFile.text (javaConfOf m env config)) (javaPlan m (javaConfOf m env config) config)
        { config := config, err := firstError mkdir (javaDirs m env outdir config), files := files }).gen.files := by
  unfold javaExport
  simp only
  split
  · rfl
  · split <;> rfl

theorem javaExport_ok_eq (os : OS) (mkdir : String → Option String) (env : JavaEnv) (m : Model) (outdir : String) (config : Value)
    (files : GoMap String) : (javaExport os mkdir env m outdir config files).outcome = .ok () ↔
      (let r := (javaRunPlan os (JavaFile.path outdir (javaSource config)) (JavaFile.text (javaConfOf m env config)) (javaPlan m (javaConfOf m env config) config)
        { config := config, err := firstError mkdir (javaDirs m env outdir config), files := files })
       r.crash = none ∧ r.gen.err = none) := by
  unfold javaExport
  simp only
  split
  · next h => simp [h]
  · next h =>
    split
    · next h2 => simp [h2]
    · next h2 => simp [h, h2]

section
variable (os : OS) (mkdir : String → Option String) (env : JavaEnv) (m : Model) (outdir : String) (config : Value) (files : GoMap String)

/-- The path of a generated file. -/
def javaPathOf (outdir : String) (config : Value) (f : JavaFile) : String := f.path outdir (javaSource config)

/-- C93: unless overwriting is asked for, a file that exists stays as it is, whatever happens. -/
theorem C93_protected (path : String) (hp : Protected os config files path) :
    mget (javaExport os mkdir env m outdir config files).files path = mget files path := by
  rw [javaExport_files_eq]
  cases hps : javaPlan m (javaConfOf m env config) config with
  | nil => rfl
  | cons p ps =>
    unfold javaRunPlan
    have h1 := javaSteps_protected os (JavaFile.path outdir (javaSource config)) (JavaFile.text (javaConfOf m env config)) path p
      { config := config, err := firstError mkdir (javaDirs m env outdir config), files := files } hp
    rw [javaPhases_protected, h1]
    unfold Protected at hp ⊢
    rw [javaSteps_config, h1]
    exact hp

variable (lib : PLib) (h : Accepted lib m) (hb : NoBoxes m.schema) (ho : ∀ l, (env.order l).Perm l)
include h hb ho

/-- C93: whatever happens, a file that changes is one that the settings ask for, and what is written is its text. -/
theorem C93_changed (path : String) (hc : mget (javaExport os mkdir env m outdir config files).files path ≠ mget files path) :
    ∃ f ∈ javaFilesOf m (javaConfOf m env config) config,
      JavaFileFor m.schema (javaConfOf m env config) (JavaParts.of config) f ∧ path = javaPathOf outdir config f ∧
      mget (javaExport os mkdir env m outdir config files).files path = some (os.written path (f.text (javaConfOf m env config))) := by
  have hmem : ∀ t, (path, t) ∈ stepWrites (JavaFile.path outdir (javaSource config)) (JavaFile.text (javaConfOf m env config))
      (javaPlan m (javaConfOf m env config) config).flatten → ∃ f ∈ javaFilesOf m (javaConfOf m env config) config,
        JavaFileFor m.schema (javaConfOf m env config) (JavaParts.of config) f ∧ path = javaPathOf outdir config f ∧ t = f.text (javaConfOf m env config) := by
    intro t ht
    obtain ⟨f, hf, he⟩ := List.mem_map.1 ht
    injection he with h1 h2
    exact ⟨f, hf, C93_files lib m h hb _ ho config f hf, h1.symm, h2.symm⟩
  rw [javaExport_files_eq] at hc ⊢
  cases hps : javaPlan m (javaConfOf m env config) config with
  | nil => exact absurd hps (javaPlan_ne _ _ _)
  | cons p ps =>
    rw [hps] at hc hmem
    unfold javaRunPlan at hc ⊢
    rcases javaPhases_changed os (JavaFile.path outdir (javaSource config)) (JavaFile.text (javaConfOf m env config)) path ps
      (javaSteps os (JavaFile.path outdir (javaSource config)) (JavaFile.text (javaConfOf m env config)) p
        { config := config, err := firstError mkdir (javaDirs m env outdir config), files := files }) with h1 | ⟨t, h1, h2⟩
    · rcases javaSteps_changed os (JavaFile.path outdir (javaSource config)) (JavaFile.text (javaConfOf m env config)) path p
        { config := config, err := firstError mkdir (javaDirs m env outdir config), files := files } with h2 | ⟨t, h2, h3⟩
      · exact absurd (h1.trans h2) hc
      · obtain ⟨f, hf, hff, hp, rfl⟩ := hmem t (by rw [stepWrites_cons]; exact List.mem_append_left _ h2)
        exact ⟨f, hf, hff, hp, h1.trans h3⟩
    · obtain ⟨f, hf, hff, hp, rfl⟩ := hmem t (by rw [stepWrites_cons]; exact List.mem_append_right _ h1)
      exact ⟨f, hf, hff, hp, h2⟩

/-- C93: no error is reported exactly when the directories could be made, everything can be generated, and every file is
protected, at first or because one with the same path is written before it, or could be written. -/
theorem C93_ok_iff : (javaExport os mkdir env m outdir config files).outcome = .ok () ↔
    (∀ d ∈ javaDirs m env outdir config, mkdir d = none) ∧
    JavaAllReady m.schema (javaConfOf m env config) (JavaParts.of config) ∧
    ∀ before f after, javaFilesOf m (javaConfOf m env config) config = before ++ f :: after →
      Protected os config files (javaPathOf outdir config f) ∨
      (asBool (dataGet config ["force-overwrite"]) = false ∧ ∃ f' ∈ before, javaPathOf outdir config f' = javaPathOf outdir config f) ∨
      (os.createFails (javaPathOf outdir config f) = false ∧ os.writeErr (javaPathOf outdir config f) (f.text (javaConfOf m env config)) = none) := by
  rw [javaExport_ok_eq]
  simp only
  rw [javaRunPlan_ok os _ _ (javaPlan_ne _ _ _), javaPlan_good (accepted_java h hb) _ ho, firstError_none]
  refine and_congr_right fun hd => and_congr_right fun _ => ?_
  have hd' := firstError_none.2 hd
  rw [hd', writeAll_ok_iff os _ _ rfl]
  have hsw : stepWrites (JavaFile.path outdir (javaSource config)) (JavaFile.text (javaConfOf m env config))
      (javaPlan m (javaConfOf m env config) config).flatten =
      (javaFilesOf m (javaConfOf m env config) config).map fun f => (javaPathOf outdir config f, f.text (javaConfOf m env config)) := rfl
  rw [hsw]
  constructor
  · intro hall before f after hs
    rcases hall (before.map fun f => (javaPathOf outdir config f, f.text (javaConfOf m env config))) (javaPathOf outdir config f)
      (f.text (javaConfOf m env config)) (after.map fun f => (javaPathOf outdir config f, f.text (javaConfOf m env config)))
      (by rw [hs]; simp) with h1 | ⟨h1, t, h2⟩ | h1
    · exact .inl h1
    · obtain ⟨f', h3, h4⟩ := List.mem_map.1 h2
      injection h4 with h4 _
      exact .inr (.inl ⟨h1, f', h3, h4⟩)
    · exact .inr (.inr h1)
  · intro hall before p t after hs
    obtain ⟨b', r', h1, rfl, h3⟩ := List.map_eq_append_iff.1 hs
    obtain ⟨f, a', rfl, h5, rfl⟩ := List.map_eq_cons_iff.1 h3
    injection h5 with h5 h6
    subst h5 h6
    rcases hall b' f a' h1 with h7 | ⟨h7, f', h8, h9⟩ | h7
    · exact .inl h7
    · exact .inr (.inl ⟨h7, f'.text (javaConfOf m env config), List.mem_map.2 ⟨f', h8, by rw [h9]⟩⟩)
    · exact .inr (.inr h7)

omit h hb ho in
/-- C93: when no error is reported, every file that is not protected holds what the operating system made of its text, unless
there are several for one path: then it is the last one if overwriting is asked for, and the first one otherwise. -/
theorem C93_written (hok : (javaExport os mkdir env m outdir config files).outcome = .ok ()) (before after : List JavaFile) (f : JavaFile)
    (hs : javaFilesOf m (javaConfOf m env config) config = before ++ f :: after)
    (hp : ¬ Protected os config files (javaPathOf outdir config f))
    (h1 : asBool (dataGet config ["force-overwrite"]) = false → ∀ f' ∈ before, javaPathOf outdir config f' ≠ javaPathOf outdir config f)
    (h2 : asBool (dataGet config ["force-overwrite"]) = true → ∀ f' ∈ after, javaPathOf outdir config f' ≠ javaPathOf outdir config f) :
    mget (javaExport os mkdir env m outdir config files).files (javaPathOf outdir config f) =
      some (os.written (javaPathOf outdir config f) (f.text (javaConfOf m env config))) := by
  rw [javaExport_ok_eq] at hok
  simp only at hok
  rw [javaRunPlan_ok os _ _ (javaPlan_ne _ _ _)] at hok
  obtain ⟨he, hgood, hw⟩ := hok
  rw [javaExport_files_eq, javaRunPlan_files os _ _ (javaPlan_ne _ _ _) _ hgood]
  have hsw : stepWrites (JavaFile.path outdir (javaSource config)) (JavaFile.text (javaConfOf m env config))
      (javaPlan m (javaConfOf m env config) config).flatten =
      (javaFilesOf m (javaConfOf m env config) config).map fun f => (javaPathOf outdir config f, f.text (javaConfOf m env config)) := rfl
  rw [hsw, hs, List.map_append, List.map_cons] at hw ⊢
  refine writeAll_written os _ _ _ _ _ he hw hp (fun hf t' hm => ?_) (fun hf t' hm => ?_)
  · obtain ⟨f', h3, h4⟩ := List.mem_map.1 hm
    injection h4 with h4 _
    exact h1 hf f' h3 h4
  · obtain ⟨f', h3, h4⟩ := List.mem_map.1 hm
    injection h4 with h4 _
    exact h2 hf f' h3 h4

/-- C93: with a file system without failures, generating from an accepted source reports no error exactly when everything that
is asked for can be generated. -/
theorem C93_generates_iff (hos : Works os) (hdir : ∀ d, mkdir d = none) : (javaExport os mkdir env m outdir config files).outcome = .ok () ↔
    JavaAllReady m.schema (javaConfOf m env config) (JavaParts.of config) := by
  rw [C93_ok_iff os mkdir env m outdir config files lib h hb ho]
  constructor
  · rintro ⟨_, h1, _⟩; exact h1
  · exact fun h1 => ⟨fun d _ => hdir d, h1, fun _ f _ _ => .inr (.inr ⟨hos.create _, hos.noError _ _⟩)⟩

end

/-! ### Places -/

theorem javaPackagePath_names {names : List (List Char)} (hne : names ≠ []) (hdot : ∀ n ∈ names, '.' ∉ n) :
    javaPackagePath (String.ofList (joinWith '.' names)) = String.ofList (joinWith '/' names) := by
  unfold javaPackagePath
  rw [String.toList_ofList, splitAll_joinWith (c := '.') hne hdot]

/-- C93: for plain names, the class `Foo` of the package `a.b` is in the file `a/b/Foo.java` of the directory of the sources, below
the output directory, wherever that is. -/
theorem C93_place (outdir : String) (config : Value) (f : JavaFile) (hf : ∀ t, f.content ≠ .pom t) (dirs names : List (List Char))
    (hd : dirs ≠ []) (hn : names ≠ []) (h1 : ∀ n ∈ dirs ++ names, PlainName n) (h2 : ∀ n ∈ names, '.' ∉ n)
    (hs : javaSource config = String.ofList (joinWith '/' dirs)) (hp : f.pkg = String.ofList (joinWith '.' names))
    (hc : PlainName (f.name ++ ".java").toList) (cwd : List (List Char)) :
    Denotes cwd (javaPathOf outdir config f) = (f.name ++ ".java").toList :: (names.reverse ++ (dirs.reverse ++ Denotes cwd outdir)) := by
  have hone : f.name ++ ".java" = String.ofList (joinWith '/' [(f.name ++ ".java").toList]) := by simp [joinWith]
  have hpk : f.pkg ≠ "" := by
    rw [hp]
    intro e
    have e2 := congrArg String.toList e
    rw [String.toList_ofList] at e2
    match names, hn with
    | [w], _ => exact (h1 w (by simp)).1 e2
    | w :: x :: xs, _ => simp [joinWith] at e2
  have hpath : javaPathOf outdir config f = joinPath (joinPath (joinPath outdir (javaSource config)) (javaPackagePath f.pkg)) (f.name ++ ".java") := by
    unfold javaPathOf JavaFile.path
    split
    · next t h => exact absurd h (hf t)
    · simp only [if_pos hpk]
  rw [hpath, hone, denotes_join_plain cwd _ (by simp) (by simpa using hc), hp, javaPackagePath_names hn h2,
    denotes_join_plain cwd _ hn (fun n h => h1 n (by simp [h])), hs, denotes_join_plain cwd _ hd (fun n h => h1 n (by simp [h]))]
  simp [joinWith]

theorem reverseDots_twice (s : String) : reverseDots (reverseDots s) = s := by
  unfold reverseDots
  rw [String.toList_ofList, splitAll_joinWith (by simp [splitAll_ne_nil]) (fun w hw => splitAll_mem w (by simpa using hw)), List.reverse_reverse,
    joinWith_splitAll, String.ofList_toList]

/-- C93: the package is that of the setting `package`; without it, it is the namespace of the schema (or `domain.-` reversed). -/
theorem C93_package (m : Model) (env : JavaEnv) (config : Value) :
    (configString config "package" "" ≠ "" → (javaConfOf m env config).pkg = configString config "package" "") ∧
    (configString config "package" "" = "" → dataGetString config ["domain", "-"] = "" → m.schema.namespace ≠ "" →
      (javaConfOf m env config).pkg = m.schema.namespace) := by
  unfold javaConfOf javaPkg
  refine ⟨fun h => by simp [h], fun h h1 h2 => ?_⟩
  unfold javaDomain
  simp [h, h1, h2, reverseDots_twice]

/-- C93: the classes of types are in the package `model` in that package, those of the server in `server`, those of the client in
`client`, unless the settings say otherwise. -/
theorem C93_packages (m : Model) (env : JavaEnv) (config : Value) :
    (configBool config "model" true = true → (javaConfOf m env config).modelPackage =
      configString config "model-package" ((javaConfOf m env config).pkg ++ ".model")) ∧
    (configBool config "server" false = true → (javaConfOf m env config).serverPackage =
      configString config "server-package" ((javaConfOf m env config).pkg ++ ".server")) ∧
    (configBool config "client" false = true → (javaConfOf m env config).clientPackage =
      configString config "client-package" ((javaConfOf m env config).pkg ++ ".client")) := by
  unfold javaConfOf
  exact ⟨fun h => by simp [h], fun h => by simp [h], fun h => by simp [h]⟩

/-- C93: the setting `domain` has no effect. -/
theorem C93_refuted_domain (m : Model) (env : JavaEnv) (d : String) :
    javaDomain m env (.obj [("domain", .str d)]) = javaDomain m env (.obj []) := by
  have h1 : dataGetString (.obj [("domain", .str d)]) ["domain", "-"] = "" := rfl
  have h2 : dataGetString (.obj []) ["domain", "-"] = "" := rfl
  unfold javaDomain
  rw [h1, h2]

/-- The paths of the files after generating Java, and whether no error is reported. -/
def javaExportedPaths (m : Model) (config : Value) (files : GoMap String) : Bool × List String :=
  let r := javaExport goodOs (fun _ => none) {} m "/out" config files
  (match r.outcome with | .ok _ => true | _ => false, r.files.map (·.1))

theorem javaExported_of (toks : List Token) (config : Value) (files : GoMap String) (ps : Bool × List String)
    (h1 : toks.all (fun t => decide (t.type = .symbol → t.text ≠ "")) = true)
    (h : accepts noLib toks (fun m => decide ((∀ td ∈ m.schema.types, td.name ∉ JavaBoxes) ∧ javaExportedPaths m config files = ps)) = true) :
    ∃ m, Accepted noLib m ∧ NoBoxes m.schema ∧ javaExportedPaths m config files = ps := by
  obtain ⟨m, h2, h3⟩ := accepted_of noLib toks _ h1 h
  obtain ⟨h4, h5⟩ := of_decide_eq_true h3
  exact ⟨m, h2, h4, h5⟩

/-- Settings for a service `svc` and a package `com.example`, with a server, a client and a Maven project. -/
def javaAllConfig : Value :=
  .obj [("name", .str "svc"), ("package", .str "com.example"), ("server", .bool true), ("client", .bool true), ("maven", .bool true)]

/-- The hypotheses of C93 can be met: all parts for an accepted source, into a directory where there is a file already. -/
theorem C93_example : ∃ m, Accepted noLib m ∧ NoBoxes m.schema ∧ javaExportedPaths m javaAllConfig
    [("/out/src/main/java/com/example/model/Svc.java", "mine")] = (true, [
      "/out/src/main/java/com/example/model/Svc.java",
      "/out/src/main/java/com/example/model/Item.java",
      "/out/src/main/java/com/example/model/DoItRequest.java",
      "/out/src/main/java/com/example/model/DoItResponse.java",
      "/out/src/main/java/com/example/model/Util.java",
      "/out/src/main/java/com/example/server/TestResources.java",
      "/out/src/main/java/com/example/client/ClientConfig.java",
      "/out/src/main/java/com/example/client/TestClient.java",
      "/out/pom.xml"]) :=
  javaExported_of
    ([sym "name", sym "test", nl] ++ itemSource ++ actionSource "GET" "/items/{id}" [[sym "id", sym "String"], expectSource "200" [[sym "item", sym "Item"]]]) _ _ _
    (by decide +kernel) (by decide +kernel)

/-- `type foo Struct { a Int32 }` and `type Foo Struct { b String }` -/
def fooFooSource : List Token :=
  [sym "type", sym "foo", sym "Struct", punct .openBrace, nl, sym "a", sym "Int32", nl, punct .closeBrace, nl,
   sym "type", sym "Foo", sym "Struct", punct .openBrace, nl, sym "b", sym "String", nl, punct .closeBrace, nl]

/-- C93: two types whose names differ only in the case of the first letter have one file: the second class is lost, and no error
is reported. -/
theorem C93_refuted_collision : ∃ m, Accepted noLib m ∧ NoBoxes m.schema ∧ m.schema.types.map TypeDef.name = ["foo", "Foo"] ∧
    javaExportedPaths m (.obj [("package", .str "com.example")]) [] = (true, ["/out/src/main/java/com/example/model/Foo.java"]) := by
  obtain ⟨m, h1, h2⟩ := accepted_of noLib fooFooSource
    (fun m => decide ((∀ td ∈ m.schema.types, td.name ∉ JavaBoxes) ∧ m.schema.types.map TypeDef.name = ["foo", "Foo"] ∧
      javaExportedPaths m (.obj [("package", .str "com.example")]) [] = (true, ["/out/src/main/java/com/example/model/Foo.java"])))
    (by decide +kernel) (by decide +kernel)
  obtain ⟨h3, h4, h5⟩ := of_decide_eq_true h2
  exact ⟨m, h1, h3, h4, h5⟩

end Sadl.Props
