import Verif.Spec.GoExport
import Verif.Lemmas.GoExport
import Verif.Lemmas.Path
import Verif.Lemmas.SmithyActionBack
import Verif.Props.GoClient
/-
C89: the files that generating Go writes.
-/
namespace Sadl.Props
open Sadl Sadl.Spec

theorem mem_goParts {lib : GoLib} {m : Model} {config : Value} {s : String} {t : Out String} :
    (s, t) ∈ goParts lib m config ↔
      (configBool config "model" true = true ∧ s = "_model.go" ∧ t = (goModel m (goConfOf m config)).bind fun f => .ok f.text) ∨
      (configBool config "server" false = true ∧ s = "_server.go" ∧ t = (goServer m (goConfOf m config) lib).bind fun f => .ok f.text) ∨
      (configBool config "client" false = true ∧ s = "_client.go" ∧ t = (goClient m (goConfOf m config)).bind fun f => .ok f.text) := by
  unfold goParts
  simp only [List.mem_append]
  constructor
  · rintro ((h | h) | h)
    · split at h
      · next hc => simp only [List.mem_singleton, Prod.mk.injEq] at h; exact .inl ⟨hc, h⟩
      · cases h
    · split at h
      · next hc => simp only [List.mem_singleton, Prod.mk.injEq] at h; exact .inr (.inl ⟨hc, h⟩)
      · cases h
    · split at h
      · next hc => simp only [List.mem_singleton, Prod.mk.injEq] at h; exact .inr (.inr ⟨hc, h⟩)
      · cases h
  · rintro (⟨hc, rfl, rfl⟩ | ⟨hc, rfl, rfl⟩ | ⟨hc, rfl, rfl⟩)
    · exact .inl (.inl (by simp [hc]))
    · exact .inl (.inr (by simp [hc]))
    · exact .inr (by simp [hc])

theorem wanted_iff {config : Value} {s : String} : GoWanted config s ↔ configBool config "model" true = true ∧ s = "_model.go" ∨
    configBool config "server" false = true ∧ s = "_server.go" ∨ configBool config "client" false = true ∧ s = "_client.go" := by
  constructor
  · rintro (h | h | h)
    · exact .inl ⟨h, rfl⟩
    · exact .inr (.inl ⟨h, rfl⟩)
    · exact .inr (.inr ⟨h, rfl⟩)
  · rintro (⟨h, rfl⟩ | ⟨h, rfl⟩ | ⟨h, rfl⟩)
    · exact .model h
    · exact .server h
    · exact .client h

theorem goParts_wanted {lib : GoLib} {m : Model} {config : Value} {s : String} :
    (∃ t, (s, t) ∈ goParts lib m config) ↔ GoWanted config s := by
  simp only [mem_goParts]
  constructor
  · rintro ⟨t, ⟨h, rfl, _⟩ | ⟨h, rfl, _⟩ | ⟨h, rfl, _⟩⟩
    · exact .model h
    · exact .server h
    · exact .client h
  · rintro (h | h | h)
    · exact ⟨_, .inl ⟨h, rfl, rfl⟩⟩
    · exact ⟨_, .inr (.inl ⟨h, rfl, rfl⟩)⟩
    · exact ⟨_, .inr (.inr ⟨h, rfl, rfl⟩)⟩

theorem goParts_text {lib : GoLib} {m : Model} {config : Value} {s t : String} :
    (s, Out.ok t) ∈ goParts lib m config ↔ GoWanted config s ∧ GoTextOf lib m (goConfOf m config) s t := by
  have hb : ∀ {α : Type} (x : Out α) (g : α → String), Out.ok t = (x.bind fun f => .ok (g f)) ↔ ∃ f, x = .ok f ∧ t = g f := by
    intro α x g
    cases x <;> simp [Out.bind]
  simp only [mem_goParts, hb]
  constructor
  · rintro (⟨h, rfl, f, h1, rfl⟩ | ⟨h, rfl, f, h1, rfl⟩ | ⟨h, rfl, f, h1, rfl⟩)
    · exact ⟨.model h, .model h1⟩
    · exact ⟨.server h, .server h1⟩
    · exact ⟨.client h, .client h1⟩
  · rintro ⟨h, h1 | h1 | h1⟩
    · rcases wanted_iff.1 h with ⟨h, _⟩ | ⟨_, h⟩ | ⟨_, h⟩
      · exact .inl ⟨h, rfl, _, h1, rfl⟩
      · exact absurd h (by decide)
      · exact absurd h (by decide)
    · rcases wanted_iff.1 h with ⟨_, h⟩ | ⟨h, _⟩ | ⟨_, h⟩
      · exact absurd h (by decide)
      · exact .inr (.inl ⟨h, rfl, _, h1, rfl⟩)
      · exact absurd h (by decide)
    · rcases wanted_iff.1 h with ⟨_, h⟩ | ⟨_, h⟩ | ⟨h, _⟩
      · exact absurd h (by decide)
      · exact absurd h (by decide)
      · exact .inr (.inr ⟨h, rfl, _, h1, rfl⟩)

theorem wanted_suffix {config : Value} {s : String} (h : GoWanted config s) : s ∈ ["_model.go", "_server.go", "_client.go"] := by
  cases h <;> simp

theorem goParts_nodup (lib : GoLib) (m : Model) (outdir : String) (config : Value) :
    ((goParts lib m config).map fun p => goFilePath m outdir config p.1).Nodup := by
  have h12 := goFilePath_ne m outdir config (s := "_model.go") (t := "_server.go") (by simp) (by simp) (by decide)
  have h13 := goFilePath_ne m outdir config (s := "_model.go") (t := "_client.go") (by simp) (by simp) (by decide)
  have h23 := goFilePath_ne m outdir config (s := "_server.go") (t := "_client.go") (by simp) (by simp) (by decide)
  unfold goParts
  cases configBool config "model" true <;> cases configBool config "server" false <;> cases configBool config "client" false <;>
    simp [h12, h13, h23]

theorem protected_iff (os : OS) (config : Value) (err : Option String) (files : GoMap String) (path : String) :
    Gen.keeps os { config := config, err := err, files := files } path ↔ Protected os config files path := by
  unfold Gen.keeps Protected Gen.fileExists
  simp [Option.isSome_iff_exists]

section
variable (os : OS) (mkdir : String → Option String) (lib : GoLib) (m : Model) (outdir : String) (config : Value) (files : GoMap String)

/-- C89: generating Go touches no other file than those that the settings ask for, in the directory of the package. -/
theorem C89_untouched (path : String) (h : ∀ s, GoWanted config s → path ≠ goFilePath m outdir config s) :
    mget (goExport os mkdir lib m outdir config files).files path = mget files path := by
  unfold goExport
  exact exportParts_untouched os _ _ _ fun p hp => h p.1 (goParts_wanted.1 ⟨p.2, hp⟩)

/-- C89: unless overwriting is asked for, a file that exists stays as it is, whatever the operating system does. -/
theorem C89_protected (path : String) (h : Protected os config files path) :
    mget (goExport os mkdir lib m outdir config files).files path = mget files path := by
  unfold goExport
  exact exportParts_keeps os _ _ _ ((protected_iff os config _ files path).2 h)

/-- C89: a file that changes is one that the settings ask for, and what is written is the text generated for it. -/
theorem C89_changed (path : String) (h : mget (goExport os mkdir lib m outdir config files).files path ≠ mget files path) :
    ∃ s t, GoWanted config s ∧ GoTextOf lib m (goConfOf m config) s t ∧ path = goFilePath m outdir config s ∧
      mget (goExport os mkdir lib m outdir config files).files path = some (os.written path t) := by
  unfold goExport at h ⊢
  rcases exportParts_changed os (goFilePath m outdir config) (goParts lib m config)
    { config := config, err := if goDir m outdir config ≠ "" then mkdir (goDir m outdir config) else none, files := files } (path := path)
    with h1 | ⟨s, t, h1, h2, _, h3⟩
  · exact absurd h1 h
  · obtain ⟨h4, h5⟩ := goParts_text.1 h1
    exact ⟨s, t, h4, h5, h2, h3⟩

/-- C89: no error is reported exactly when the directory could be made and every file asked for can be generated, and is
protected or could be written. -/
theorem C89_ok_iff : (goExport os mkdir lib m outdir config files).outcome = .ok () ↔
    (goDir m outdir config ≠ "" → mkdir (goDir m outdir config) = none) ∧
    ∀ s, GoWanted config s → ∃ t, GoTextOf lib m (goConfOf m config) s t ∧
      (Protected os config files (goFilePath m outdir config s) ∨
        os.createFails (goFilePath m outdir config s) = false ∧ os.writeErr (goFilePath m outdir config s) t = none) := by
  unfold goExport
  cases he : (if goDir m outdir config ≠ "" then mkdir (goDir m outdir config) else none) with
  | some e =>
    rw [exportParts_err os _ (e := e) he]
    simp only [reduceCtorEq, false_iff, not_and]
    intro h
    split at he
    · next hd => rw [h hd] at he; cases he
    · cases he
  | none =>
    rw [exportParts_ok_iff os _ _ (goParts_nodup lib m outdir config) _ he]
    simp only [protected_iff]
    constructor
    · intro h
      refine ⟨fun hd => by rw [if_pos hd] at he; exact he, fun s hs => ?_⟩
      obtain ⟨t, ht⟩ := goParts_wanted.2 hs
      obtain ⟨t', h1, h2⟩ := h (s, t) ht
      simp only at h1
      subst h1
      exact ⟨t', (goParts_text.1 ht).2, h2⟩
    · rintro ⟨_, h⟩ ⟨s, t⟩ hp
      obtain ⟨t', h1, h2⟩ := h s (goParts_wanted.1 ⟨t, hp⟩)
      have h3 := (goParts_text (lib := lib)).2 ⟨goParts_wanted.1 ⟨t, hp⟩, h1⟩
      have : t = .ok t' := by
        rw [mem_goParts] at hp h3
        rcases hp with ⟨_, rfl, rfl⟩ | ⟨_, rfl, rfl⟩ | ⟨_, rfl, rfl⟩ <;>
          rcases h3 with ⟨_, h4, h5⟩ | ⟨_, h4, h5⟩ | ⟨_, h4, h5⟩ <;> first | exact h5.symm | (exact absurd h4 (by decide))
      exact ⟨t', this, h2⟩

/-- C89: when no error is reported, every file asked for that is not protected holds what the operating system made of the
text generated for it. -/
theorem C89_written (h : (goExport os mkdir lib m outdir config files).outcome = .ok ()) (s : String) (hs : GoWanted config s)
    (hp : ¬ Protected os config files (goFilePath m outdir config s)) : ∃ t, GoTextOf lib m (goConfOf m config) s t ∧
      mget (goExport os mkdir lib m outdir config files).files (goFilePath m outdir config s) = some (os.written (goFilePath m outdir config s) t) := by
  obtain ⟨hd, hall⟩ := (C89_ok_iff os mkdir lib m outdir config files).1 h
  obtain ⟨t, h1, _⟩ := hall s hs
  refine ⟨t, h1, ?_⟩
  unfold goExport at h ⊢
  have he : (if goDir m outdir config ≠ "" then mkdir (goDir m outdir config) else none) = none := by
    split
    · next hd' => exact hd hd'
    · rfl
  simp only [he] at h ⊢
  refine exportParts_files os _ _ (goParts_nodup lib m outdir config) _ rfl h (goParts_text.2 ⟨hs, h1⟩) fun hk => ?_
  exact hp ((protected_iff _ _ _ _ _).1 hk)

theorem goParts_noPanic : ∀ p ∈ (goParts lib m config).tail, ∀ e, p.2 ≠ .panic e := by
  have hb : ∀ {α : Type} (x : Out α) (g : α → String) (e : String), (∀ e, x ≠ .panic e) → (x.bind fun f => .ok (g f)) ≠ .panic e := by
    intro α x g e h
    cases x with
    | ok a => simp [Out.bind]
    | err a => simp [Out.bind]
    | panic a => exact absurd rfl (h a)
  have h1 : ∀ e, ((goServer m (goConfOf m config) lib).bind fun s => .ok s.text) ≠ .panic e := fun e => hb _ _ _ fun e => C83_no_crash m _ lib e
  have h2 : ∀ e, ((goClient m (goConfOf m config)).bind fun s => .ok s.text) ≠ .panic e := fun e => hb _ _ _ fun e => C86_no_crash m _ e
  unfold goParts
  cases configBool config "model" true <;> cases configBool config "server" false <;> cases configBool config "client" false <;>
    simp [h1, h2]

/-- C89: the generator crashes exactly when the directory could be made, types are asked for and generating the types crashes. -/
theorem C89_crash_iff (e : String) : (goExport os mkdir lib m outdir config files).outcome = .panic e ↔
    (goDir m outdir config ≠ "" → mkdir (goDir m outdir config) = none) ∧ GoWanted config "_model.go" ∧ goModel m (goConfOf m config) = .panic e := by
  unfold goExport
  rw [exportParts_panic os _ _ (goParts_noPanic lib m config)]
  have h1 : (if goDir m outdir config ≠ "" then mkdir (goDir m outdir config) else none) = none ↔
      (goDir m outdir config ≠ "" → mkdir (goDir m outdir config) = none) := by
    split
    · next h => simp [h]
    · next h => simp only [ne_eq, not_not] at h; simp [h]
  simp only [h1]
  refine and_congr_right fun _ => ?_
  have hb : ∀ {α : Type} (x : Out α) (g : α → String), (x.bind fun f => .ok (g f)) = .panic e ↔ x = .panic e := by
    intro α x g
    cases x <;> simp [Out.bind]
  constructor
  · rintro ⟨s, r, h⟩
    have hmem : (s, Out.panic e) ∈ goParts lib m config := by rw [h]; simp
    rcases mem_goParts.1 hmem with ⟨h2, rfl, h3⟩ | ⟨h2, rfl, h3⟩ | ⟨h2, rfl, h3⟩
    · exact ⟨.model h2, (hb _ _).1 h3.symm⟩
    · exact absurd ((hb _ _).1 h3.symm) (C83_no_crash m _ lib e)
    · exact absurd ((hb _ _).1 h3.symm) (C86_no_crash m _ e)
  · rintro ⟨h2, h3⟩
    have h2 : configBool config "model" true = true := by
      rcases wanted_iff.1 h2 with ⟨h, _⟩ | ⟨_, h⟩ | ⟨_, h⟩
      · exact h
      · exact absurd h (by decide)
      · exact absurd h (by decide)
    unfold goParts
    simp only [h2, h3, if_true]
    exact ⟨_, _, rfl⟩

/-- C89: a crash leaves all files as they are. -/
theorem C89_crash_files (e : String) (h : (goExport os mkdir lib m outdir config files).outcome = .panic e) :
    (goExport os mkdir lib m outdir config files).files = files := by
  unfold goExport at h ⊢
  exact exportParts_panic_files os _ (goParts_noPanic lib m config) h
end

/-! ### Names -/

/-- C89: the service has the name of the setting, or that of the schema, capitalized; the run-time package is used if the
setting says so. -/
theorem C89_service (m : Model) (config : Value) :
    (goConfOf m config).name = capitalize (configString config "name" m.schema.name) ∧
    capitalize (goConfOf m config).name = (goConfOf m config).name ∧ (goConfOf m config).runtime = configBool config "runtime" false :=
  ⟨rfl, Smithy.capitalize_again _, rfl⟩

theorem dot_joinWith {c : Char} {ws : List (List Char)} (h : ∀ w ∈ ws, c ∉ w) : c ∈ joinWith c ws ↔ 2 ≤ ws.length := by
  match ws with
  | [] => simp [joinWith]
  | [w] => simpa [joinWith] using h w
  | w :: x :: xs => simp [joinWith]

/-- C89: for a package given by names with dots in between, by the setting or, without one, by the namespace of the schema, the
files are in package of the last name, in a directory for each name.  Without either the package is `main`. -/
theorem C89_package (m : Model) (config : Value) (names : List (List Char)) (hne : names ≠ []) (hdot : ∀ n ∈ names, '.' ∉ n ∧ n ≠ [])
    (h : configString config "package" "" = String.ofList (joinWith '.' names) ∨
      configString config "package" "" = "" ∧ m.schema.namespace = String.ofList (joinWith '.' names) ∨
      configString config "package" "" = "" ∧ m.schema.namespace = "" ∧ names = ["main".toList]) (outdir : String) :
    (goConfOf m config).pkg = String.ofList (names.getLast hne) ∧ goDir m outdir config = joinPath outdir (String.ofList (joinWith '/' names)) := by
  have hj : String.ofList (joinWith '.' names) ≠ "" := by
    intro e
    have e2 := congrArg String.toList e
    rw [String.toList_ofList] at e2
    match names, hne with
    | [w], _ => exact (hdot w (by simp)).2 e2
    | w :: x :: xs, _ => simp [joinWith] at e2
  have hp : goPackage m config = String.ofList (joinWith '.' names) := by
    unfold goPackage
    rcases h with h | ⟨h, h2⟩ | ⟨h, h2, h3⟩
    · simp [h, hj]
    · simp only [h, h2, if_true, if_neg hj]
    · subst h3
      simp [h, h2, joinWith]
  have hsplit := splitAll_joinWith (c := '.') hne fun n hn => (hdot n hn).1
  have hpp : goPackagePath (goPackage m config) = (String.ofList (names.getLast hne), String.ofList (joinWith '/' names)) := by
    unfold goPackagePath
    rw [hp, String.toList_ofList, hsplit]
    by_cases h2 : '.' ∈ joinWith '.' names
    · rw [if_pos h2]
      simp [List.getLastD_eq_getLast?, List.getLast?_eq_getLast_of_ne_nil hne]
    · rw [if_neg h2]
      rw [dot_joinWith fun n hn => (hdot n hn).1] at h2
      match names, hne with
      | [w], _ => simp [joinWith]
      | w :: x :: xs, _ => simp at h2
  exact ⟨by unfold goConfOf; rw [hpp], by unfold goDir; rw [hpp]⟩

theorem lower_slash {c : Char} (h : c.toNat < 128) (hc : c ≠ '/') : c.toLower ≠ '/' := by
  have key : ∀ n : Fin 128, Char.ofNat n ≠ '/' → (Char.ofNat n).toLower ≠ '/' := by decide +kernel
  have := key ⟨c.toNat, h⟩
  simp only [Char.ofNat_toNat] at this
  exact this hc

theorem goFile_plain {m : Model} {config : Value} (hs : '/' ∉ (goConfOf m config).name.toList) {s : String} (hw : GoWanted config s) :
    PlainName (uncapitalize (goConfOf m config).name ++ s).toList := by
  have hsuf : ∀ s ∈ ["_model.go", "_server.go", "_client.go"], '/' ∉ s.toList ∧ 3 ≤ s.toList.length := by decide +kernel
  obtain ⟨h2, h3⟩ := hsuf s (wanted_suffix hw)
  have hl : 3 ≤ (uncapitalize (goConfOf m config).name ++ s).toList.length := by
    rw [String.toList_append, List.length_append]; omega
  refine ⟨?_, ?_, ?_, ?_⟩
  · intro e; rw [e] at hl; simp at hl
  · intro e; rw [e] at hl; simp at hl
  · intro e; rw [e] at hl; simp at hl
  · rw [String.toList_append, List.mem_append]
    rintro (h | h)
    · unfold uncapitalize at h
      rw [String.toList_ofList] at h
      cases hc : (goConfOf m config).name.toList with
      | nil => rw [hc] at h; cases h
      | cons c r =>
        rw [hc] at h hs
        rcases List.mem_cons.1 h with h | h
        · have : c ≠ '/' := fun e => hs (by simp [e])
          split at h
          · next hlt =>
            exact absurd (h.symm) (lower_slash hlt this)
          · exact this h.symm
        · exact hs (by simp [h])
    · exact h2 h

/-- C89: for an output directory, names of packages and a service whose names are plain, the files are at
`outdir/name/…/name/service_model.go` and so on. -/
theorem C89_path (m : Model) (config : Value) (outdir : String) (rooted : Bool) (dirs names : List (List Char)) (hd : dirs ≠ [])
    (hn : names ≠ []) (h1 : ∀ n ∈ dirs ++ names, PlainName n) (ho : outdir = String.ofList ((if rooted then ['/'] else []) ++ joinWith '/' dirs))
    (hdir : goDir m outdir config = joinPath outdir (String.ofList (joinWith '/' names))) (hs : '/' ∉ (goConfOf m config).name.toList)
    (s : String) (hw : GoWanted config s) :
    goFilePath m outdir config s = outdir ++ "/" ++ String.ofList (joinWith '/' names) ++ "/" ++ (uncapitalize (goConfOf m config).name ++ s) := by
  unfold goFilePath
  have hplain := goFile_plain hs hw
  have hone : uncapitalize (goConfOf m config).name ++ s = String.ofList (joinWith '/' [(uncapitalize (goConfOf m config).name ++ s).toList]) := by
    simp [joinWith]
  rw [hdir, ho]
  have e1 := joinPath_plain rooted hd hn (fun n h => h1 n (by simp [h])) (fun n h => h1 n (by simp [h]))
  have e2 := joinPath_plain rooted (l := dirs ++ names) (k := [(uncapitalize (goConfOf m config).name ++ s).toList]) (by simp [hd]) (by simp) h1
    (by simpa using hplain)
  rw [← hone] at e2
  unfold plainPath at e1 e2
  rw [e1, e2]
  apply String.toList_inj.1
  simp only [String.toList_append, String.toList_ofList, joinWith_append '/' (show dirs ++ names ≠ [] by simp [hd]) (show [_] ≠ [] by simp), joinWith_append '/' hd hn]
  simp [joinWith]

/-- C89: for names of packages and a service that are plain, and any output directory, the files are in the directory of the
package below the output directory, wherever that is (`..` and the like included). -/
theorem C89_place (m : Model) (config : Value) (outdir : String) (names : List (List Char))
    (hn : names ≠ []) (h1 : ∀ n ∈ names, PlainName n)
    (hdir : goDir m outdir config = joinPath outdir (String.ofList (joinWith '/' names))) (hs : '/' ∉ (goConfOf m config).name.toList)
    (s : String) (hw : GoWanted config s) (cwd : List (List Char)) :
    Denotes cwd (goFilePath m outdir config s) =
      (uncapitalize (goConfOf m config).name ++ s).toList :: (names.reverse ++ Denotes cwd outdir) := by
  have hone : uncapitalize (goConfOf m config).name ++ s = String.ofList (joinWith '/' [(uncapitalize (goConfOf m config).name ++ s).toList]) := by
    simp [joinWith]
  unfold goFilePath
  rw [hdir, hone, denotes_join_plain cwd _ (by simp) (by simpa using goFile_plain hs hw), denotes_join_plain cwd _ hn h1]
  simp [joinWith]

/-! ### Accepted sources -/

/-- C89: with a file system without failures, generating from an accepted source reports no error exactly when the types, the
server and the client that are asked for can be generated. -/
theorem C89_generates_iff (os : OS) (hos : Works os) (mkdir : String → Option String) (hdir : ∀ d, mkdir d = none) (plib : PLib) (lib : GoLib)
    (m : Model) (h : Accepted plib m) (outdir : String) (config : Value) (files : GoMap String) :
    (goExport os mkdir lib m outdir config files).outcome = .ok () ↔
      (GoWanted config "_model.go" → (∀ td ∈ m.schema.types, GoTypeReady m.schema td) ∧ ∀ hd ∈ m.schema.http, GoActionReady m.schema hd) ∧
      (GoWanted config "_server.go" → ∀ hd ∈ m.schema.http, GoServable m.schema hd) ∧
      (GoWanted config "_client.go" → ∀ hd ∈ m.schema.http, GoCallable hd) := by
  rw [C89_ok_iff, ← C64_generates_iff plib m h (goConfOf m config), ← C83_generates_iff plib m h (goConfOf m config) lib,
    ← C86_generates_iff plib m h (goConfOf m config)]
  have inv : ∀ s t, GoTextOf lib m (goConfOf m config) s t → (s = "_model.go" → ∃ f, goModel m (goConfOf m config) = .ok f) ∧
      (s = "_server.go" → ∃ f, goServer m (goConfOf m config) lib = .ok f) ∧ (s = "_client.go" → ∃ f, goClient m (goConfOf m config) = .ok f) := by
    rintro s t (h | h | h)
    · exact ⟨fun _ => ⟨_, h⟩, fun e => absurd e (by decide), fun e => absurd e (by decide)⟩
    · exact ⟨fun e => absurd e (by decide), fun _ => ⟨_, h⟩, fun e => absurd e (by decide)⟩
    · exact ⟨fun e => absurd e (by decide), fun e => absurd e (by decide), fun _ => ⟨_, h⟩⟩
  constructor
  · rintro ⟨_, hall⟩
    refine ⟨fun hw => ?_, fun hw => ?_, fun hw => ?_⟩
    · obtain ⟨t, ht, _⟩ := hall _ hw
      exact (inv _ _ ht).1 rfl
    · obtain ⟨t, ht, _⟩ := hall _ hw
      exact (inv _ _ ht).2.1 rfl
    · obtain ⟨t, ht, _⟩ := hall _ hw
      exact (inv _ _ ht).2.2 rfl
  · rintro ⟨h1, h2, h3⟩
    refine ⟨fun _ => hdir _, fun s hs => ?_⟩
    rcases wanted_iff.1 hs with ⟨_, rfl⟩ | ⟨_, rfl⟩ | ⟨_, rfl⟩
    · obtain ⟨f, hf⟩ := h1 hs
      exact ⟨_, .model hf, .inr ⟨hos.create _, hos.noError _ _⟩⟩
    · obtain ⟨f, hf⟩ := h2 hs
      exact ⟨_, .server hf, .inr ⟨hos.create _, hos.noError _ _⟩⟩
    · obtain ⟨f, hf⟩ := h3 hs
      exact ⟨_, .client hf, .inr ⟨hos.create _, hos.noError _ _⟩⟩

/-- A file system without failures. -/
def goodOs : OS := ⟨fun _ => false, fun _ => false, fun _ c => c, fun _ _ => none⟩

/-- Settings that ask for a server, a service `svc` and a package `com.example`. -/
def serverConfig : Value := .obj [("name", .str "svc"), ("package", .str "com.example"), ("server", .bool true)]

/-- A source with a parameter of type `Bool`, for which no server can be generated. -/
def boolSource : List Token :=
  itemSource ++ actionSource "GET" "/items?all={all}" [[sym "all", sym "Bool"], expectSource "200" [[sym "item", sym "Item"]]]

/-- The paths of the files after generating, and whether an error is reported. -/
def exportedPaths (m : Model) (config : Value) (files : GoMap String) : Bool × List String :=
  let r := goExport goodOs (fun _ => none) someGoLib m "/out" config files
  (match r.outcome with | .ok _ => true | _ => false, r.files.map (·.1))

/-- C89: an error does not mean that nothing was written: when the server cannot be generated, the file of types has been
written already. -/
theorem C89_refuted_atomic : ∃ m, Accepted noLib m ∧
    exportedPaths m serverConfig [] = (false, ["/out/com/example/svc_model.go"]) := by
  obtain ⟨m, h1, h2⟩ := accepted_of noLib boolSource
    (fun m => exportedPaths m serverConfig [] == (false, ["/out/com/example/svc_model.go"])) (by decide +kernel) (by decide +kernel)
  exact ⟨m, h1, by simpa using h2⟩

/-- The hypotheses of C89 can be met: types, a server and a client for an accepted source, into a directory where there is a file
already, which stays. -/
example : ∃ m, Accepted noLib m ∧ exportedPaths m (.obj [("name", .str "crudl"), ("server", .bool true), ("client", .bool true)])
      [("/out/main/crudl_server.go", "mine")] =
    (true, ["/out/main/crudl_server.go", "/out/main/crudl_model.go", "/out/main/crudl_client.go"]) ∧ Works goodOs ∧
    goDir m "/out" (.obj [("name", .str "crudl"), ("server", .bool true), ("client", .bool true)]) = "/out/main" := by
  obtain ⟨m, h1, h2⟩ := accepted_of noLib
    (itemSource ++ actionSource "GET" "/items/{id}" [[sym "id", sym "String"], expectSource "200" [[sym "item", sym "Item"]]])
    (fun m => exportedPaths m (.obj [("name", .str "crudl"), ("server", .bool true), ("client", .bool true)]) [("/out/main/crudl_server.go", "mine")] ==
      (true, ["/out/main/crudl_server.go", "/out/main/crudl_model.go", "/out/main/crudl_client.go"]) &&
      goDir m "/out" (.obj [("name", .str "crudl"), ("server", .bool true), ("client", .bool true)]) == "/out/main") (by decide +kernel) (by decide +kernel)
  rw [Bool.and_eq_true, beq_iff_eq, beq_iff_eq] at h2
  exact ⟨m, h1, h2.1, ⟨fun _ => rfl, fun _ => rfl, fun _ _ => rfl, fun _ _ => rfl⟩, h2.2⟩

end Sadl.Props
