import Verif.Spec.Command
import Verif.Props.Helpers
import Verif.Lemmas.Text
/-
C70: settings.
-/
namespace Sadl.Props
open Sadl.Spec

theorem splitAll_clear {w : List Char} (h : '=' ∉ w) : splitAll '=' w = [w] := by
  induction w with
  | nil => rfl
  | cons c r ih =>
    simp only [List.mem_cons, not_or] at h
    rw [splitAll, if_neg (fun e => h.1 e.symm), ih h.2]

theorem splitAll_two {a b : List Char} (ha : '=' ∉ a) : splitAll '=' (a ++ '=' :: b) = a :: splitAll '=' b := by
  induction a with
  | nil => simp [splitAll]
  | cons c r ih =>
    simp only [List.mem_cons, not_or] at ha
    rw [List.cons_append, splitAll, if_neg (fun e => ha.1 e.symm), ih ha.2]

theorem optionOf_clear (o : Opt) (h : o.Clear) : optionOf o.text = (o.key, o.value) := by
  cases o with
  | flag k =>
    simp only [Opt.Clear] at h
    simp only [optionOf, Opt.text, splitAll_clear h, Opt.key, Opt.value]
  | pair k v =>
    simp only [Opt.Clear] at h
    have e : (k ++ "=" ++ v).toList = k.toList ++ '=' :: v.toList := by simp [String.toList_append]
    simp only [optionOf, Opt.text, e, splitAll_two h.1, splitAll_clear h.2, Opt.key, Opt.value, String.ofList_toList]

/-- The settings after some options. -/
theorem settings_fold (opts : List Opt) (hc : ∀ o ∈ opts, o.Clear) (m : GoMap Value) :
    ∃ m', (opts.map Opt.text).foldl (fun d kv => dataPut d (optionOf kv).1 (optionOf kv).2) (.obj m) = .obj m' ∧
      ∀ k, mget m' k = match opts.reverse.find? (fun o => o.key = k) with
        | some o => some o.value
        | none => mget m k := by
  induction opts generalizing m with
  | nil => exact ⟨m, rfl, fun k => rfl⟩
  | cons o r ih =>
    obtain ⟨m', h1, h2⟩ := ih (fun o ho => hc o (List.mem_cons_of_mem _ ho)) (mset m o.key o.value)
    refine ⟨m', ?_, fun k => ?_⟩
    · rw [List.map_cons, List.foldl_cons, optionOf_clear o (hc o (by simp))]
      exact h1
    · rw [h2 k, List.reverse_cons, List.find?_append]
      cases r.reverse.find? (fun o => o.key = k) with
      | some o' => rfl
      | none =>
        simp only [Option.none_or, List.find?_cons, List.find?_nil]
        by_cases hk : o.key = k
        · simp [hk, mget_mset_same]
        · simp only [hk, decide_false]
          exact mget_mset_other _ _ _ _ (fun e => hk e.symm)

theorem setting_iff (config : GoMap Value) (force : Bool) (opts : List Opt) (k : String) (v : Value) :
    (match opts.reverse.find? (fun o => o.key = k) with
      | some o => some o.value
      | none => mget (mset config "force-overwrite" (.bool force)) k) = some v ↔ Setting config force opts k v := by
  cases hf : opts.reverse.find? (fun o => decide (o.key = k)) with
  | some o =>
    rw [List.find?_eq_some_iff_append] at hf
    obtain ⟨hk, as, bs, hab, has⟩ := hf
    simp only [decide_eq_true_eq] at hk
    have hopts : opts = bs.reverse ++ o :: as.reverse := by
      have := congrArg List.reverse hab
      simpa using this
    have hafter : ∀ o' ∈ as.reverse, o'.key ≠ k := by
      intro o' ho'
      have := has o' (List.mem_reverse.1 ho')
      simpa using this
    simp only [Option.some.injEq]
    constructor
    · rintro rfl
      exact Or.inl ⟨_, o, _, hopts, hk, hafter, rfl⟩
    · rintro (⟨b, o2, a, h1, h2, h3, rfl⟩ | ⟨h1, _⟩)
      · have key : ∀ (b1 b2 : List Opt) (x y : Opt) (a1 a2 : List Opt), b1 ++ x :: a1 = b2 ++ y :: a2 →
            x.key = k → y.key = k → (∀ z ∈ a1, z.key ≠ k) → (∀ z ∈ a2, z.key ≠ k) → x = y := by
          intro b1
          induction b1 with
          | nil =>
            intro b2 x y a1 a2 e hx hy ha1 _
            cases b2 with
            | nil => simp at e; exact e.1
            | cons z b2 =>
              simp at e
              exact absurd hy (ha1 y (by rw [e.2]; simp))
          | cons z b1 ih =>
            intro b2 x y a1 a2 e hx hy ha1 ha2
            cases b2 with
            | nil =>
              simp at e
              exact absurd hx (ha2 x (by rw [← e.2]; simp))
            | cons w b2 =>
              simp at e
              exact ih b2 x y a1 a2 e.2 hx hy ha1 ha2
        rw [key _ _ _ _ _ _ (hopts.symm.trans h1) hk h2 hafter h3]
      · exact absurd hk (h1 o (by rw [hopts]; simp))
  | none =>
    rw [List.find?_eq_none] at hf
    have hno : ∀ o ∈ opts, o.key ≠ k := by
      intro o ho
      have := hf o (List.mem_reverse.2 ho)
      simpa using this
    constructor
    · intro h
      refine Or.inr ⟨hno, ?_⟩
      by_cases hk : k = "force-overwrite"
      · subst hk
        simp only [mget_mset_same, Option.some.injEq] at h
        exact Or.inl ⟨rfl, h.symm⟩
      · rw [mget_mset_other _ _ _ _ hk] at h
        exact Or.inr ⟨hk, h⟩
    · rintro (⟨b, o2, a, h1, h2, -⟩ | ⟨-, ⟨rfl, rfl⟩ | ⟨hk, h⟩⟩)
      · exact absurd h2 (hno o2 (by rw [h1]; simp))
      · simp [mget_mset_same]
      · rw [mget_mset_other _ _ _ _ hk]; exact h

/-- C70: the settings a generator is given are those of the configuration file for that
generator, overridden by the flag `-f` and then by the options `-x`, the last one winning,
provided the section of the file is an object or missing and no option holds a second `=`. -/
theorem C70_settings_partial (conf : Value) (gen : String) (force : Bool) (opts : List Opt) (config : GoMap Value)
    (hsec : dataGet conf [if gen = "java-server" then "java" else gen] = .obj config ∨
      (dataGet conf [if gen = "java-server" then "java" else gen] = .null ∧ config = []))
    (hc : ∀ o ∈ opts, o.Clear) :
    ∃ m, generatorConf conf { gen := gen, force := force, options := opts.map Opt.text } = .obj m ∧
      ∀ k v, mget m k = some v ↔ Setting config force opts k v := by
  obtain ⟨m', h1, h2⟩ := settings_fold opts hc (mset config "force-overwrite" (.bool force))
  refine ⟨m', ?_, fun k v => ?_⟩
  · rw [← h1]
    unfold generatorConf sectionName
    rcases hsec with h | ⟨h, rfl⟩
    · simp only [h, dataPut, asMap]
    · simp only [h, dataPut, asMap]
  · rw [h2 k]
    exact setting_iff config force opts k v

/-- C70: a generator that looks a setting up sees its value, and the default if it is not set
or null.  A text is true as a boolean unless it is `false`; a text is 0 as a number. -/
theorem C70_lookup (m : GoMap Value) (k : String) (wild : Int) :
    (∀ d : String, configString (.obj m) k d = match mget m k with
      | none | some .null => d
      | some v => asString v) ∧
    (∀ d : Bool, configBool (.obj m) k d = match mget m k with
      | none | some .null => d
      | some v => asBool v) ∧
    (∀ d : Int, configInt wild (.obj m) k d = match mget m k with
      | none | some .null => d
      | some v => asInt wild v) := by
  refine ⟨fun d => ?_, fun d => ?_, fun d => ?_⟩
  · unfold configString dataGetString dataHas dataGet
    cases h : mget m k with
    | none => simp [asMap, h]
    | some v => cases v <;> simp [asMap, h]
  · unfold configBool dataGetBool dataHas dataGet
    cases h : mget m k with
    | none => simp [asMap, h]
    | some v => cases v <;> simp [asMap, h]
  · unfold configInt dataGetInt dataHas dataGet
    cases h : mget m k with
    | none => simp [asMap, h]
    | some v => cases v <;> simp [asMap, h]

/-- C70: the generators named `…-server` and `…-client` are the generator of the language with
the setting `server` or `client` on, whatever the settings say. -/
theorem C70_server_and_client (conf : Value) (f : Flags) (m : GoMap Value) (h : generatorConf conf f = .obj m) :
    (f.gen = "go-server" → ∃ m', runExport conf f = some (.go, .obj m') ∧ configBool (.obj m') "server" false = true ∧
      ∀ k, k ≠ "server" → mget m' k = mget m k) ∧
    (f.gen = "go-client" → ∃ m', runExport conf f = some (.go, .obj m') ∧ configBool (.obj m') "client" false = true ∧
      ∀ k, k ≠ "client" → mget m' k = mget m k) ∧
    (f.gen = "java-server" → ∃ m', runExport conf f = some (.java, .obj m') ∧ configBool (.obj m') "server" false = true ∧
      ∀ k, k ≠ "server" → mget m' k = mget m k) ∧
    (f.gen = "java-client" → ∃ m', runExport conf f = some (.java, .obj m') ∧ configBool (.obj m') "client" false = true ∧
      ∀ k, k ≠ "client" → mget m' k = mget m k) := by
  have hb : ∀ k, configBool (.obj (mset m k (.bool true))) k false = true := by
    intro k
    rw [(C70_lookup _ k 0).2.1]
    simp [mget_mset_same, asBool]
  refine ⟨?_, ?_, ?_, ?_⟩ <;> intro hg <;>
    · unfold runExport
      rw [hg, h]
      exact ⟨_, rfl, hb _, fun k hk => mget_mset_other _ _ _ _ hk⟩

/-- C70: the settings of an import are the flags that are not empty. -/
theorem C70_import_settings (f : ImportFlags) (k : String) :
    dataGet (importConf f) [k] =
      if k = "namespace" ∧ f.ns ≠ "" then .str f.ns
      else if k = "service" ∧ f.service ≠ "" then .str f.service
      else if k = "name" ∧ f.name ≠ "" then .str f.name
      else if k = "type" ∧ f.formatType ≠ "" then .str f.formatType
      else if k = "base" ∧ f.base ≠ "" then .str f.base
      else .null := by
  have hput : ∀ (d : Value) (k v : String), (d = .null ∨ ∃ m, d = .obj m) →
      ((putNonEmpty d k v = .null ∨ ∃ m, putNonEmpty d k v = .obj m) ∧
      ∀ k', dataGet (putNonEmpty d k v) [k'] = if k' = k ∧ v ≠ "" then .str v else dataGet d [k']) := by
    intro d k v hd
    unfold putNonEmpty
    by_cases hv : v = ""
    · simp [hv, hd]
    · rw [if_pos hv]
      refine ⟨Or.inr ?_, fun k' => ?_⟩
      · rcases hd with rfl | ⟨m, rfl⟩ <;> exact ⟨_, rfl⟩
      · by_cases hk : k' = k
        · subst hk
          rw [if_pos ⟨rfl, hv⟩, C38_get_put d hd]
        · rw [if_neg (fun h => hk h.1), C38_put_other d hd _ _ _ hk]
  obtain ⟨a1, b1⟩ := hput .null "namespace" f.ns (Or.inl rfl)
  obtain ⟨a2, b2⟩ := hput _ "service" f.service a1
  obtain ⟨a3, b3⟩ := hput _ "name" f.name a2
  obtain ⟨a4, b4⟩ := hput _ "type" f.formatType a3
  obtain ⟨a5, b5⟩ := hput _ "base" f.base a4
  unfold importConf
  rw [b5, b4, b3, b2, b1]
  have h0 : dataGet .null [k] = .null := rfl
  rw [h0]
  by_cases k1 : k = "namespace"
  · subst k1; simp
  by_cases k2 : k = "service"
  · subst k2; simp
  by_cases k3 : k = "name"
  · subst k3; simp
  by_cases k4 : k = "type"
  · subst k4; simp
  by_cases k5 : k = "base"
  · subst k5; simp
  simp [k1, k2, k3, k4, k5]

/-- C70 refuted: a value that holds a `=` is cut. -/
theorem C70_refuted_equals : generatorConf .null { options := ["header=a=b"] } =
    .obj [("force-overwrite", .bool false), ("header", .str "a")] := by rfl

/-- C70 refuted: the settings for `go` in the configuration file do not reach `go-server`,
although those for `java` reach `java-server`. -/
theorem C70_refuted_section :
    generatorConf (.obj [("go", .obj [("header", .str "x")])]) { gen := "go-server" } = .obj [("force-overwrite", .bool false)] ∧
    generatorConf (.obj [("java", .obj [("header", .str "x")])]) { gen := "java-server" } =
      .obj [("header", .str "x"), ("force-overwrite", .bool false)] := ⟨rfl, rfl⟩

/-- C70 refuted: if the section is not an object, the flag `-f` and all options are dropped. -/
theorem C70_refuted_not_an_object (opts : List String) :
    generatorConf (.obj [("go", .str "x")]) { gen := "go", force := true, options := opts } = .str "x" := by
  unfold generatorConf sectionName
  have : ∀ l : List String, l.foldl (fun d kv => dataPut d (optionOf kv).1 (optionOf kv).2) (.str "x") = .str "x" := by
    intro l
    induction l with
    | nil => rfl
    | cons a r ih => exact ih
  exact this opts

example : (∀ o ∈ [Opt.flag "server", .pair "header" "x", .pair "header" "y"], o.Clear) ∧
    generatorConf (.obj [("go", .obj [("header", .str "z"), ("lines", .int 3)])])
      { gen := "go", options := [Opt.flag "server", .pair "header" "x", .pair "header" "y"].map Opt.text } =
    .obj [("header", .str "y"), ("lines", .int 3), ("force-overwrite", .bool false), ("server", .bool true)] := by
  refine ⟨?_, by rfl⟩
  intro o ho
  simp only [List.mem_cons, List.not_mem_nil, or_false] at ho
  rcases ho with rfl | rfl | rfl <;> simp [Opt.Clear]

end Sadl.Props
