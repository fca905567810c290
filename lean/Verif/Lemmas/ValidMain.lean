import Verif.Lemmas.Valid
import Verif.Lemmas.ParserPost
/-
Acceptance by the parser's validation is validity of the schema.
-/
namespace Sadl
open Spec

variable {s : Schema} {C C' : TypeSpec → Value → Prop}

theorem Spec.FieldOk.mono {f : StructFieldDef} (h : FieldOk C s f) (hc : f.default ≠ .null → C f.ts f.default → C' f.ts f.default) :
    FieldOk C' s f := ⟨h.1, h.2, h.3, h.4, h.5, fun hd => hc hd (h.6 hd), h.7⟩

theorem Spec.TypeOk.mono {td : TypeDef} (h : TypeOk C s td)
    (hc : ∀ f ∈ td.ts.fields, C f.ts f.default → C' f.ts f.default) : TypeOk C' s td :=
  ⟨fun ht f hf => (h.1 ht f hf).mono (fun _ => hc f hf), h.2, h.3, h.4, h.5, h.6⟩

theorem Spec.ParamsOk.mono {ps : List HttpParamSpec} {v : Value} (h : ParamsOk C s ps v)
    (hc : ∀ kvs, v = .obj kvs → ∀ k x, (k, x) ∈ kvs → ∀ ts, C ts x → C' ts x) : ParamsOk C' s ps v := by
  obtain ⟨kvs, rfl, h1, h2⟩ := h
  refine ⟨kvs, rfl, fun k x hx p hp he => ?_, h2⟩
  obtain ⟨ts, h3, h4⟩ := h1 k x hx p hp he
  exact ⟨ts, h3, hc kvs rfl k x hx ts h4⟩

theorem Spec.ExampleOk.mono {ex : ExampleDef} (h : ExampleOk C s ex) (h0 : ∀ ts, C ts ex.example → C' ts ex.example)
    (hc : ∀ kvs, ex.example = .obj kvs → ∀ k x, (k, x) ∈ kvs → ∀ ts, C ts x → C' ts x) : ExampleOk C' s ex := by
  cases h with
  | type h1 h2 => exact .type h1 (h0 _ h2)
  | request h1 h2 h3 h4 h5 => exact .request h1 h2 h3 h4 (Spec.ParamsOk.mono h5 hc)
  | response h1 h2 h3 h4 h5 h6 => exact .response h1 h2 h3 h4 h5 (Spec.ParamsOk.mono h6 hc)

theorem Spec.Valid.mono (hr : RealValues s) (h : Valid C s) (hc : ∀ ts v, Real v → C ts v → C' ts v) : Valid C' s := by
  refine ⟨fun td htd => (h.1 td htd).mono (fun f hf => hc _ _ (hr.1 td htd f hf)), fun ex hex => ?_, h.3⟩
  refine (h.2 ex hex).mono (fun ts => hc ts _ (hr.2 ex hex)) ?_
  intro kvs he k x hx ts
  refine hc ts x ?_
  have hreal := hr.2 ex hex
  rw [he] at hreal
  cases hreal with
  | obj _ h2 => exact h2 k x hx
  | atom _ h2 => exact absurd rfl (h2 kvs)

/-- Finitely many values are validated: a common bound on the number of nested calls. -/
theorem Spec.Valid.bound {C : Nat → TypeSpec → Value → Prop} (hmono : ∀ n n' ts v, n ≤ n' → C n ts v → C n' ts v)
    (h : Valid (fun ts v => ∃ n, C n ts v) s) : ∃ n, Valid (C n) s := by
  have hT : ∀ td ∈ s.types, ∃ n, TypeOk (C n) s td := by
    intro td htd
    have ht := h.1 td htd
    by_cases hs : td.ts.type = "Struct"
    · obtain ⟨n, hn⟩ := common_bound td.ts.fields (fun f n => FieldOk (C n) s f)
        (fun f n n' hle hf => hf.mono (fun _ => hmono n n' _ _ hle))
        (by
          intro f hf
          have hfo := ht.struct hs f hf
          by_cases hd : f.default = .null
          · exact ⟨0, hfo.1, hfo.2, hfo.3, hfo.4, hfo.5, fun hd' => absurd hd hd', hfo.7⟩
          · obtain ⟨n, hn⟩ := hfo.6 hd
            exact ⟨n, hfo.1, hfo.2, hfo.3, hfo.4, hfo.5, fun _ => hn, hfo.7⟩)
      exact ⟨n, fun _ => hn, ht.2, ht.3, ht.4, ht.5, ht.6⟩
    · exact ⟨0, fun hs' => absurd hs' hs, ht.2, ht.3, ht.4, ht.5, ht.6⟩
  have hP : ∀ (ps : List HttpParamSpec) (v : Value), ParamsOk (fun ts v => ∃ n, C n ts v) s ps v →
      ∃ n, ParamsOk (C n) s ps v := by
    rintro ps v ⟨kvs, rfl, h1, h2⟩
    obtain ⟨n, hn⟩ := common_bound kvs
      (fun kv n => ∀ p ∈ ps, p.field.name = kv.1 → ∃ ts, Defines s p.field.ts.type ts ∧ C n ts kv.2)
      (fun kv n n' hle hkv p hp he => by
        obtain ⟨ts, h3, h4⟩ := hkv p hp he
        exact ⟨ts, h3, hmono n n' _ _ hle h4⟩)
      (by
        intro kv hkv
        exact common_bound ps (fun p n => p.field.name = kv.1 → ∃ ts, Defines s p.field.ts.type ts ∧ C n ts kv.2)
          (fun p n n' hle hp he => by
            obtain ⟨ts, h3, h4⟩ := hp he
            exact ⟨ts, h3, hmono n n' _ _ hle h4⟩)
          (by
            intro p hp
            by_cases he : p.field.name = kv.1
            · obtain ⟨ts, h3, n, h4⟩ := h1 kv.1 kv.2 hkv p hp he
              exact ⟨n, fun _ => ⟨ts, h3, h4⟩⟩
            · exact ⟨0, fun he' => absurd he' he⟩))
    exact ⟨n, kvs, rfl, fun k x hx p hp he => hn (k, x) hx p hp he, h2⟩
  have hE : ∀ ex ∈ s.examples, ∃ n, ExampleOk (C n) s ex := by
    intro ex hex
    cases h.2 ex hex with
    | type h1 h2 => obtain ⟨n, h2⟩ := h2; exact ⟨n, .type h1 h2⟩
    | request h1 h2 h3 h4 h5 => obtain ⟨n, h5⟩ := hP _ _ h5; exact ⟨n, .request h1 h2 h3 h4 h5⟩
    | response h1 h2 h3 h4 h5 h6 => obtain ⟨n, h6⟩ := hP _ _ h6; exact ⟨n, .response h1 h2 h3 h4 h5 h6⟩
  obtain ⟨n1, h1⟩ := common_bound s.types (fun td n => TypeOk (C n) s td)
    (fun td n n' hle ht => ht.mono (fun f _ => hmono n n' _ _ hle)) hT
  obtain ⟨n2, h2⟩ := common_bound s.examples (fun ex n => ExampleOk (C n) s ex)
    (fun ex n n' hle ht => ht.mono (fun ts => hmono n n' _ _ hle) (fun _ _ _ x _ ts => hmono n n' _ _ hle)) hE
  refine ⟨max n1 n2, ?_, ?_, h.3⟩
  · intro td htd
    exact (h1 td htd).mono (fun f _ => hmono _ _ _ _ (le_max_left _ _))
  · intro ex hex
    exact (h2 ex hex).mono (fun ts => hmono _ _ _ _ (le_max_right _ _)) (fun _ _ _ x _ ts => hmono _ _ _ _ (le_max_right _ _))

theorem accepted_iff_valid {lib : Lib} {m : Model} (hm : newModel s = .ok m) (hr : RealValues s) (hn : NamedParams s) :
    (∃ n, checkModel lib m n = rok) ↔ Valid (Conforms lib (Defines s)) s := by
  rw [← means_eq_defines hm]
  constructor
  · rintro ⟨n, h⟩
    exact ((checkModel_rok hm hn).1 h).mono hr (fun ts v hv => validateSpec_sound n ts v hv)
  · intro h
    have h' : Valid (fun ts v => ∃ n, validateSpec lib m n ts v = vok) s :=
      h.mono hr (fun ts v _ => validateSpec_complete)
    obtain ⟨n, hn'⟩ := h'.bound (C := fun n ts v => validateSpec lib m n ts v = vok)
      (fun n n' ts v hle => validateSpec_vok_mono hle)
    exact ⟨n, (checkModel_rok hm hn).2 hn'⟩

theorem parses_iff {lib : PLib} {incl : String → IncRes} {init : Schema} {toks : List Token} {m : Model} :
    Parses lib incl init toks m ↔ parseNoValidate lib incl init toks = some (.ok m) ∧ ∃ n, checkModel lib.toLib m n = rok := by
  unfold Parses parse
  cases hp : parseNoValidate lib incl init toks with
  | none => simp
  | some r =>
    cases r with
    | err e => simp
    | panic e => simp
    | ok m' =>
      simp only [Option.some.injEq, Out.ok.injEq]
      constructor
      · rintro ⟨n, h⟩
        cases hc : checkModel lib.toLib m' n with
        | none => rw [hc] at h; cases h
        | some r =>
          cases r with
          | err e => rw [hc] at h; cases h
          | panic e => rw [hc] at h; cases h
          | ok u =>
            rw [hc] at h
            simp only [Option.some.injEq, Out.ok.injEq] at h
            subst h
            exact ⟨rfl, n, hc⟩
      · rintro ⟨rfl, n, hc⟩
        refine ⟨n, ?_⟩
        rw [hc]
        rfl

end Sadl
