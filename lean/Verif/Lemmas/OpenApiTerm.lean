import Verif.Lemmas.OpenApiFits
import Mathlib.Data.Fintype.Card
import Mathlib.Data.Set.Finite.Basic
/-
The export to OpenAPI of schemas without cycles ends.
-/
namespace Sadl
open Sadl.Spec

/-- With enough steps the computation ends, always in the same way: with a value or an error. -/
def Settles {α : Type} (F : Nat → Ran α) : Prop :=
  ∃ N r, ((∃ a, r = .ok a) ∨ ∃ e, r = .err e) ∧ ∀ k, N ≤ k → F k = r

theorem settles_ok {α : Type} (a : α) : Settles (fun _ => Ran.ok a) := ⟨0, _, .inl ⟨a, rfl⟩, fun _ _ => rfl⟩
theorem settles_err {α : Type} (e : String) : Settles (fun _ => (Ran.err e : Ran α)) := ⟨0, _, .inr ⟨e, rfl⟩, fun _ _ => rfl⟩

theorem settles_bind {α β : Type} {F : Nat → Ran α} {G : α → Nat → Ran β} (h : Settles F)
    (hg : ∀ a k, F k = .ok a → Settles (G a)) : Settles (fun k => F k >>= fun a => G a k) := by
  obtain ⟨N, r, hr, h⟩ := h
  rcases hr with ⟨a, rfl⟩ | ⟨e, rfl⟩
  · obtain ⟨N', r', hr', h'⟩ := hg a N (h N (le_refl _))
    refine ⟨max N N', r', hr', fun k hk => ?_⟩
    simp only [h k (le_trans (le_max_left _ _) hk), Ran.bind_ok, h' k (le_trans (le_max_right _ _) hk)]
  · exact ⟨N, .err e, .inr ⟨e, rfl⟩, fun k hk => by simp only [h k hk, Ran.bind_err]⟩

theorem settles_succ {α : Type} {F : Nat → Ran α} (h : Settles (fun k => F (k + 1))) : Settles F := by
  obtain ⟨N, r, hr, h⟩ := h
  refine ⟨N + 1, r, hr, fun k hk => ?_⟩
  obtain ⟨j, rfl⟩ : ∃ j, k = j + 1 := ⟨k - 1, by omega⟩
  exact h j (by omega)

theorem settles_shift {α : Type} {F : Nat → Ran α} (h : Settles F) : Settles (fun k => F (k + 1)) := by
  obtain ⟨N, r, hr, h⟩ := h
  exact ⟨N, r, hr, fun k hk => h (k + 1) (by omega)⟩

theorem settles_congr {α : Type} {F G : Nat → Ran α} (h : Settles F) (e : ∀ k, G k = F k) : Settles G := by
  obtain ⟨N, r, hr, h⟩ := h
  exact ⟨N, r, hr, fun k hk => (e k).trans (h k hk)⟩

theorem settles_props {conv : Nat → TypeSpec → Ran OSchema} (fs : List StructFieldDef)
    (h : ∀ f ∈ fs, Settles (fun k => conv k f.ts)) (acc : GoMap OSchema) : Settles (fun k => oasProps (conv k) fs acc) := by
  induction fs generalizing acc with
  | nil => exact settles_ok acc
  | cons f rest ih =>
    exact settles_bind (h f (by simp)) fun s _ _ => ih (fun g hg => h g (by simp [hg])) _

theorem sizeOf_field {t : TypeSpec} {f : StructFieldDef} (h : f ∈ t.fields) : sizeOf f.ts < sizeOf t := by
  have h1 := List.sizeOf_lt_of_mem h
  have h2 : sizeOf t.fields < sizeOf t := by cases t; simp only [TypeSpec.mk.sizeOf_spec]; omega
  have h3 : sizeOf f.ts < sizeOf f := by cases f; simp only [StructFieldDef.mk.sizeOf_spec]; omega
  omega

theorem written_field {s : Schema} {t : TypeSpec} (hw : Written s t) (ht : t.type = "Struct") {f : StructFieldDef}
    (hf : f ∈ t.fields) : Written s f.ts := by
  rcases hw with ⟨td, h1, rfl⟩ | h
  · exact .inr (.field h1 ht hf)
  · exact .inr (.nested h ht hf)

theorem writtenIn_written {s : Schema} {t u : TypeSpec} (hw : Written s t) (h : WrittenIn t u) : Written s u := by
  induction h with
  | refl => exact hw
  | field h1 h2 _ ih => exact ih (written_field hw h1 h2)

theorem oasStep_indep (lib : OLib) (m : Model) (r1 r2 : TypeSpec → String → Ran OSchema) (t : TypeSpec) (nm : String)
    (h : t.type ≠ "Struct" ∧ t.type ≠ "Array" ∧ t.type ≠ "Map") :
    oasSchemaStep lib m r1 t nm = oasSchemaStep lib m r2 t nm := by
  unfold oasSchemaStep
  iterate 8 refine if_congr Iff.rfl rfl ?_
  exact (if_neg h.2.1).trans <| (if_neg h.2.2).trans <| (if_neg h.1).trans <|
    ((if_neg h.2.1).trans <| (if_neg h.2.2).trans (if_neg h.1)).symm

theorem settles_plain (lib : OLib) (m : Model) (t : TypeSpec) (nm : String)
    (h : t.type ≠ "Struct" ∧ t.type ≠ "Array" ∧ t.type ≠ "Map") (hnm : t.type = "Float64" → nm = "") :
    Settles (fun k => oasSchemaN k lib m t nm) := by
  have key : ∃ r, oasSchemaStep lib m (oasSchemaN 0 lib m) t nm = .ok r := by
    rcases oasStep_cases lib m (oasSchemaN 0 lib m) t nm with ⟨ht, e⟩ | ⟨ht, e⟩ | ⟨ht, e⟩ | ⟨ht, e⟩ | ⟨ht, e⟩ | ⟨ht, e⟩ |
      ⟨ht, e⟩ | ⟨ht, e⟩ | ⟨ht, hf, e⟩ | ⟨ht, itd', hf, e⟩ | ⟨ht, hf, e⟩ | ⟨ht, itd', hf, e⟩ | ⟨ht, hn', e⟩ | ⟨ht, hn', e⟩ | ⟨ht, ht', e⟩
    all_goals first | exact absurd ht h.1 | exact absurd ht h.2.1 | exact absurd ht h.2.2 | exact ⟨_, e⟩ | skip
    have hneg : ¬ (t.type = "Float64" ∧ nm ≠ "") := fun h => h.2 (hnm h.1)
    exact ⟨_, e.trans (if_neg hneg)⟩
  obtain ⟨r, hr⟩ := key
  exact settles_succ (settles_congr (settles_ok r) fun k => (oasStep_indep lib m _ _ t nm h).trans hr)

theorem settles_base (lib : OLib) (m : Model) (a : String) (h : a ∈ BaseTypes) (ha : a ∉ ["Array", "Map"]) (nm : String)
    (hnm : (baseTypeDef a).ts.type = "Float64" → nm = "") : Settles (fun k => oasSchemaN k lib m (baseTypeDef a).ts nm) := by
  by_cases hst : a = "Struct"
  · subst hst
    apply settles_succ
    by_cases hn : nm = ""
    · subst hn
      exact settles_ok _
    · refine settles_congr (settles_ok { ref := refPrefix ++ nm }) fun k => ?_
      show (if nm ≠ "" then _ else _) = _
      exact if_pos hn
  · refine settles_plain lib m _ nm ⟨hst, ?_, ?_⟩ hnm
    · intro h; apply ha; simp [show a = "Array" from h]
    · intro h; apply ha; simp [show a = "Map" from h]

section
variable {s : Schema} {m : Model} (hm : newModel s = .ok m) (hs : OasSafe s) (lib : OLib)
include hm hs

theorem defines_unique' {n : String} {t u : TypeSpec} (h1 : Defines s n t) (h2 : Defines s n u) : t = u := by
  obtain ⟨hn, hb, _⟩ := (newModel_ok_iff s m).1 hm
  rcases h1 with ⟨a, h1, h3, rfl⟩ | ⟨h1, rfl⟩ <;> rcases h2 with ⟨b, h2, h4, rfl⟩ | ⟨h2, rfl⟩
  · have := List.inj_on_of_nodup_map hn h1 h2 (h3.trans h4.symm)
    rw [this]
  · exact absurd (h3 ▸ h2) (hb a h1)
  · exact absurd (h4 ▸ h1) (hb b h2)
  · rfl

theorem defines_find {n : String} {t : TypeSpec} (h : Defines s n t) : ∃ td, m.findType n = some td ∧ td.ts = t := by
  rcases h with ⟨td, h1, h2, rfl⟩ | ⟨h1, rfl⟩
  · exact ⟨td, (newModel_findType_iff hm n td).2 (.inl ⟨h1, h2⟩), rfl⟩
  · exact ⟨baseTypeDef n, (newModel_findType_iff hm n _).2 (.inr ⟨h1, rfl⟩), rfl⟩

/-- A type can be written out if the types it expands to can. -/
theorem settles_written (c : Nat) (t : TypeSpec) (hc : sizeOf t ≤ c) (hw : Written s t)
    (hx : ∀ u tb, WrittenIn t u → Defines s u.items tb → (u.type = "Map" ∨ (u.type = "Array" ∧ tb.type ≠ "Struct")) →
      ∀ nm, (tb.type = "Float64" → nm = "") → Settles (fun k => oasSchemaN k lib m tb nm))
    (nm : String) (hnm : t.type = "Float64" → nm = "") : Settles (fun k => oasSchemaN k lib m t nm) := by
  induction c generalizing t nm with
  | zero => cases t; simp at hc
  | succ c ih =>
    apply settles_succ
    by_cases hstr : t.type = "Struct"
    · by_cases hn : nm = ""
      · have e : ∀ k, oasSchemaN (k + 1) lib m t nm =
            (oasProps (fun ts => oasSchemaN k lib m ts "") t.fields [] >>= fun ps =>
              pure { type := "object", properties := some ps }) := by
          intro k
          rw [oasSchemaN_succ]
          rcases oasStep_cases lib m (oasSchemaN k lib m) t nm with ⟨ht, e⟩ | ⟨ht, e⟩ | ⟨ht, e⟩ | ⟨ht, e⟩ | ⟨ht, e⟩ | ⟨ht, e⟩ |
            ⟨ht, e⟩ | ⟨ht, e⟩ | ⟨ht, hf, e⟩ | ⟨ht, itd, hf, e⟩ | ⟨ht, hf, e⟩ | ⟨ht, itd, hf, e⟩ | ⟨ht, hn', e⟩ | ⟨ht, hn', e⟩ | ⟨ht, ht', e⟩
          all_goals first | exact e | (rw [hstr] at ht; exact absurd ht (by decide)) | exact absurd hn hn' |
            (rw [hstr] at ht'; exact absurd ht' (by decide))
        refine settles_congr (settles_bind (settles_props t.fields (fun f hf => ?_) []) (fun ps _ _ => settles_ok _)) e
        refine ih f.ts ?_ (written_field hw hstr hf) ?_ "" (fun _ => rfl)
        · have := sizeOf_field hf; omega
        · intro u tb hu
          exact hx u tb (.field hstr hf hu)
      · have e : ∀ k, oasSchemaN (k + 1) lib m t nm = .ok { ref := refPrefix ++ nm } := by
          intro k
          rw [oasSchemaN_succ]
          rcases oasStep_cases lib m (oasSchemaN k lib m) t nm with ⟨ht, e⟩ | ⟨ht, e⟩ | ⟨ht, e⟩ | ⟨ht, e⟩ | ⟨ht, e⟩ | ⟨ht, e⟩ |
            ⟨ht, e⟩ | ⟨ht, e⟩ | ⟨ht, hf, e⟩ | ⟨ht, itd, hf, e⟩ | ⟨ht, hf, e⟩ | ⟨ht, itd, hf, e⟩ | ⟨ht, hn', e⟩ | ⟨ht, hn', e⟩ | ⟨ht, ht', e⟩
          all_goals first | exact e | (rw [hstr] at ht; exact absurd ht (by decide)) | exact absurd hn' hn |
            (rw [hstr] at ht'; exact absurd ht' (by decide))
        exact settles_congr (settles_ok _) e
    · by_cases harr : t.type = "Array"
      · obtain ⟨h1, u, h2, h3⟩ := hs.arrays t hw harr
        obtain ⟨itd, h4, h5⟩ := defines_find hm hs h2
        have e : ∀ k, oasSchemaN (k + 1) lib m t nm =
            (oasSchemaN k lib m itd.ts t.items >>= fun s => pure { type := "array", items := some s }) := by
          intro k
          rw [oasSchemaN_succ]
          rcases oasStep_cases lib m (oasSchemaN k lib m) t nm with ⟨ht, e⟩ | ⟨ht, e⟩ | ⟨ht, e⟩ | ⟨ht, e⟩ | ⟨ht, e⟩ | ⟨ht, e⟩ |
            ⟨ht, e⟩ | ⟨ht, e⟩ | ⟨ht, hf, e⟩ | ⟨ht, itd', hf, e⟩ | ⟨ht, hf, e⟩ | ⟨ht, itd', hf, e⟩ | ⟨ht, hn', e⟩ | ⟨ht, hn', e⟩ | ⟨ht, ht', e⟩
          all_goals first | (rw [h4] at hf; cases hf; exact e) | (rw [harr] at ht; exact absurd ht (by decide)) |
            (rw [harr] at ht'; exact absurd ht' (by decide)) | (rw [h4] at hf; cases hf)
        refine settles_congr (settles_bind ?_ (fun _ _ _ => settles_ok _)) e
        rw [h5]
        by_cases hu : u.type = "Struct"
        · have hne : t.items ≠ "" := by simp at h1; exact h1.1
          apply settles_succ
          have e2 : ∀ k, oasSchemaN (k + 1) lib m u t.items = .ok { ref := refPrefix ++ t.items } := by
            intro k
            rw [oasSchemaN_succ]
            rcases oasStep_cases lib m (oasSchemaN k lib m) u t.items with ⟨ht, e⟩ | ⟨ht, e⟩ | ⟨ht, e⟩ | ⟨ht, e⟩ | ⟨ht, e⟩ | ⟨ht, e⟩ |
              ⟨ht, e⟩ | ⟨ht, e⟩ | ⟨ht, hf, e⟩ | ⟨ht, itd, hf, e⟩ | ⟨ht, hf, e⟩ | ⟨ht, itd, hf, e⟩ | ⟨ht, hn', e⟩ | ⟨ht, hn', e⟩ | ⟨ht, ht', e⟩
            all_goals first | exact e | (rw [hu] at ht; exact absurd ht (by decide)) | exact absurd hn' hne |
              (rw [hu] at ht'; exact absurd ht' (by decide))
          exact settles_congr (settles_ok _) e2
        · exact hx t u .refl h2 (.inr ⟨harr, hu⟩) t.items (fun h => absurd h h3)
      · by_cases hmap : t.type = "Map"
        · obtain ⟨h1, u, h2⟩ := hs.maps t hw hmap
          obtain ⟨itd, h4, h5⟩ := defines_find hm hs h2
          have e : ∀ k, oasSchemaN (k + 1) lib m t nm =
              (oasSchemaN k lib m itd.ts "" >>= fun s => pure { type := "object", additionalProperties := some s }) := by
            intro k
            rw [oasSchemaN_succ]
            rcases oasStep_cases lib m (oasSchemaN k lib m) t nm with ⟨ht, e⟩ | ⟨ht, e⟩ | ⟨ht, e⟩ | ⟨ht, e⟩ | ⟨ht, e⟩ | ⟨ht, e⟩ |
              ⟨ht, e⟩ | ⟨ht, e⟩ | ⟨ht, hf, e⟩ | ⟨ht, itd', hf, e⟩ | ⟨ht, hf, e⟩ | ⟨ht, itd', hf, e⟩ | ⟨ht, hn', e⟩ | ⟨ht, hn', e⟩ | ⟨ht, ht', e⟩
            all_goals first | (rw [hmap] at ht; exact absurd ht (by decide)) | (rw [h4] at hf; cases hf; exact e) |
              (rw [hmap] at ht'; exact absurd ht' (by decide)) | (rw [h4] at hf; cases hf)
          refine settles_congr (settles_bind ?_ (fun _ _ _ => settles_ok _)) e
          rw [h5]
          exact hx t u .refl h2 (.inl hmap) "" (fun _ => rfl)
        · exact settles_shift (settles_plain lib m t nm ⟨hstr, harr, hmap⟩ hnm)

/-- Every defined type can be written out. -/
theorem settles_defined (a : String) (ha : a ∉ ["Array", "Map"]) (t : TypeSpec) (hd : Defines s a t) (nm : String)
    (hnm : t.type = "Float64" → nm = "") : Settles (fun k => oasSchemaN k lib m t nm) := by
  let L : List String := s.types.map (·.name) ++ BaseTypes
  have hL : ∀ {n t}, Defines s n t → n ∈ L := by
    rintro n t (⟨td, h1, h2, _⟩ | ⟨h1, _⟩)
    · exact List.mem_append_left _ (h2 ▸ List.mem_map_of_mem h1)
    · exact List.mem_append_right _ h1
  let K := {n : String // n ∈ L}
  haveI : Finite K := (List.finite_toSet L).to_subtype
  let r : K → K → Prop := fun b a => Relation.TransGen (Expands s) a.1 b.1
  haveI : IsTrans K r := ⟨fun _ _ _ h1 h2 => h2.trans h1⟩
  haveI : Std.Irrefl r := ⟨fun a h => hs.acyclic a.1 h⟩
  have wf : WellFounded r := Finite.wellFounded_of_trans_of_irrefl r
  have main : ∀ a : K, a.1 ∉ ["Array", "Map"] → ∀ t, Defines s a.1 t → ∀ nm, (t.type = "Float64" → nm = "") →
      Settles (fun k => oasSchemaN k lib m t nm) := by
    intro a
    induction a using wf.induction with
    | _ a ih =>
      intro ha t hd nm hnm
      rcases id hd with ⟨td, h1, h2, rfl⟩ | ⟨h1, rfl⟩
      · refine settles_written hm hs lib _ _ (le_refl _) (.inl ⟨td, h1, rfl⟩) ?_ nm hnm
        intro u tb hu hb hk nm' hnm'
        have hw := writtenIn_written (.inl ⟨td, h1, rfl⟩) hu
        have hni : u.items ∉ ["Array", "Map"] := by
          rcases hk with h | ⟨h, _⟩
          · exact (hs.maps u hw h).1
          · intro hc; exact (hs.arrays u hw h).1 (List.mem_cons_of_mem _ hc)
        exact ih ⟨u.items, hL hb⟩ (.single ⟨td.ts, u, tb, hd, hu, rfl, hb, hk⟩) hni tb hb nm' hnm'
      · exact settles_base lib m _ h1 ha nm hnm
  exact main ⟨a, hL hd⟩ ha t hd nm hnm

/-- Types written in place can be written out. -/
theorem settles_inline (t : TypeSpec) (hw : Written s t) (nm : String) (hnm : t.type = "Float64" → nm = "") :
    Settles (fun k => oasSchemaN k lib m t nm) := by
  refine settles_written hm hs lib _ _ (le_refl _) hw ?_ nm hnm
  intro u tb hu hb hk nm' hnm'
  have hw' := writtenIn_written hw hu
  have hni : u.items ∉ ["Array", "Map"] := by
    rcases hk with h | ⟨h, _⟩
    · exact (hs.maps u hw' h).1
    · intro hc; exact (hs.arrays u hw' h).1 (List.mem_cons_of_mem _ hc)
  exact settles_defined hm hs lib u.items hni tb hb nm' hnm'

theorem settles_exportTypeDef (td : TypeDef) (htd : td ∈ s.types) : Settles (fun k => exportTypeDefN k lib m td) := by
  have hw : Written s td.ts := .inl ⟨td, htd, rfl⟩
  have str : td.ts.type ≠ "Float64" → Settles (fun k => exportString (oasSchemaN k lib m) td) := fun hne =>
    settles_bind (settles_inline hm hs lib td.ts hw td.name (fun h => absurd h hne)) fun a _ _ => settles_ok _
  unfold exportTypeDefN
  by_cases h1 : td.ts.type = "Struct"
  · refine settles_congr ?_ fun k => if_pos h1
    exact settles_bind (settles_props _ (fun f hf => settles_inline hm hs lib f.ts (written_field hw h1 hf) "" (fun _ => rfl)) [])
      fun ps _ _ => settles_ok _
  by_cases h2 : td.ts.type = "Array"
  · refine settles_congr ?_ fun k => (if_neg h1).trans (if_pos h2)
    obtain ⟨k1, u, k2, k3⟩ := hs.arrays td.ts hw h2
    obtain ⟨itd, k4, k5⟩ := defines_find hm hs k2
    simp only [exportArray, k4, k5]
    refine settles_bind (settles_defined hm hs lib td.ts.items ?_ u k2 _ (fun h => absurd h k3)) fun _ _ _ => settles_ok _
    intro hc; exact k1 (List.mem_cons_of_mem _ hc)
  by_cases h3 : td.ts.type = "Map"
  · refine settles_congr ?_ fun k => (if_neg h1).trans <| (if_neg h2).trans (if_pos h3)
    obtain ⟨k1, u, k2⟩ := hs.maps td.ts hw h3
    obtain ⟨itd, k4, k5⟩ := defines_find hm hs k2
    simp only [exportMap, k4, k5]
    exact settles_bind (settles_defined hm hs lib td.ts.items k1 u k2 _ (fun _ => rfl)) fun _ _ _ => settles_ok _
  by_cases h4 : td.ts.type = "String"
  · refine settles_congr ?_ fun k => (if_neg h1).trans <| (if_neg h2).trans <| (if_neg h3).trans (if_pos h4)
    exact str (by rw [h4]; decide)
  simp only [if_neg h1, if_neg h2, if_neg h3, if_neg h4]
  split
  · exact settles_ok _
  split
  · exact settles_ok _
  split
  · exact settles_ok _
  split
  · rename_i h
    exact settles_bind (str (by rw [h]; decide)) fun _ _ _ => settles_ok _
  split
  · exact settles_ok _
  split
  · rename_i h
    exact settles_bind (str (by rw [h]; decide)) fun _ _ _ => settles_ok _
  exact settles_err _

theorem settles_exportTypes (l : List TypeDef) (hl : ∀ td ∈ l, td ∈ s.types) (acc : GoMap OSchema) :
    Settles (fun k => exportTypesN k lib m l acc) := by
  induction l generalizing acc with
  | nil => exact settles_ok acc
  | cons td rest ih =>
    exact settles_bind (settles_exportTypeDef hm hs lib td (hl td (by simp))) fun a _ _ => ih (fun x hx => hl x (by simp [hx])) _

theorem settles_exportInputs (l : List HttpParamSpec) (hl : ∀ p ∈ l, Inline s p.field.ts) (op : OOperation) :
    Settles (fun k => exportInputs (oasSchemaN k lib m) l op) := by
  induction l generalizing op with
  | nil => exact settles_ok op
  | cons p rest ih =>
    exact settles_bind (settles_inline hm hs lib p.field.ts (.inr (hl p (by simp))) "" (fun _ => rfl))
      fun a _ _ => ih (fun x hx => hl x (by simp [hx])) _

theorem settles_exportOutputs (l : List HttpParamSpec) (hl : ∀ p ∈ l, Inline s p.field.ts) (r : OResponse) :
    Settles (fun k => exportOutputs (oasSchemaN k lib m) l r) := by
  induction l generalizing r with
  | nil => exact settles_ok r
  | cons p rest ih =>
    exact settles_bind (settles_inline hm hs lib p.field.ts (.inr (hl p (by simp))) "" (fun _ => rfl))
      fun a _ _ => ih (fun x hx => hl x (by simp [hx])) _

theorem settles_exportOp (h : HttpDef) (hh : h ∈ s.http) : Settles (fun k => exportOp (oasSchemaN k lib m) h) := by
  refine settles_bind (settles_exportInputs hm hs lib h.inputs (fun p hp => .input hh hp) _) fun op _ _ => ?_
  cases he : h.expected with
  | none => exact absurd he (hs.expected h hh)
  | some e =>
    exact settles_bind (settles_exportOutputs hm hs lib e.outputs (fun p hp => .output hh he hp) _) fun _ _ _ => settles_ok _

theorem settles_exportHttp (l : List HttpDef) (hl : ∀ h ∈ l, h ∈ s.http) (paths : GoMap OPathItem) :
    Settles (fun k => exportHttpN k lib m l paths) := by
  induction l generalizing paths with
  | nil => exact settles_ok paths
  | cons h rest ih =>
    have hr : ∀ x ∈ rest, x ∈ s.http := fun x hx => hl x (by simp [hx])
    unfold exportHttpN
    cases ho : oasMethod h.method with
    | none => exact settles_bind (settles_exportOp hm hs lib h (hl h (by simp))) fun _ _ _ => ih hr _
    | some k =>
      dsimp only
      split
      · exact settles_err _
      · exact settles_bind (settles_exportOp hm hs lib h (hl h (by simp))) fun _ _ _ => ih hr _

/-- The export ends. -/
theorem settles_exportOas (hord : ∀ l, (lib.order l).Perm l) : Settles (fun k => exportOasN k lib m) := by
  have hsch : m.schema = s := by obtain ⟨_, _, _, rfl⟩ := (newModel_ok_iff s m).1 hm; rfl
  refine settles_bind (settles_exportTypes hm hs lib _ (fun td h => hsch ▸ h) []) fun schemas k hk => ?_
  refine settles_bind (settles_exportHttp hm hs lib _ (fun td h => hsch ▸ h) []) fun paths k' hk' => ?_
  have hp := exportHttp_for hk'
  rw [hsch] at hp
  obtain ⟨d, hd⟩ := examples_written (d := { exportHead m.schema with schemas := schemas, paths := paths }) hm hord
    ⟨hp, fun n => by
      rw [Ne, mget_none_iff, not_not]
      simp only
      rw [(exportTypes_ok hk).1 n, hsch]
      simp [Named]⟩ m.schema.examples (fun ex h => hs.examples ex (hsch ▸ h))
  rw [hd]
  exact settles_ok d
end

end Sadl
