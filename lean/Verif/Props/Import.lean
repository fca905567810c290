import Verif.Model.Import
import Verif.Lemmas.Basic
/-
C51: choosing one importer for a list of files.
-/
namespace Sadl
open Import
variable {M : Type} (w : World M)

/-- The file `p` is of the format `t`: the first one, among those of its extension, that
recognises the file. -/
def IsKind (p t : String) : Prop :=
  ∃ before after, mget importFileExtensions (ext p) = some (before ++ t :: after) ∧ w.valid t p = true ∧
    ∀ t' ∈ before, w.valid t' p = false

/-- No format of its extension recognises the file `p`. -/
def Unrecognised (p : String) : Prop := ∀ t, ¬ IsKind w p t

theorem firstValid_spec (p : String) (l : List String) :
    (firstValid w p l = "" ∧ ∀ t ∈ l, w.valid t p = false) ∨
    ∃ before after, l = before ++ firstValid w p l :: after ∧ w.valid (firstValid w p l) p = true ∧
      ∀ t' ∈ before, w.valid t' p = false := by
  induction l with
  | nil => exact .inl ⟨rfl, by simp⟩
  | cons t r ih =>
    unfold firstValid
    by_cases h : w.valid t p = true
    · rw [if_pos h]
      exact .inr ⟨[], r, rfl, h, by simp⟩
    · rw [if_neg h]
      rcases ih with ⟨h1, h2⟩ | ⟨b, a, h1, h2, h3⟩
      · exact .inl ⟨h1, by simpa [h] using h2⟩
      · exact .inr ⟨t :: b, a, by rw [List.cons_append, ← h1], h2, by simpa [h] using h3⟩

theorem first_unique {p t : String} {b1 a1 : List String} (hv : w.valid t p = true) (hb : ∀ x ∈ b1, w.valid x p = false) :
    firstValid w p (b1 ++ t :: a1) = t := by
  induction b1 with
  | nil => simp [firstValid, hv]
  | cons x r ih =>
    simp only [List.cons_append, firstValid, hb x (by simp)]
    exact ih fun y hy => hb y (by simp [hy])

theorem extTable_nonempty : ∀ (k : String) (l : List String), mget importFileExtensions k = some l → "" ∉ l := by
  intro k l h
  have := mget_mem h
  have key : ∀ e ∈ importFileExtensions, "" ∉ e.2 := by decide
  exact key _ this

/-- The type found by `validImportFileType` is the kind of the file. -/
theorem validType_kind (p t : String) (h : validImportFileType w p = .ok t) (ht : t ≠ "") : IsKind w p t := by
  unfold validImportFileType at h
  split at h
  · rename_i l hl
    simp only [Out.ok.injEq] at h
    rcases firstValid_spec w p l with ⟨h1, _⟩ | ⟨b, a, h1, h2, h3⟩
    · exact absurd (h.symm.trans h1) ht
    · rw [h] at h1 h2
      exact ⟨b, a, h1 ▸ hl, h2, h3⟩
  · cases h

theorem kind_validType (p t : String) (h : IsKind w p t) : validImportFileType w p = .ok t ∧ t ≠ "" := by
  obtain ⟨b, a, hl, hv, hb⟩ := h
  refine ⟨?_, ?_⟩
  · unfold validImportFileType
    rw [hl]
    simp only [first_unique w hv hb]
  · rintro rfl
    exact extTable_nonempty _ _ hl (by simp)

theorem IsKind.unique {p t t' : String} (h : IsKind w p t) (h' : IsKind w p t') : t = t' := by
  have := (kind_validType w p t h).1.symm.trans (kind_validType w p t' h').1
  simpa using this

/-- The files of the list that are recognised, with the choice of one format. -/
theorem chooseLoop_spec (l : List String) (hext : ∀ p ∈ l, (mget importFileExtensions (ext p)).isSome = true) :
    ∀ (chosen : String) (acc : List String),
      (∃ t ps, chooseLoop w chosen acc l = .ok (t, acc ++ ps) ∧ List.Sublist ps l ∧
        (∀ p ∈ l, p ∉ ps → Unrecognised w p) ∧ (∀ p ∈ ps, IsKind w p t) ∧
        (ps = [] → t = chosen) ∧ (chosen ≠ "" → t = chosen) ∧
        (∀ p ∈ ps, t ≠ "")) ∨
      (∃ e, chooseLoop w chosen acc l = .err e ∧
        ((∃ p ∈ l, ∃ q ∈ l, ∃ t t', IsKind w p t ∧ IsKind w q t' ∧ t ≠ t') ∨
         (chosen ≠ "" ∧ ∃ p ∈ l, ∃ t, IsKind w p t ∧ t ≠ chosen))) := by
  induction l with
  | nil =>
    intro chosen acc
    exact .inl ⟨chosen, [], by simp [chooseLoop], .slnil, by simp, by simp, by simp, by simp, by simp⟩
  | cons p r ih =>
    intro chosen acc
    have hr : ∀ p ∈ r, (mget importFileExtensions (ext p)).isSome = true := fun q hq => hext q (by simp [hq])
    have hp := hext p (by simp)
    have hv : ∃ t, validImportFileType w p = .ok t := by
      unfold validImportFileType
      split
      · exact ⟨_, rfl⟩
      · rename_i h; rw [h] at hp; simp at hp
    obtain ⟨t, ht⟩ := hv
    unfold chooseLoop
    rw [ht]
    by_cases h0 : t = ""
    · simp only [h0, ne_eq, not_true_eq_false, if_false]
      have hun : Unrecognised w p := by
        intro t' hk
        have := kind_validType w p t' hk
        rw [ht] at this
        simp only [Out.ok.injEq] at this
        exact this.2 (this.1 ▸ h0)
      rcases ih hr chosen acc with ⟨t', ps, h1, h2, h3, h4, h5, h6, h7⟩ | ⟨e, h1, h2⟩
      · refine .inl ⟨t', ps, h1, h2.cons _, ?_, h4, h5, h6, h7⟩
        intro q hq hn
        rcases List.mem_cons.1 hq with rfl | hq
        · exact hun
        · exact h3 q hq hn
      · refine .inr ⟨e, h1, ?_⟩
        rcases h2 with ⟨a, ha, b, hb, rest⟩ | ⟨hc, a, ha, rest⟩
        · exact .inl ⟨a, by simp [ha], b, by simp [hb], rest⟩
        · exact .inr ⟨hc, a, by simp [ha], rest⟩
    · have hk := validType_kind w p t ht h0
      simp only [ne_eq, h0, not_false_eq_true, if_true]
      by_cases hc : chosen = ""
      · simp only [hc, if_true]
        rcases ih hr t (acc ++ [p]) with ⟨t', ps, h1, h2, h3, h4, h5, h6, h7⟩ | ⟨e, h1, h2⟩
        · have ht' : t' = t := h6 h0
          subst ht'
          refine .inl ⟨t', p :: ps, by rw [h1]; simp, h2.cons_cons _, ?_, ?_, by simp, by simp, ?_⟩
          · intro q hq hn
            rcases List.mem_cons.1 hq with rfl | hq
            · exact absurd (by simp) hn
            · exact h3 q hq fun h => hn (by simp [h])
          · intro q hq
            rcases List.mem_cons.1 hq with rfl | hq
            · exact hk
            · exact h4 q hq
          · intro _ _; exact h0
        · refine .inr ⟨e, h1, .inl ?_⟩
          rcases h2 with ⟨a, ha, b, hb, rest⟩ | ⟨_, a, ha, t', hk', hne⟩
          · exact ⟨a, by simp [ha], b, by simp [hb], rest⟩
          · exact ⟨a, by simp [ha], p, by simp, t', t, hk', hk, hne⟩
      · simp only [hc, if_false]
        by_cases hne : t = chosen
        · subst hne
          simp only [not_true_eq_false, if_false]
          rcases ih hr t (acc ++ [p]) with ⟨t', ps, h1, h2, h3, h4, h5, h6, h7⟩ | ⟨e, h1, h2⟩
          · have ht' : t' = t := h6 h0
            subst ht'
            refine .inl ⟨t', p :: ps, by rw [h1]; simp, h2.cons_cons _, ?_, ?_, by simp, by simp, ?_⟩
            · intro q hq hn
              rcases List.mem_cons.1 hq with rfl | hq
              · exact absurd (by simp) hn
              · exact h3 q hq fun h => hn (by simp [h])
            · intro q hq
              rcases List.mem_cons.1 hq with rfl | hq
              · exact hk
              · exact h4 q hq
            · intro _ _; exact h0
          · refine .inr ⟨e, h1, ?_⟩
            rcases h2 with ⟨a, ha, b, hb, rest⟩ | ⟨hc', a, ha, rest⟩
            · exact .inl ⟨a, by simp [ha], b, by simp [hb], rest⟩
            · exact .inr ⟨by simp, a, by simp [ha], rest⟩
        · simp only [hne, not_false_eq_true, if_true]
          exact .inr ⟨_, rfl, .inr ⟨by simp, p, by simp, t, hk, hne⟩⟩

theorem expandPaths_ext (paths flat : List String) (h : expandPaths w paths = .ok flat) :
    ∀ p ∈ flat, (mget importFileExtensions (ext p)).isSome = true := by
  induction paths generalizing flat with
  | nil => simp only [expandPaths, Out.ok.injEq] at h; subst h; simp
  | cons p r ih =>
    unfold expandPaths at h
    split at h
    · rename_i hp
      cases hr : expandPaths w r with
      | ok l =>
        rw [hr] at h
        simp only [Out.bind_ok, Out.pure_eq, Out.ok.injEq] at h
        subst h
        intro q hq
        rcases List.mem_cons.1 hq with rfl | hq
        · exact hp
        · exact ih l hr q hq
      | err e => rw [hr] at h; simp at h
      | panic e => rw [hr] at h; simp at h
    · split at h
      · cases h
      · cases hr : expandPaths w r with
        | ok l =>
          rw [hr] at h
          simp only [Out.bind_ok, Out.pure_eq, Out.ok.injEq] at h
          subst h
          intro q hq
          rcases List.mem_append.1 hq with hq | hq
          · split at hq
            · exact (List.mem_filter.1 hq).2
            · simp at hq
          · exact ih l hr q hq
        | err e => rw [hr] at h; simp at h
        | panic e => rw [hr] at h; simp at h

theorem expandPaths_no_panic (paths : List String) (e : String) : expandPaths w paths ≠ .panic e := by
  induction paths with
  | nil => simp [expandPaths]
  | cons p r ih =>
    unfold expandPaths
    split
    · cases hr : expandPaths w r with
      | ok l => simp
      | err e => simp
      | panic e' => simp; rintro rfl; exact ih hr
    · split
      · simp
      · cases hr : expandPaths w r with
        | ok l => simp
        | err e => simp
        | panic e' => simp; rintro rfl; exact ih hr

/-- C51: whatever is imported comes from one importer, applied to all files of its format
in order; every other file of the list is not recognised by any format.  (The property
wants the presence of such a file to be an error as well, which is false: `C51_refuted`.) -/
theorem C51_one_format_partial (paths : List String) (m : M) (h : importAll w paths = .ok m) :
    ∃ flat t ps, expandPaths w paths = .ok flat ∧ ps ≠ [] ∧ List.Sublist ps flat ∧ (∀ p ∈ ps, IsKind w p t) ∧
      (∀ p ∈ flat, p ∉ ps → Unrecognised w p) ∧ w.run t ps = .ok m ∧ (t = "sadl" → ps.length = 1) := by
  unfold importAll at h
  cases hf : expandPaths w paths with
  | err e => rw [hf] at h; simp at h
  | panic e => rw [hf] at h; simp at h
  | ok flat =>
    rw [hf] at h
    simp only [Out.bind_ok] at h
    rcases chooseLoop_spec w flat (expandPaths_ext w paths flat hf) "" [] with
      ⟨t, ps, h1, h2, h3, h4, h5, h6, h7⟩ | ⟨e, h1, _⟩
    · rw [h1] at h
      simp only [Out.bind_ok, List.nil_append] at h
      split at h
      · cases h
      · rename_i hne
        unfold importFiles at h
        split at h
        · cases h
        · rename_i hs
          refine ⟨flat, t, ps, rfl, ?_, h2, h4, h3, h, ?_⟩
          · intro e; exact hne (h5 e)
          · intro e; exact Classical.byContradiction fun hl => hs ⟨e, hl⟩
    · rw [h1] at h
      simp at h

/-- C51: files of two different formats are refused. -/
theorem C51_mixed_refused (paths flat : List String) (hf : expandPaths w paths = .ok flat) (p q t t' : String)
    (hp : p ∈ flat) (hq : q ∈ flat) (hkp : IsKind w p t) (hkq : IsKind w q t') (hne : t ≠ t') :
    ∃ e, importAll w paths = .err e := by
  unfold importAll
  rw [hf]
  simp only [Out.bind_ok]
  rcases chooseLoop_spec w flat (expandPaths_ext w paths flat hf) "" [] with
    ⟨u, ps, h1, h2, h3, h4, h5, h6, h7⟩ | ⟨e, h1, _⟩
  · have hpp : p ∈ ps := Classical.byContradiction fun hn => h3 p hp hn t hkp
    have hqp : q ∈ ps := Classical.byContradiction fun hn => h3 q hq hn t' hkq
    exact absurd ((hkp.unique w (h4 p hpp)).trans (hkq.unique w (h4 q hqp)).symm) hne
  · rw [h1]
    exact ⟨e, rfl⟩

/-- C51: a list without any recognised file is refused. -/
theorem C51_unknown_refused (paths flat : List String) (hf : expandPaths w paths = .ok flat)
    (hu : ∀ p ∈ flat, Unrecognised w p) : ∃ e, importAll w paths = .err e := by
  unfold importAll
  rw [hf]
  simp only [Out.bind_ok]
  rcases chooseLoop_spec w flat (expandPaths_ext w paths flat hf) "" [] with
    ⟨u, ps, h1, h2, h3, h4, h5, h6, h7⟩ | ⟨e, h1, _⟩
  · have : ps = [] := by
      cases ps with
      | nil => rfl
      | cons p r => exact absurd (h4 p (by simp)) (hu p (h2.subset (by simp)) u)
    rw [h1, h5 this]
    exact ⟨_, rfl⟩
  · rw [h1]
    exact ⟨e, rfl⟩

/-- C51: conversely, files of one format are handed to its importer. -/
theorem C51_same_format_accepted (paths flat : List String) (t : String) (hf : expandPaths w paths = .ok flat)
    (hne : flat ≠ []) (hk : ∀ p ∈ flat, IsKind w p t) (hs : t = "sadl" → flat.length = 1) :
    importAll w paths = w.run t flat := by
  unfold importAll
  rw [hf]
  simp only [Out.bind_ok]
  rcases chooseLoop_spec w flat (expandPaths_ext w paths flat hf) "" [] with
    ⟨u, ps, h1, h2, h3, h4, h5, h6, h7⟩ | ⟨e, h1, h2⟩
  · have hall : ∀ p ∈ flat, p ∈ ps := fun p hp => Classical.byContradiction fun hn => h3 p hp hn t (hk p hp)
    obtain ⟨p, r, rfl⟩ := List.exists_cons_of_ne_nil hne
    have hu : u = t := (h4 p (hall p (by simp))).unique w (hk p (by simp))
    subst hu
    have hps : ps = p :: r := by
      have key : ∀ (l : List String) (ps : List String) (u : String), (∀ q ∈ l, IsKind w q u) →
          ∀ (c : String) (acc : List String) (x : String × List String), chooseLoop w c acc l = .ok x → x.2 = acc ++ l := by
        intro l
        induction l with
        | nil => intro _ _ _ c acc x hx; simp [chooseLoop] at hx; subst hx; simp
        | cons q r ih =>
          intro ps u hu c acc x hx
          have ⟨hq, h0⟩ := kind_validType w q u (hu q (by simp))
          unfold chooseLoop at hx
          rw [hq] at hx
          simp only [ne_eq, h0, not_false_eq_true, if_true] at hx
          split at hx
          · have := ih ps u (fun y hy => hu y (by simp [hy])) _ _ x hx
            simp [this]
          · split at hx
            · cases hx
            · have := ih ps u (fun y hy => hu y (by simp [hy])) _ _ x hx
              simp [this]
      have := key (p :: r) ps u hk _ _ _ h1
      simpa using this
    subst hps
    rw [h1]
    have h0 : u ≠ "" := (kind_validType w p u (hk p (by simp))).2
    simp only [Out.bind_ok, List.nil_append, h0, if_false]
    unfold importFiles
    rw [if_neg]
    rintro ⟨e, hl⟩
    exact hl (hs e)
  · rcases h2 with ⟨a, ha, b, hb, x, y, hx, hy, hxy⟩ | ⟨hc, _⟩
    · exact absurd ((hx.unique w (hk a ha)).trans (hy.unique w (hk b hb)).symm) hxy
    · exact absurd rfl hc

/-- C51: choosing the importer never panics: a panic can only come from the importer. -/
theorem C51_no_panic (paths : List String) (e : String) (h : importAll w paths = .panic e) :
    ∃ t ps, w.run t ps = .panic e := by
  unfold importAll at h
  cases hf : expandPaths w paths with
  | err e => rw [hf] at h; simp at h
  | panic e => exact absurd hf (expandPaths_no_panic w paths e)
  | ok flat =>
    rw [hf] at h
    simp only [Out.bind_ok] at h
    rcases chooseLoop_spec w flat (expandPaths_ext w paths flat hf) "" [] with
      ⟨t, ps, h1, _⟩ | ⟨e, h1, _⟩
    · rw [h1] at h
      simp only [Out.bind_ok] at h
      split at h
      · cases h
      · unfold importFiles at h
        split at h
        · cases h
        · exact ⟨_, _, h⟩
    · rw [h1] at h
      simp at h

/-- A world with two smithy files, one file that nothing recognises and a graphql file. -/
def exWorld : World (List String) where
  stat := fun _ => none
  walk := fun _ => []
  valid := fun t p => (t == "smithy" && (p == "a.smithy" || p == "b.smithy")) || (t == "graphql" && p == "c.graphql")
  run := fun t ps => .ok (t :: ps)

example : importAll exWorld ["a.smithy", "b.smithy"] = .ok ["smithy", "a.smithy", "b.smithy"] := by decide +kernel
example : IsKind exWorld "a.smithy" "smithy" ∧ IsKind exWorld "c.graphql" "graphql" :=
  ⟨⟨[], [], by decide +kernel, by decide +kernel, by simp⟩, ⟨[], [], by decide +kernel, by decide +kernel, by simp⟩⟩
example : ∃ e, importAll exWorld ["a.smithy", "c.graphql"] = .err e :=
  ⟨"Multiple file types in input file list", by decide +kernel⟩
example : ∃ flat, expandPaths exWorld ["x.json"] = .ok flat ∧ ∀ p ∈ flat, Unrecognised exWorld p := by
  refine ⟨["x.json"], by decide +kernel, ?_⟩
  intro p hp t hk
  obtain rfl : p = "x.json" := by simpa using hp
  have h := kind_validType _ _ _ hk
  have h2 : validImportFileType exWorld "x.json" = .ok "" := by decide +kernel
  rw [h2] at h
  simp only [Out.ok.injEq] at h
  exact h.2 h.1.symm

/-- C51 is false: a file that no format recognises is silently left out. -/
theorem C51_refuted : ∃ (w : World (List String)) (paths : List String) (m : List String) (p : String),
    importAll w paths = .ok m ∧ p ∈ paths ∧ Unrecognised w p := by
  refine ⟨exWorld, ["a.smithy", "x.json"], ["smithy", "a.smithy"], "x.json", by decide +kernel, by simp, ?_⟩
  intro t hk
  have h := kind_validType _ _ _ hk
  have h2 : validImportFileType exWorld "x.json" = .ok "" := by decide +kernel
  rw [h2] at h
  simp only [Out.ok.injEq] at h
  exact h.2 h.1.symm

end Sadl
