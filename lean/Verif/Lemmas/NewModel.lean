import Verif.Model.Model
import Verif.Lemmas.Basic
namespace Sadl

def baseIndex : GoMap TypeDef := BaseTypes.foldl (fun idx n => mset idx n (baseTypeDef n)) []

theorem baseIndex_eq : baseIndex = BaseTypes.map (fun n => (n, baseTypeDef n)) := by
  simp [baseIndex, BaseTypes, mset, baseTypeDef]

theorem baseIndex_distinct : baseIndex.Distinct := by
  rw [baseIndex_eq]
  unfold GoMap.Distinct
  simp only [List.map_map]
  decide

theorem baseIndex_keys : baseIndex.map Prod.fst = BaseTypes := by
  rw [baseIndex_eq]; simp [BaseTypes]

theorem indexTypes_ok_iff (idx : GoMap TypeDef) (tds : List TypeDef) (idx' : GoMap TypeDef) :
    indexTypes idx tds = .ok idx' ↔
      (tds.map TypeDef.name).Nodup ∧ (∀ td ∈ tds, td.name ∉ idx.map Prod.fst) ∧
      idx' = idx ++ tds.map (fun td => (td.name, td)) := by
  induction tds generalizing idx with
  | nil => simp [indexTypes, eq_comm]
  | cons td rest ih =>
    unfold indexTypes
    cases h : mget idx td.name with
    | some x =>
      have : td.name ∈ idx.map Prod.fst := by
        by_contra hn
        rw [(mget_none_iff _ _).2 hn] at h; cases h
      simp only [reduceCtorEq, false_iff]
      rintro ⟨-, h2, -⟩
      exact h2 td (by simp) this
    | none =>
      have hn : td.name ∉ idx.map Prod.fst := (mget_none_iff _ _).1 h
      simp only [ih, mset_of_not_mem hn]
      simp only [List.map_cons, List.nodup_cons, List.map_append, List.mem_append, List.map_nil,
        List.mem_cons, List.not_mem_nil, or_false, List.append_assoc, List.singleton_append]
      constructor
      · rintro ⟨h1, h2, h3⟩
        refine ⟨⟨?_, h1⟩, ?_, h3⟩
        · intro hmem
          obtain ⟨td', hm, he⟩ := List.mem_map.1 hmem
          exact h2 td' hm (Or.inr he)
        · rintro td' (rfl | hm)
          · exact hn
          · exact fun hc => h2 td' hm (Or.inl hc)
      · rintro ⟨⟨h1, h1'⟩, h2, h3⟩
        refine ⟨h1', ?_, h3⟩
        intro td' hm hc
        rcases hc with hc | hc
        · exact h2 td' (Or.inr hm) hc
        · exact h1 (List.mem_map.2 ⟨td', hm, hc⟩)

theorem indexHttp_ok_iff (idx : GoMap HttpDef) (hds : List HttpDef) (idx' : GoMap HttpDef) :
    indexHttp idx hds = .ok idx' ↔
      (hds.map HttpDef.name).Nodup ∧ (∀ hd ∈ hds, hd.name ∉ idx.map Prod.fst) ∧
      idx' = idx ++ hds.map (fun hd => (hd.name, hd)) := by
  induction hds generalizing idx with
  | nil => simp [indexHttp, eq_comm]
  | cons td rest ih =>
    unfold indexHttp
    cases h : mget idx td.name with
    | some x =>
      have : td.name ∈ idx.map Prod.fst := by
        by_contra hn
        rw [(mget_none_iff _ _).2 hn] at h; cases h
      simp only [reduceCtorEq, false_iff]
      rintro ⟨-, h2, -⟩
      exact h2 td (by simp) this
    | none =>
      have hn : td.name ∉ idx.map Prod.fst := (mget_none_iff _ _).1 h
      simp only [ih, mset_of_not_mem hn]
      simp only [List.map_cons, List.nodup_cons, List.map_append, List.mem_append, List.map_nil,
        List.mem_cons, List.not_mem_nil, or_false, List.append_assoc, List.singleton_append]
      constructor
      · rintro ⟨h1, h2, h3⟩
        refine ⟨⟨?_, h1⟩, ?_, h3⟩
        · intro hmem
          obtain ⟨td', hm, he⟩ := List.mem_map.1 hmem
          exact h2 td' hm (Or.inr he)
        · rintro td' (rfl | hm)
          · exact hn
          · exact fun hc => h2 td' hm (Or.inl hc)
      · rintro ⟨⟨h1, h1'⟩, h2, h3⟩
        refine ⟨h1', ?_, h3⟩
        intro td' hm hc
        rcases hc with hc | hc
        · exact h2 td' (Or.inr hm) hc
        · exact h1 (List.mem_map.2 ⟨td', hm, hc⟩)

theorem newModel_ok_iff (s : Schema) (m : Model) :
    newModel s = .ok m ↔
      (s.types.map TypeDef.name).Nodup ∧ (∀ td ∈ s.types, td.name ∉ BaseTypes) ∧
      (s.http.map HttpDef.name).Nodup ∧
      m = { schema := s
            typeIndex := baseIndex ++ s.types.map (fun td => (td.name, td))
            httpIndex := s.http.map (fun hd => (hd.name, hd)) } := by
  unfold newModel
  change (indexTypes baseIndex s.types >>= fun tidx => indexHttp [] s.http >>= fun hidx => _) = _ ↔ _
  constructor
  · intro h
    cases h1 : indexTypes baseIndex s.types with
    | ok t =>
      cases h2 : indexHttp [] s.http with
      | ok hh =>
        simp only [h1, h2, Out.bind_ok, Out.pure_eq, Out.ok.injEq] at h
        have a1 := (indexTypes_ok_iff _ _ _).1 h1
        have a2 := (indexHttp_ok_iff _ _ _).1 h2
        rw [baseIndex_keys] at a1
        refine ⟨a1.1, a1.2.1, a2.1, ?_⟩
        rw [← h, a1.2.2, a2.2.2]; rfl
      | err e => simp [h1, h2] at h
      | panic e => simp [h1, h2] at h
    | err e => simp [h1] at h
    | panic e => simp [h1] at h
  · rintro ⟨h1, h2, h3, rfl⟩
    have a1 := (indexTypes_ok_iff baseIndex s.types _).2 ⟨h1, by rw [baseIndex_keys]; exact h2, rfl⟩
    have a2 := (indexHttp_ok_iff [] s.http _).2 ⟨h3, by simp, rfl⟩
    rw [a1, a2]
    simp

theorem newModel_no_panic (s : Schema) (e : String) : newModel s ≠ .panic e := by
  have hT : ∀ (tds : List TypeDef) (idx : GoMap TypeDef), indexTypes idx tds ≠ .panic e := by
    intro tds
    induction tds with
    | nil => simp [indexTypes]
    | cons td r ih =>
      intro idx; unfold indexTypes; split
      · simp
      · exact ih _
  have hH : ∀ (tds : List HttpDef) (idx : GoMap HttpDef), indexHttp idx tds ≠ .panic e := by
    intro tds
    induction tds with
    | nil => simp [indexHttp]
    | cons td r ih =>
      intro idx; unfold indexHttp; split
      · simp
      · exact ih _
  unfold newModel
  change (indexTypes baseIndex s.types >>= fun tidx => indexHttp [] s.http >>= fun hidx => _) ≠ _
  cases h1 : indexTypes baseIndex s.types with
  | ok t =>
    cases h2 : indexHttp [] s.http with
    | ok hh => simp
    | err e' => simp
    | panic e' =>
      simp only [Out.bind_ok, Out.bind_panic]
      rintro ⟨⟩; exact hH _ _ h2
  | err e' => simp
  | panic e' =>
    simp only [Out.bind_panic]
    rintro ⟨⟩; exact hT _ _ h1

theorem newModel_distinct {s : Schema} {m : Model} (h : newModel s = .ok m) :
    m.typeIndex.Distinct ∧ m.httpIndex.Distinct := by
  obtain ⟨h1, h2, h3, rfl⟩ := (newModel_ok_iff s m).1 h
  constructor
  · unfold GoMap.Distinct
    simp only [List.map_append, List.map_map]
    rw [baseIndex_keys, List.nodup_append]
    refine ⟨by decide, ?_, ?_⟩
    · exact h1
    · rintro a ha b hb rfl
      obtain ⟨td, hm, rfl⟩ := List.mem_map.1 hb
      exact h2 td hm ha
  · unfold GoMap.Distinct
    simp only [List.map_map]
    exact h3

theorem newModel_findType_iff {s : Schema} {m : Model} (h : newModel s = .ok m) (n : String) (td : TypeDef) :
    m.findType n = some td ↔
      (td ∈ s.types ∧ td.name = n) ∨ (n ∈ BaseTypes ∧ td = baseTypeDef n) := by
  unfold Model.findType
  rw [mget_iff_mem (newModel_distinct h).1]
  obtain ⟨h1, h2, h3, rfl⟩ := (newModel_ok_iff s m).1 h
  simp only [baseIndex_eq, List.mem_append, List.mem_map, Prod.mk.injEq]
  constructor
  · rintro (⟨a, ha, rfl, rfl⟩ | ⟨a, ha, rfl, rfl⟩)
    · exact Or.inr ⟨ha, rfl⟩
    · exact Or.inl ⟨ha, rfl⟩
  · rintro (⟨ha, rfl⟩ | ⟨ha, rfl⟩)
    · exact Or.inr ⟨td, ha, rfl, rfl⟩
    · exact Or.inl ⟨n, ha, rfl, rfl⟩

theorem newModel_findHttp_iff {s : Schema} {m : Model} (h : newModel s = .ok m) (n : String) (hd : HttpDef) :
    m.findHttp n = some hd ↔ hd ∈ s.http ∧ hd.name = n := by
  unfold Model.findHttp
  rw [mget_iff_mem (newModel_distinct h).2]
  obtain ⟨h1, h2, h3, rfl⟩ := (newModel_ok_iff s m).1 h
  simp only [List.mem_map, Prod.mk.injEq]
  constructor
  · rintro ⟨a, ha, rfl, rfl⟩
    exact ⟨ha, rfl⟩
  · rintro ⟨ha, rfl⟩
    exact ⟨hd, ha, rfl, rfl⟩

end Sadl
