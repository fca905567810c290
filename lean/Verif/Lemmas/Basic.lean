import Verif.Lemmas.Tactics
import Verif.Model.Basic
namespace Sadl
variable {α : Type}

theorem mget_mset_same (m : GoMap α) (k : String) (v : α) : mget (mset m k v) k = some v := by
  induction m with
  | nil => simp [mset, mget]
  | cons p r ih =>
    obtain ⟨k', v'⟩ := p
    by_cases h : k' = k <;> simp [mset, mget, h, ih]

theorem mget_mset_other (m : GoMap α) (k k2 : String) (v : α) (hne : k2 ≠ k) :
    mget (mset m k v) k2 = mget m k2 := by
  induction m with
  | nil => simp [mset, mget, Ne.symm hne]
  | cons p r ih =>
    obtain ⟨k', v'⟩ := p
    by_cases h : k' = k
    · subst h; simp [mset, mget, Ne.symm hne]
    · simp only [mset, h, if_false, mget, ih]

theorem mget_mset (m : GoMap α) (k k2 : String) (v : α) :
    mget (mset m k v) k2 = if k2 = k then some v else mget m k2 := by
  by_cases h : k2 = k
  · subst h; simp [mget_mset_same]
  · simp [h, mget_mset_other _ _ _ _ h]

theorem mget_none_iff (m : GoMap α) (k : String) : mget m k = none ↔ k ∉ m.map Prod.fst := by
  induction m with
  | nil => simp [mget]
  | cons p r ih =>
    obtain ⟨k', v'⟩ := p
    by_cases h : k' = k
    · simp [mget, h]
    · simp only [mget, h, if_false, ih, List.map_cons, List.mem_cons, not_or]
      exact ⟨fun x => ⟨fun e => h e.symm, x⟩, fun x => x.2⟩

theorem mget_mem {m : GoMap α} {k : String} {v : α} (h : mget m k = some v) : (k, v) ∈ m := by
  induction m with
  | nil => simp [mget] at h
  | cons p r ih =>
    obtain ⟨k', v'⟩ := p
    by_cases hk : k' = k
    · simp [mget, hk] at h; simp [hk, h]
    · simp [mget, hk] at h; exact List.mem_cons_of_mem _ (ih h)

theorem mget_of_mem {m : GoMap α} (hd : m.Distinct) {k : String} {v : α} (h : (k, v) ∈ m) :
    mget m k = some v := by
  induction m with
  | nil => simp at h
  | cons p r ih =>
    obtain ⟨k', v'⟩ := p
    simp only [GoMap.Distinct, List.map_cons, List.nodup_cons] at hd
    rcases List.mem_cons.1 h with h | h
    · cases h; simp [mget]
    · have : k' ≠ k := by
        rintro rfl
        exact hd.1 (List.mem_map.2 ⟨_, h, rfl⟩)
      simp [mget, this, ih hd.2 h]

theorem mget_iff_mem {m : GoMap α} (hd : m.Distinct) {k : String} {v : α} :
    mget m k = some v ↔ (k, v) ∈ m := ⟨mget_mem, mget_of_mem hd⟩

theorem keys_mset (m : GoMap α) (k : String) (v : α) :
    (mset m k v).map Prod.fst = if k ∈ m.map Prod.fst then m.map Prod.fst else m.map Prod.fst ++ [k] := by
  induction m with
  | nil => simp [mset]
  | cons p r ih =>
    obtain ⟨k', v'⟩ := p
    by_cases h : k' = k
    · simp [mset, h]
    · have h' : ¬ k = k' := fun e => h e.symm
      simp only [mset, h, if_false, List.map_cons, ih, List.mem_cons, h', false_or]
      split <;> simp

theorem distinct_mset {m : GoMap α} (hd : m.Distinct) (k : String) (v : α) : (mset m k v).Distinct := by
  unfold GoMap.Distinct at *
  rw [keys_mset]
  split
  · exact hd
  · rename_i h
    rw [List.nodup_append]
    refine ⟨hd, by simp, ?_⟩
    intro a ha b hb e
    simp at hb
    subst hb; subst e; exact h ha

theorem mset_of_not_mem {m : GoMap α} {k : String} (h : k ∉ m.map Prod.fst) (v : α) :
    mset m k v = m ++ [(k, v)] := by
  induction m with
  | nil => simp [mset]
  | cons p r ih =>
    obtain ⟨k', v'⟩ := p
    simp only [List.map_cons, List.mem_cons, not_or] at h
    have : ¬ k' = k := fun e => h.1 e.symm
    simp [mset, this, ih h.2]

end Sadl
