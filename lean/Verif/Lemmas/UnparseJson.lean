import Verif.Lemmas.UnparseOpts
/-
Values printed by the unparser.
-/
namespace Sadl.Props
open Sadl Sadl.Spec

theorem foldl_mset_distinct : ∀ (kvs pre : GoMap Value), ((pre ++ kvs).map Prod.fst).Nodup →
    kvs.foldl (fun m kv => mset m kv.1 kv.2) pre = pre ++ kvs
  | [], pre, _ => by simp
  | kv :: r, pre, h => by
    have hk : kv.1 ∉ pre.map Prod.fst := by
      intro hc
      rw [List.map_append, List.nodup_append] at h
      exact h.2.2 _ hc _ (by simp) rfl
    rw [List.foldl_cons, mset_of_not_mem hk, foldl_mset_distinct r _ (by simpa using h)]
    simp

def brk (pretty : Bool) : List Token := if pretty then [tNl] else []

theorem brk_items {lib : PLib} {pretty : Bool} {ts : List Token} {vs : List Value} (h : AnyItems lib ts vs) :
    AnyItems lib (brk pretty ++ ts) vs := by
  cases pretty with
  | false => exact h
  | true => exact .sep (.inr rfl) h

theorem brk_members {lib : PLib} {pretty : Bool} {ts : List Token} {vs : List (String × Value)} (h : AnyMembers lib ts vs) :
    AnyMembers lib (brk pretty ++ ts) vs := by
  cases pretty with
  | false => exact h
  | true => exact .skip (by decide) (by decide) (by decide) h

theorem json_items {lib : PLib} {pl : PrintLib} {pretty : Bool} : ∀ (xs : List Value),
    (∀ x ∈ xs, AnyLit lib (jsonToks pl pretty x) x) → AnyItems lib (jsonItems pl pretty xs) xs
  | [], _ => by
    unfold jsonItems
    exact brk_items .close
  | x :: r, h => by
    have := AnyItems.item (h x (by simp)) (json_items r (fun y hy => h y (by simp [hy])))
    have := AnyItems.sep (t := tPunct .comma) (.inl rfl) (brk_items (pretty := pretty) this)
    unfold jsonItems
    simpa [brk] using this

theorem json_members {lib : PLib} {pl : PrintLib} {pretty : Bool} : ∀ (kvs : GoMap Value),
    (∀ kv ∈ kvs, lib.unquote (pl.jsonText kv.1) = some kv.1) →
    (∀ kv ∈ kvs, AnyLit lib (jsonToks pl pretty kv.2) kv.2) → AnyMembers lib (jsonMembers pl pretty kvs) kvs
  | [], _, _ => by
    unfold jsonMembers
    exact brk_members .close
  | (k, x) :: r, h1, h2 => by
    have := AnyMembers.member (x := "") (h1 (k, x) (by simp)) (h2 (k, x) (by simp))
      (json_members r (fun y hy => h1 y (by simp [hy])) (fun y hy => h2 y (by simp [hy])))
    have := AnyMembers.skip (t := tPunct .comma) (by decide) (by decide) (by decide) (brk_members (pretty := pretty) this)
    unfold jsonMembers
    simpa [brk, tStr, tPunct] using this

theorem json_lit {lib : PLib} {pl : PrintLib} (pretty : Bool) {v : Value} (h : ValueOk lib pl v) : AnyLit lib (jsonToks pl pretty v) v := by
  induction h with
  | null => unfold jsonToks; exact .null
  | @bool b => cases b <;> unfold jsonToks <;> constructor
  | str h => unfold jsonToks; exact .string h
  | @dec d h => unfold jsonToks; rw [decToks_ok h]; exact .number h.2
  | @arr xs _ ih =>
    cases xs with
    | nil => unfold jsonToks; exact .array .close
    | cons x r =>
      have := AnyItems.item (ih x (by simp)) (json_items (pretty := pretty) r (fun y hy => ih y (by simp [hy])))
      have := AnyLit.array (x := "") (brk_items (pretty := pretty) this)
      unfold jsonToks
      simpa [brk, tPunct] using this
  | @obj kvs hd hk _ ih =>
    cases kvs with
    | nil => unfold jsonToks; exact AnyLit.object (kvs := []) .close
    | cons kv r =>
      obtain ⟨k, x⟩ := kv
      have := AnyMembers.member (x := "") (hk (k, x) (by simp)) (ih (k, x) (by simp))
        (json_members (pretty := pretty) r (fun y hy => hk y (by simp [hy])) (fun y hy => ih y (by simp [hy])))
      have := AnyLit.object (x := "") (brk_members (pretty := pretty) this)
      rw [foldl_mset_distinct _ [] (by simpa [GoMap.Distinct] using hd)] at this
      unfold jsonToks
      simpa [brk, tPunct, tStr] using this

theorem json_cons {lib : PLib} {pl : PrintLib} (pretty : Bool) {v : Value} (h : ValueOk lib pl v) :
    ∃ t r, jsonToks pl pretty v = t :: r ∧ t.type ≠ .newline ∧ t.type ≠ .comma ∧ t.type ≠ .closeBracket :=
  AnyLit.cons (json_lit pretty h)

end Sadl.Props
