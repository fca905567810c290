import Verif.Model.DataAccess
import Verif.Model.Command
import Verif.Props.Helpers
/-
C38, C39: what a path of keys leads to, exactly, and the accessors of configuration data.
-/
namespace Sadl.Spec
open Sadl

/-- Following the keys one after the other from an object, skipping those that are not there, leads to a value; the last key is there. -/
inductive Skips : GoMap Value → List String → Value → Prop
  | last {m k v} : (k, v) ∈ m → Skips m [k] v
  | into {m k m' ks v} : (k, .obj m') ∈ m → Skips m' ks v → Skips m (k :: ks) v
  | skip {m k ks v} : (∀ x, (k, x) ∉ m) → Skips m ks v → Skips m (k :: ks) v

end Sadl.Spec

namespace Sadl.Props
open Sadl Sadl.Spec

theorem skips_ne {m : GoMap Value} {ks : List String} {v : Value} (h : Skips m ks v) : ks ≠ [] := by cases h <;> simp

theorem mget_none_mem {m : GoMap Value} {k : String} : mget m k = none ↔ ∀ x, (k, x) ∉ m := by
  rw [mget_none_iff]
  constructor
  · intro h x hx; exact h (List.mem_map.2 ⟨_, hx, rfl⟩)
  · intro h hk
    obtain ⟨⟨a, x⟩, h1, rfl⟩ := List.mem_map.1 hk
    exact h x h1

theorem getLoop_skips {keys : List String} : ∀ {m : GoMap Value}, Real (.obj m) → ∀ v, v ≠ .null →
    (getLoop m keys = v ↔ Skips m keys v) := by
  induction keys with
  | nil => intro m _ v hv; exact ⟨fun h => absurd h.symm hv, fun h => absurd rfl (skips_ne h)⟩
  | cons k ks ih =>
    intro m hm v hv
    obtain ⟨hd, hr⟩ : GoMap.Distinct m ∧ ∀ k x, (k, x) ∈ m → Real x := by
      cases hm with
      | obj a b => exact ⟨a, b⟩
      | atom _ b => exact absurd rfl (b m)
    rw [getLoop]
    cases hg : mget m k with
    | none =>
      have hn := mget_none_mem.1 hg
      simp only
      rw [ih hm v hv]
      constructor
      · exact .skip hn
      · intro h
        cases h with
        | last h => exact absurd h (hn _)
        | into h => exact absurd h (hn _)
        | skip _ h => exact h
    | some x =>
      have hx := mget_mem hg
      simp only
      by_cases hks : ks = []
      · subst hks
        rw [if_pos rfl]
        constructor
        · rintro rfl; exact .last hx
        · intro h
          cases h with
          | last h => rw [mget_of_mem hd h] at hg; cases hg; rfl
          | into _ h => exact absurd rfl (skips_ne h)
          | skip h _ => exact absurd hx (h _)
      · rw [if_neg hks]
        constructor
        · intro h
          cases x with
          | obj mm => exact .into hx ((ih (hr _ _ hx) v hv).1 h)
          | _ => exact absurd h.symm hv
        · intro h
          cases h with
          | last h => exact absurd rfl hks
          | into h h' => rw [mget_of_mem hd h] at hg; cases hg; exact (ih (hr _ _ hx) v hv).2 h'
          | skip h _ => exact absurd hx (h _)

/-- C38: exactly what is returned for a path of keys: what it leads to when keys that are not there are skipped. -/
theorem C38_get_iff (data : Value) (hd : Real data) (keys : List String) (v : Value) (hv : v ≠ .null) :
    dataGet data keys = v ↔ ∃ m, data = .obj m ∧ Skips m keys v := by
  cases data with
  | obj m =>
    have : dataGet (.obj m) keys = getLoop m keys := by
      unfold dataGet asMap
      simp only
      split
      · next key => simp only [getLoop, if_true]
      · rfl
    rw [this, getLoop_skips hd v hv]
    simp
  | _ => simp [dataGet, asMap, hv.symm]

/-- C38: so what is returned is what some of the keys, in order, among them the last one, lead to. -/
theorem C38_get_only (data : Value) (hd : Real data) (keys : List String) (h : dataGet data keys ≠ .null) :
    ∃ ks k, List.Sublist (ks ++ [k]) keys ∧ keys.getLast? = some k ∧ Props.Spec.Follows data (ks ++ [k]) (dataGet data keys) := by
  obtain ⟨m, rfl, hs⟩ := (C38_get_iff data hd keys _ h).1 rfl
  generalize dataGet (.obj m) keys = v at hs
  clear h hd
  induction hs with
  | last h => exact ⟨[], _, List.Sublist.refl _, rfl, .step h (.here _)⟩
  | @into m k m' ks v h hs ih =>
    obtain ⟨ks', k', h1, h2, h3⟩ := ih
    refine ⟨k :: ks', k', h1.cons_cons k, ?_, .step h h3⟩
    rw [List.getLast?_cons, h2]; rfl
  | @skip m k ks v h hs ih =>
    obtain ⟨ks', k', h1, h2, h3⟩ := ih
    refine ⟨ks', k', h1.cons k, ?_, h3⟩
    rw [List.getLast?_cons, h2]; rfl

/-- A non-trivial object and path. -/
example : Skips [("a", .obj [("c", .int 7)])] ["a", "b", "c"] (.int 7) :=
  .into (List.mem_singleton.2 rfl) (.skip (by simp) (.last (List.mem_singleton.2 rfl)))

/-- C38, C39: each accessor returns the value at the end of a path if it is of the kind that is asked for. -/
theorem C38_typed (wild : Int) (data : Value) (hd : Real data) (keys : List String) (hk : keys ≠ []) :
    (∀ s, Props.Spec.Follows data keys (.str s) → dataGetString data keys = s) ∧
    (∀ b, Props.Spec.Follows data keys (.bool b) → dataGetBool data keys = b) ∧
    (∀ n, Props.Spec.Follows data keys (.int n) → dataGetInt wild data keys = n) ∧
    (∀ f, Props.Spec.Follows data keys (.float64 f) → dataGetFloat64 data keys = f ∧ dataGetInt64 wild data keys = dataGetInt wild data keys) ∧
    (∀ xs, Props.Spec.Follows data keys (.arr xs) → dataGetArray data keys = some xs ∧ dataGetStringArray data keys = xs.map asString) ∧
    (∀ kvs, Props.Spec.Follows data keys (.obj kvs) → dataGetMap data keys = some kvs) ∧
    (∀ d, Props.Spec.Follows data keys (.dec d) → dataGetDecimal data keys = some d) ∧
    (∀ v, Props.Spec.Follows data keys v → dataGetData data keys = v ∧ (dataIsNil (dataGetData data keys) = true ↔ v = .null)) := by
  have key := fun v h => C38_get_follows_path_partial data hd keys hk v h
  refine ⟨fun s h => ?_, fun b h => ?_, fun n h => ?_, fun f h => ?_, fun xs h => ?_, fun kvs h => ?_, fun d h => ?_, fun v h => ?_⟩
  · rw [dataGetString, key _ h]; rfl
  · rw [dataGetBool, key _ h]; rfl
  · rw [dataGetInt, key _ h]; rfl
  · rw [dataGetFloat64, dataGetInt64, dataGetInt, key _ h]; exact ⟨rfl, rfl⟩
  · rw [dataGetArray, dataGetStringArray, key _ h]; exact ⟨rfl, rfl⟩
  · rw [dataGetMap, key _ h]; rfl
  · rw [dataGetDecimal, key _ h]; rfl
  · rw [dataGetData, key _ h]
    refine ⟨rfl, ?_⟩
    cases v <;> simp [dataIsNil]

/-- C39: a value of another kind, or none at all, gives the fallback: no text, zero, false, or nil. -/
theorem C39_fallback (wild : Int) (v : Value) :
    ((∀ n, v ≠ .int n) → (∀ f, v ≠ .float64 f) → asInt wild v = 0) ∧
    ((∀ f, v ≠ .float64 f) → asInt64 wild v = 0 ∧ asFloat64 v = .fin 0 0) ∧
    ((∀ xs, v ≠ .arr xs) → asArray v = none) ∧ ((∀ kvs, v ≠ .obj kvs) → asMap v = none) ∧
    ((∀ d, v ≠ .dec d) → asDecimal v = none) := by
  cases v <;> simp [asInt, asInt64, asFloat64, asArray, asMap, asDecimal]

/-- C39: a float that is a whole number, however it is written, converts to it if an `int` can hold it. -/
theorem C39_asInt_whole (wild m : Int) (k : Nat) (hlo : -(2 : Int) ^ 63 ≤ m * 2 ^ k) (hhi : m * 2 ^ k < (2 : Int) ^ 63) :
    asInt wild (.float64 (.fin m k)) = m * 2 ^ k ∧ asInt64 wild (.float64 (.fin m k)) = m * 2 ^ k := by
  have h0 : (0 : Int) ≤ (k : Int) := by omega
  simp only [asInt, asInt64, truncInt, if_pos h0, Int.toNat_natCast, if_pos (show -(2 : Int) ^ 63 ≤ m * 2 ^ k ∧ m * 2 ^ k < (2 : Int) ^ 63 from ⟨hlo, hhi⟩), and_self]

example : asInt 0 (.float64 (.fin 5 3)) = 40 := (C39_asInt_whole 0 5 3 (by norm_num) (by norm_num)).1

/-- C38, C39: the accessors of a map agree with those of a `Data` object that holds it, for one key (a nil map is like an empty one);
except for lists of texts, see `C39_refuted`. -/
theorem C39_map_agrees (wild : Int) (kvs : GoMap Value) (k : String) :
    mapGet (some kvs) k = dataGet (.obj kvs) [k] ∧ mapGetString (some kvs) k = dataGetString (.obj kvs) [k] ∧
    mapGetBool (some kvs) k = dataGetBool (.obj kvs) [k] ∧ mapGetInt wild (some kvs) k = dataGetInt wild (.obj kvs) [k] ∧
    mapGetInt64 wild (some kvs) k = dataGetInt64 wild (.obj kvs) [k] ∧ mapGetArray (some kvs) k = dataGetArray (.obj kvs) [k] ∧
    mapGetMap (some kvs) k = dataGetMap (.obj kvs) [k] ∧ mapGetDecimal (some kvs) k = dataGetDecimal (.obj kvs) [k] ∧
    mapGetStringArray (some kvs) k = asStringArray (dataGet (.obj kvs) [k]) ∧
    mapGet none k = mapGet (some []) k := by
  have h : mapGet (some kvs) k = dataGet (.obj kvs) [k] := by
    unfold mapGet dataGet asMap
    simp only
    cases mget kvs k <;> rfl
  refine ⟨h, ?_, ?_, ?_, ?_, ?_, ?_, ?_, ?_, rfl⟩
  · rw [mapGetString, h]; rfl
  · rw [mapGetBool, h]; rfl
  · rw [mapGetInt, h]; rfl
  · rw [mapGetInt64, h]; rfl
  · rw [mapGetArray, h]; rfl
  · rw [mapGetMap, h]; rfl
  · rw [mapGetDecimal, h]; rfl
  · rw [mapGetStringArray, h]

end Sadl.Props
