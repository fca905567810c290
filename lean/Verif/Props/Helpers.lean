import Verif.Model.HttpTrace
import Verif.Model.Data
import Verif.Model.Misc
import Verif.Model.Generator
import Verif.Lemmas.Text
import Verif.Lemmas.Basic
import Verif.Spec.Conforms
/-
C38, C39: configuration data.  C41: capitalisation.  C42: generated files.
C43: query parameters of traces.
-/
namespace Sadl.Props
open Sadl

/-! ### C38 -/

namespace Spec
/-- following the keys one after the other from a value leads to another value -/
inductive Follows : Value → List String → Value → Prop
  | here (v) : Follows v [] v
  | step {kvs k ks x y} : (k, x) ∈ kvs → Follows x ks y → Follows (.obj kvs) (k :: ks) y
end Spec

/-- C38: what was put is what is got, when the data is empty or an object. -/
theorem C38_get_put (data : Value) (h : data = .null ∨ ∃ kvs, data = .obj kvs) (k : String) (v : Value) :
    dataGet (dataPut data k v) [k] = v := by
  rcases h with rfl | ⟨kvs, rfl⟩
  · simp [dataPut, asMap, dataGet, mget_mset_same]
  · simp [dataPut, asMap, dataGet, mget_mset_same]

/-- C38: other keys, and all paths starting with them, are unaffected. -/
theorem C38_put_other (data : Value) (h : data = .null ∨ ∃ kvs, data = .obj kvs) (k k' : String) (v : Value)
    (hne : k' ≠ k) : dataGet (dataPut data k v) [k'] = dataGet data [k'] := by
  rcases h with rfl | ⟨kvs, rfl⟩
  · simp [dataPut, asMap, dataGet, mset, mget, hne.symm]
  · simp only [dataPut, asMap, dataGet]
    rw [mget_mset_other (hne := hne)]

/-- The history of a `Data` object: the stores performed on it, in order. -/
def putAll (data : Value) (puts : List (String × Value)) : Value :=
  puts.foldl (fun d kv => dataPut d kv.1 kv.2) data

/-- C38: after any sequence of stores into a new object, `Get(k)` is the value stored
last under `k`. -/
theorem C38_last_put_wins (before after : List (String × Value)) (k : String) (v : Value)
    (hlast : ∀ kv ∈ after, kv.1 ≠ k) :
    dataGet (putAll .null (before ++ (k, v) :: after)) [k] = v := by
  have shape : ∀ (puts : List (String × Value)) (d : Value), (d = .null ∨ ∃ kvs, d = .obj kvs) →
      (putAll d puts = .null ∨ ∃ kvs, putAll d puts = .obj kvs) := by
    intro puts
    induction puts with
    | nil => exact fun d h => h
    | cons p r ih =>
      intro d h
      refine ih _ (Or.inr ?_)
      rcases h with rfl | ⟨kvs, rfl⟩ <;> simp [dataPut, asMap]
  have keep : ∀ (puts : List (String × Value)) (d : Value), (d = .null ∨ ∃ kvs, d = .obj kvs) →
      (∀ kv ∈ puts, kv.1 ≠ k) → dataGet (putAll d puts) [k] = dataGet d [k] := by
    intro puts
    induction puts with
    | nil => exact fun d _ _ => rfl
    | cons p r ih =>
      intro d h hk
      have h' : dataPut d p.1 p.2 = .null ∨ ∃ kvs, dataPut d p.1 p.2 = .obj kvs := shape [p] d h
      rw [show putAll d (p :: r) = putAll (dataPut d p.1 p.2) r from rfl, ih _ h' (fun kv hkv => hk kv (by simp [hkv])),
        C38_put_other d h p.1 k p.2 (fun e => hk p (by simp) e.symm)]
  have e : putAll .null (before ++ (k, v) :: after) = putAll (dataPut (putAll .null before) k v) after := by
    simp [putAll, List.foldl_append]
  have h0 := shape before .null (Or.inl rfl)
  have h1 : dataPut (putAll .null before) k v = .null ∨ ∃ kvs, dataPut (putAll .null before) k v = .obj kvs :=
    shape [(k, v)] _ h0
  rw [e, keep after _ h1 hlast, C38_get_put _ h0]

example : dataGet (putAll .null [("a", .int 1), ("b", .int 2), ("a", .int 3), ("c", .null)]) ["a"] = .int 3 :=
  C38_last_put_wins [("a", .int 1), ("b", .int 2)] [("c", .null)] "a" (.int 3) (by decide)

theorem getLoop_follows (m : GoMap Value) (keys : List String) (v : Value) (hne : keys ≠ [])
    (hd : Sadl.Spec.Real (.obj m)) (h : Spec.Follows (.obj m) keys v) : getLoop m keys = v := by
  induction keys generalizing m with
  | nil => exact absurd rfl hne
  | cons k ks ih =>
    cases h with
    | step hx hf =>
      rename_i x
      have hdist : GoMap.Distinct m ∧ Sadl.Spec.Real x := by
        cases hd with
        | obj a b => exact ⟨a, b _ _ hx⟩
        | atom _ b => exact absurd rfl (b m)
      rw [getLoop, mget_of_mem hdist.1 hx]
      dsimp only
      split_ifs with hks
      · subst hks; cases hf; rfl
      · cases hf with
        | here => exact absurd rfl hks
        | step h1 h2 => exact ih _ hks hdist.2 (.step h1 h2)

/-- C38, paths that exist: `Get` returns the value at the end of the path.  Missing: the
converse, that nothing is returned when the path does not exist, which is false
(`C38_refuted`). -/
theorem C38_get_follows_path_partial (data : Value) (hd : Sadl.Spec.Real data) (keys : List String) (hk : keys ≠ [])
    (v : Value) (h : Spec.Follows data keys v) : dataGet data keys = v := by
  cases h with
  | here => exact absurd rfl hk
  | @step kvs k ks x _ hx hf =>
    unfold dataGet
    cases ks with
    | nil =>
      have hdist : GoMap.Distinct kvs := by
        cases hd with
        | obj a b => exact a
        | atom _ b => exact absurd rfl (b kvs)
      cases hf
      simp [asMap, mget_of_mem hdist hx]
    | cons k2 ks =>
      simp only [asMap]
      exact getLoop_follows kvs _ _ (by simp) hd (.step hx hf)

/-- C38, one key: `Get(k)` returns something only if the object has the key. -/
theorem C38_get_one_key (data : Value) (k : String) (h : dataGet data [k] ≠ .null) :
    Spec.Follows data [k] (dataGet data [k]) := by
  cases data with
  | obj kvs =>
    simp only [dataGet, asMap] at h ⊢
    cases hm : mget kvs k with
    | none => simp [hm] at h
    | some v => exact .step (mget_mem hm) (.here _)
  | _ => simp [dataGet, asMap] at h

/-- C38 refuted: asking for the path a, b in an object without `a` returns its top-level
entry `b`. -/
theorem C38_refuted : ∃ (data : Value), Sadl.Spec.Real data ∧
    dataGet data ["a", "b"] = .str "top" ∧ ¬ ∃ v, Spec.Follows data ["a", "b"] v := by
  refine ⟨.obj [("b", .str "top")], .obj (by simp) ?_, by simp [dataGet, asMap, getLoop, mget], ?_⟩
  · intro k x hx
    simp at hx
    rw [hx.2]; exact .atom (by simp) (by simp)
  · rintro ⟨v, h⟩
    cases h with
    | step hx _ => simp at hx

example : Spec.Follows (.obj [("a", .obj [("b", .int 7)])]) ["a", "b"] (.int 7) :=
  .step (List.mem_singleton.2 rfl) (.step (List.mem_singleton.2 rfl) (.here _))

/-! ### C39 -/

/-- C39: `AsString` gives the text of the two text kinds and the empty string otherwise. -/
theorem C39_asString (v : Value) :
    (∀ s, (v = .str s ∨ v = .strPtr s) → asString v = s) ∧
    ((∀ s, v ≠ .str s ∧ v ≠ .strPtr s) → asString v = "") := by
  constructor
  · rintro s (rfl | rfl) <;> rfl
  · intro h
    cases v with
    | str s => exact absurd rfl (h s).1
    | strPtr s => exact absurd rfl (h s).2
    | _ => rfl

/-- C39: `AsBool`: nil is false, a bool is itself, the text "false" is false, anything else
is true. -/
theorem C39_asBool (v : Value) : asBool v = false ↔ v = .null ∨ v = .bool false ∨ v = .str "false" := by
  cases v <;> simp [asBool]

/-- C39: `AsStringArray` gives the texts of a list of texts, and nothing at all when some
element is not a text. -/
theorem C39_asStringArray (xs : List Value) :
    (∀ ss : List String, xs.length = ss.length →
      (∀ (i : Nat) (x : Value) (s : String), xs[i]? = some x → ss[i]? = some s → x = .str s ∨ x = .strPtr s) →
        asStringArray (.arr xs) = ss) ∧
    ((∃ x ∈ xs, ∀ s, x ≠ .str s ∧ x ≠ .strPtr s) → asStringArray (.arr xs) = []) := by
  simp only [asStringArray, asArray]
  constructor
  · suffices h : ∀ ss : List String, xs.length = ss.length →
        (∀ (i : Nat) (x : Value) (s : String), xs[i]? = some x → ss[i]? = some s → x = .str s ∨ x = .strPtr s) →
        asStringArrayLoop xs = some ss by
      intro ss h1 h2; rw [h ss h1 h2]; rfl
    induction xs with
    | nil =>
      intro ss h _
      cases ss with
      | nil => rfl
      | cons _ _ => simp at h
    | cons x r ih =>
      intro ss hl h
      cases ss with
      | nil => simp at hl
      | cons s ss =>
        have h0 := h 0 x s rfl rfl
        have hr := ih ss (by simpa using hl) (fun i y t hy ht => h (i + 1) y t (by simpa using hy) (by simpa using ht))
        rcases h0 with rfl | rfl <;> simp [asStringArrayLoop, hr]
  · suffices h : (∃ x ∈ xs, ∀ s, x ≠ .str s ∧ x ≠ .strPtr s) → asStringArrayLoop xs = none by
      intro h'; rw [h h']; rfl
    induction xs with
    | nil => simp
    | cons x r ih =>
      rintro ⟨y, hy, hns⟩
      by_cases hx : ∃ s, x = .str s ∨ x = .strPtr s
      · have hr : asStringArrayLoop r = none := by
          apply ih
          rcases List.mem_cons.1 hy with rfl | hy
          · obtain ⟨s, hs⟩ := hx
            rcases hs with hs | hs
            · exact absurd hs (hns s).1
            · exact absurd hs (hns s).2
          · exact ⟨y, hy, hns⟩
        obtain ⟨s, rfl | rfl⟩ := hx <;> simp [asStringArrayLoop, hr]
      · cases x with
        | str s => exact absurd ⟨s, Or.inl rfl⟩ hx
        | strPtr s => exact absurd ⟨s, Or.inr rfl⟩ hx
        | _ => rfl

/-- C39: a value that is not a list has no string array. -/
theorem C39_asStringArray_other (v : Value) (h : ∀ xs, v ≠ .arr xs) : asStringArray v = [] := by
  cases v with
  | arr xs => exact absurd rfl (h xs)
  | _ => rfl

/-- C39: integers convert to themselves, and integral floats in range to the same integer
(`f = n`, written as `n * 2^0`); text converts to 0. -/
theorem C39_asInt (wild : Int) (n : Int) (s : String) :
    asInt wild (.int n) = n ∧
    (-(2 : Int) ^ 63 ≤ n → n < 2 ^ 63 → asInt wild (.float64 (.fin n 0)) = n) ∧
    asInt wild (.str s) = 0 ∧ asInt wild .null = 0 := by
  refine ⟨rfl, ?_, rfl, rfl⟩
  intro h1 h2
  have hc : -(2 : Int) ^ 63 ≤ n ∧ n < 2 ^ 63 := ⟨h1, h2⟩
  simp only [asInt, truncInt, le_refl, if_true, Int.toNat_zero, pow_zero, mul_one, if_pos hc]

/-- C39: a fractional float `m / 2^k` whose integer part is in range converts to that
integer part, towards zero: the result never exceeds the float in magnitude, is less than
one away from it, and never has the opposite sign. -/
theorem C39_asInt_truncates (wild m : Int) (k : Nat) (hk : 0 < k)
    (hlo : -(2 : Int) ^ 63 * 2 ^ k ≤ m) (hhi : m < (2 : Int) ^ 63 * 2 ^ k) :
    ∃ n, asInt wild (.float64 (.fin m (-(k : Int)))) = n ∧
      |n| * 2 ^ k ≤ |m| ∧ |m| < (|n| + 1) * 2 ^ k ∧ 0 ≤ n * m := by
  have hp : (0 : Int) < 2 ^ k := by positivity
  have hneg : ¬ (0 ≤ -(k : Int)) := by omega
  have hrange : -(2 : Int) ^ 63 ≤ m.tdiv (2 ^ k) ∧ m.tdiv (2 ^ k) < 2 ^ 63 := by
    rcases le_total 0 m with h | h
    · have h1 : m.tdiv (2 ^ k) = m / 2 ^ k := Int.tdiv_eq_ediv_of_nonneg h
      rw [h1]
      have h2 : 0 ≤ m / 2 ^ k := Int.ediv_nonneg h hp.le
      exact ⟨by linarith [show (0 : Int) ≤ 2 ^ 63 by norm_num], Int.ediv_lt_of_lt_mul hp hhi⟩
    · obtain ⟨a, rfl⟩ : ∃ a, m = -a := ⟨-m, by simp⟩
      have ha : 0 ≤ a := by linarith
      rw [Int.neg_tdiv, Int.tdiv_eq_ediv_of_nonneg ha]
      have h2 : 0 ≤ a / 2 ^ k := Int.ediv_nonneg ha hp.le
      have h3 : a / 2 ^ k < 2 ^ 63 + 1 := Int.ediv_lt_of_lt_mul hp (by nlinarith)
      exact ⟨by linarith, by linarith [show (0 : Int) < 2 ^ 63 by norm_num]⟩
  refine ⟨m.tdiv (2 ^ k), ?_, ?_⟩
  · simp only [asInt, truncInt, if_neg hneg, neg_neg, Int.toNat_natCast, if_pos hrange]
  · rcases le_total 0 m with h | h
    · rw [Int.tdiv_eq_ediv_of_nonneg h]
      have h2 : 0 ≤ m / 2 ^ k := Int.ediv_nonneg h hp.le
      rw [abs_of_nonneg h2, abs_of_nonneg h]
      exact ⟨Int.ediv_mul_le m hp.ne', Int.lt_ediv_add_one_mul_self m hp, mul_nonneg h2 h⟩
    · obtain ⟨a, rfl⟩ : ∃ a, m = -a := ⟨-m, by simp⟩
      have ha : 0 ≤ a := by linarith
      rw [Int.neg_tdiv, Int.tdiv_eq_ediv_of_nonneg ha]
      have h2 : 0 ≤ a / 2 ^ k := Int.ediv_nonneg ha hp.le
      rw [abs_neg, abs_neg, abs_of_nonneg h2, abs_of_nonneg ha]
      exact ⟨Int.ediv_mul_le a hp.ne', Int.lt_ediv_add_one_mul_self a hp, by nlinarith⟩

example : asInt 0 (.float64 (.fin (-3) (-1))) = -1 := by decide

/-- C39, inconsistency: `Data.GetStringArray` and `AsStringArray` disagree on a list with an
element that is not a text: the first keeps an empty string for it. -/
theorem C39_refuted : ∃ (v : Value), dataGetStringArray (.obj [("k", v)]) ["k"] = ["a", ""] ∧ asStringArray v = [] :=
  ⟨.arr [.str "a", .int 1], by decide, by decide⟩

example : asStringArray (.arr [.str "a", .strPtr "b"]) = ["a", "b"] := by decide

/-! ### C41 -/

/-- C41: on text whose first byte is ASCII (or empty text), `Capitalize` and `Uncapitalize`
keep the length, change at most the first byte, are idempotent and absorb each other.
Missing: first characters outside ASCII, which are destroyed (`C41_refuted`). -/
theorem C41_capitalize_partial (s : List UInt8) (h : ∀ b ∈ s.head?, b < 128) :
    (capitalizeBytes s).length = s.length ∧ (capitalizeBytes s).tail = s.tail ∧
    capitalizeBytes (capitalizeBytes s) = capitalizeBytes s ∧
    (uncapitalizeBytes s).length = s.length ∧ (uncapitalizeBytes s).tail = s.tail ∧
    uncapitalizeBytes (uncapitalizeBytes s) = uncapitalizeBytes s ∧
    capitalizeBytes (uncapitalizeBytes s) = capitalizeBytes s ∧
    uncapitalizeBytes (capitalizeBytes s) = uncapitalizeBytes s := by
  cases s with
  | nil => decide
  | cons b r =>
    have hb : b < 128 := h b (by simp)
    have key : ∀ b : UInt8, b < 128 → ∃ u l : UInt8, upperByte b = [u] ∧ lowerByte b = [l] ∧ upperByte u = [u] ∧
        lowerByte l = [l] ∧ upperByte l = [u] ∧ lowerByte u = [l] := by
      intro b hb
      refine ⟨if 97 ≤ b ∧ b ≤ 122 then b - 32 else b, if 65 ≤ b ∧ b ≤ 90 then b + 32 else b, ?_⟩
      have all : ∀ n : Nat, n < 128 → (fun b : UInt8 =>
          upperByte b = [if 97 ≤ b ∧ b ≤ 122 then b - 32 else b] ∧
          lowerByte b = [if 65 ≤ b ∧ b ≤ 90 then b + 32 else b] ∧
          upperByte (if 97 ≤ b ∧ b ≤ 122 then b - 32 else b) = [if 97 ≤ b ∧ b ≤ 122 then b - 32 else b] ∧
          lowerByte (if 65 ≤ b ∧ b ≤ 90 then b + 32 else b) = [if 65 ≤ b ∧ b ≤ 90 then b + 32 else b] ∧
          upperByte (if 65 ≤ b ∧ b ≤ 90 then b + 32 else b) = [if 97 ≤ b ∧ b ≤ 122 then b - 32 else b] ∧
          lowerByte (if 97 ≤ b ∧ b ≤ 122 then b - 32 else b) = [if 65 ≤ b ∧ b ≤ 90 then b + 32 else b])
          (UInt8.ofNat n) := by decide
      have := all b.toNat (by simpa [UInt8.lt_iff_toNat_lt] using hb)
      simpa only [UInt8.ofNat_toNat] using this
    obtain ⟨u, l, h1, h2, h3, h4, h5, h6⟩ := key b hb
    simp [capitalizeBytes, uncapitalizeBytes, h1, h2, h3, h4, h5, h6]

/-- C41: what changes is exactly the case of an ASCII letter. -/
theorem C41_first_byte (b : UInt8) (r : List UInt8) (hb : b < 128) :
    ((97 ≤ b ∧ b ≤ 122) → capitalizeBytes (b :: r) = (b - 32) :: r) ∧
    (¬ (97 ≤ b ∧ b ≤ 122) → capitalizeBytes (b :: r) = b :: r) ∧
    ((65 ≤ b ∧ b ≤ 90) → uncapitalizeBytes (b :: r) = (b + 32) :: r) ∧
    (¬ (65 ≤ b ∧ b ≤ 90) → uncapitalizeBytes (b :: r) = b :: r) := by
  refine ⟨?_, ?_, ?_, ?_⟩ <;> intro h <;>
    simp [capitalizeBytes, uncapitalizeBytes, upperByte, lowerByte, hb, h]

/-- C41 refuted: the name "é" (bytes C3 A9) becomes four bytes that are not even UTF-8, and
capitalising twice differs from capitalising once. -/
theorem C41_refuted : capitalizeBytes [0xC3, 0xA9] = [0xEF, 0xBF, 0xBD, 0xA9] ∧
    capitalizeBytes (capitalizeBytes [0xC3, 0xA9]) ≠ capitalizeBytes [0xC3, 0xA9] := by decide

example : capitalizeBytes "fooBar".toUTF8.data.toList = "FooBar".toUTF8.data.toList := by decide

/-! ### C42 -/

/-- C42: unless force-overwrite is configured, no sequence of generator steps changes or
removes a file that exists before, whatever the operating system does. -/
theorem C42_no_overwrite (os : OS) (g : Gen) (ops : List GenOp)
    (hf : asBool (dataGet g.config ["force-overwrite"]) = false)
    (path content : String) (h : mget g.files path = some content) :
    mget (g.run os ops).files path = some content := by
  have step : ∀ (g : Gen) (op : GenOp), asBool (dataGet g.config ["force-overwrite"]) = false →
      mget g.files path = some content →
      (g.step os op).config = g.config ∧ mget (g.step os op).files path = some content := by
    intro g op hf h
    cases op with
    | writeFile p c =>
      simp only [Gen.step, Gen.writeFile]
      split_ifs with h1 h2
      · exact ⟨rfl, h⟩
      · exact ⟨rfl, h⟩
      · refine ⟨rfl, ?_⟩
        have hp : path ≠ p := by
          rintro rfl
          exact h1 ⟨hf, by simp [Gen.fileExists, h]⟩
        simp only
        rw [mget_mset_other (hne := hp), h]
    | emit s => simp only [Gen.step, Gen.emit]; split <;> exact ⟨rfl, h⟩
    | begin => simp only [Gen.step, Gen.begin]; split <;> exact ⟨rfl, h⟩
    | emitTemplate t =>
      simp only [Gen.step, Gen.emitTemplate, Gen.emit]
      split
      · exact ⟨rfl, h⟩
      · split
        · exact ⟨rfl, h⟩
        · split <;> exact ⟨rfl, h⟩
  unfold Gen.run
  induction ops generalizing g with
  | nil => exact h
  | cons op r ih =>
    obtain ⟨h1, h2⟩ := step g op hf h
    exact ih (g.step os op) (by rw [h1]; exact hf) h2

/-- C42: a path that exists but cannot be examined is not written either. -/
theorem C42_unreadable_untouched (os : OS) (g : Gen) (path content : String)
    (hf : asBool (dataGet g.config ["force-overwrite"]) = false) (hs : os.statFails path = true) :
    g.writeFile os path content = g := by
  unfold Gen.writeFile
  rw [if_pos ⟨hf, by simp [Gen.fileExists, hs]⟩]

/-- C42, text output: after an error, emitting has no effect until the error is cleared.
Missing: writing files, which goes on after an error and clears it (`C42_refuted`). -/
theorem C42_emit_after_error_partial (os : OS) (g : Gen) (e : String) (he : g.err = some e) (op : GenOp)
    (hop : ∀ p c, op ≠ .writeFile p c) : g.step os op = g ∧ g.end = "" := by
  refine ⟨?_, by simp [Gen.end, he]⟩
  cases op with
  | writeFile p c => exact absurd rfl (hop p c)
  | emit s => simp [Gen.step, Gen.emit, he]
  | begin => simp [Gen.step, Gen.begin, he]
  | emitTemplate t => simp [Gen.step, Gen.emitTemplate, he]

/-- C42 refuted in its second part: a second successful write is performed after an error
and erases the error. -/
theorem C42_refuted : ∃ (os : OS) (g : Gen) (ops : List GenOp),
    (g.run os (ops.take 1)).err ≠ none ∧ (g.run os ops).err = none ∧
    mget (g.run os ops).files "b" = some "text" :=
  ⟨{ statFails := fun _ => false, createFails := fun p => p = "a", written := fun _ c => c, writeErr := fun _ _ => none },
   { config := .null }, [.writeFile "a" "x", .writeFile "b" "text"], by decide, by decide, by decide⟩

example : ∃ (os : OS) (g : Gen), asBool (dataGet g.config ["force-overwrite"]) = false ∧
    mget g.files "Main.java" = some "mine" ∧
    mget (g.run os [.writeFile "Main.java" "generated", .writeFile "New.java" "generated"]).files "New.java"
      = some "generated" :=
  ⟨{ statFails := fun _ => false, createFails := fun _ => false, written := fun _ c => c, writeErr := fun _ _ => none },
   { config := .null, files := [("Main.java", "mine")] }, by decide, by decide, by decide⟩

/-! ### C43 -/

/-- C43: a path without query part is unchanged. -/
theorem C43_no_query (uri : List Char) (h : '?' ∉ uri) : stripMissing uri = uri := by
  simp [stripMissing, splitFirst_none.2 h]

theorem strip_items (path : List Char) (items : List (List Char)) (hp : '?' ∉ path) (hne : items ≠ [])
    (hi : ∀ i ∈ items, '&' ∉ i) :
    stripMissing (path ++ '?' :: joinWith '&' items) =
      if items.filter (fun i => !endsWith '=' i) = [] then path
      else path ++ '?' :: joinWith '&' (items.filter (fun i => !endsWith '=' i)) := by
  have h : splitFirst '?' (path ++ '?' :: joinWith '&' items) = some (path, joinWith '&' items) :=
    splitFirst_some.2 ⟨rfl, hp⟩
  simp only [stripMissing, h, splitAll_joinWith hne hi]

/-- C43, for query items `name=value` whose value does not end with `=`: exactly the items
with an empty value are removed, the others are kept unchanged and in order, the path is
kept, and no `?` remains when nothing is left.  Missing: values ending in `=`
(`C43_refuted_value_lost`). -/
theorem C43_strip_partial (path : List Char) (params : List (List Char × List Char)) (hp : '?' ∉ path)
    (hne : params ≠ []) (hamp : ∀ p ∈ params, '&' ∉ p.1 ∧ '&' ∉ p.2)
    (hlast : ∀ p ∈ params, p.2.getLast? ≠ some '=') :
    let show1 := fun p : List Char × List Char => p.1 ++ '=' :: p.2
    let kept := params.filter (fun p => p.2 ≠ [])
    stripMissing (path ++ '?' :: List.intercalate ['&'] (params.map show1)) =
      if kept = [] then path else path ++ '?' :: List.intercalate ['&'] (kept.map show1) := by
  intro show1 kept
  rw [← joinWith_eq, ← joinWith_eq, strip_items path _ hp (by simpa using hne)]
  · have e : (params.map show1).filter (fun i => !endsWith '=' i) = kept.map show1 := by
      rw [List.filter_map]
      congr 1
      apply List.filter_congr
      intro p hmem
      have hl := hlast p hmem
      simp only [Function.comp, show1, endsWith]
      rcases List.eq_nil_or_concat p.2 with h2 | ⟨a, b, h2⟩
      · simp [h2]
      · rw [h2] at hl
        rw [h2]
        have hb : b ≠ '=' := by simpa using hl
        have hg : (p.1 ++ '=' :: a.concat b).getLast? = some b := by
          rw [show p.1 ++ '=' :: a.concat b = (p.1 ++ '=' :: a) ++ [b] by simp]
          exact List.getLast?_concat ..
        rw [hg]
        simp [hb]
    rw [e]
    simp only [List.map_eq_nil_iff]
  · intro i hi
    obtain ⟨p, hpm, rfl⟩ := List.mem_map.1 hi
    have := hamp p hpm
    simp [show1, this.1, this.2]

/-- C43 refuted: a parameter whose value ends with `=` (such as base64 text) is dropped. -/
theorem C43_refuted_value_lost :
    stripMissing "/x?a=1&t=Zm9vYg==".toList = "/x?a=1".toList := by decide

/-- C43 refuted: a dangling `?` is kept when the query part is empty. -/
theorem C43_refuted_dangling : stripMissing "/x?".toList = "/x?".toList := by decide

example : stripMissing "/x?a=&b=2&c=".toList = "/x?b=2".toList :=
  C43_strip_partial "/x".toList [("a".toList, []), ("b".toList, "2".toList), ("c".toList, [])] (by decide) (by decide)
    (by decide) (by decide)

end Sadl.Props
