import Verif.Spec.SchemaJson
import Verif.Model.SchemaJson
import Verif.Lemmas.Json
import Verif.Lemmas.JsonValue
import Verif.Lemmas.UnparseOpts
/-
Lemmas for a model printed as JSON and loaded again.
-/
namespace Sadl
open Sadl.Spec Sadl.Props

/-! ### Integers -/

theorem digitChar_val {d : Nat} (h : d < 10) : '0' ≤ digitChar d ∧ digitChar d ≤ '9' ∧ (digitChar d = '0' → d = 0) ∧
    digitChar d ≠ '-' ∧ digitChar d ≠ '+' := by
  have : d = 0 ∨ d = 1 ∨ d = 2 ∨ d = 3 ∨ d = 4 ∨ d = 5 ∨ d = 6 ∨ d = 7 ∨ d = 8 ∨ d = 9 := by omega
  rcases this with rfl | rfl | rfl | rfl | rfl | rfl | rfl | rfl | rfl | rfl <;> decide

theorem decAux_digits : ∀ (fuel n : Nat), Digits (decAux fuel n)
  | 0, _ => by intro c hc; simp [decAux] at hc
  | fuel + 1, n => by
    intro c hc
    unfold decAux at hc
    split at hc
    · rename_i h
      simp only [List.mem_singleton] at hc
      subst hc
      exact ⟨(digitChar_val h).1, (digitChar_val h).2.1⟩
    · rcases List.mem_append.1 hc with h | h
      · exact decAux_digits fuel _ c h
      · simp only [List.mem_singleton] at h
        subst h
        have := digitChar_val (Nat.mod_lt n (by omega : 10 > 0))
        exact ⟨this.1, this.2.1⟩

/-- The first digit is zero only for zero. -/
theorem decAux_first : ∀ (fuel n : Nat), n < fuel → 0 < n → ∃ d r, 0 < d ∧ d < 10 ∧ decAux fuel n = digitChar d :: r
  | 0, n, h, _ => by omega
  | fuel + 1, n, h, h0 => by
    unfold decAux
    by_cases hn : n < 10
    · exact ⟨n, [], h0, hn, by rw [if_pos hn]⟩
    · obtain ⟨d, r, hd0, hd, e⟩ := decAux_first fuel (n / 10) (by omega) (by omega)
      exact ⟨d, r ++ [digitChar (n % 10)], hd0, hd, by rw [if_neg hn, e]; rfl⟩

theorem showNat_int (n : Nat) : showNat n = ['0'] ∨ ∃ c ds, showNat n = c :: ds ∧ c ≠ '0' ∧ Digits (showNat n) := by
  by_cases h : n = 0
  · subst h; left; decide
  · right
    obtain ⟨d, r, h0, hd, e⟩ := decAux_first (n + 1) n (by omega) (by omega)
    refine ⟨digitChar d, r, e, fun hc => ?_, decAux_digits _ _⟩
    have := (digitChar_val hd).2.2.1 hc
    omega

theorem showInt_number (n : Int) : JsonNumber (showInt n) := by
  unfold showInt
  split
  · exact ⟨['-'], showNat n.natAbs, [], [], by simp, Or.inr rfl, showNat_int _, Or.inl rfl, Or.inl rfl⟩
  · exact ⟨[], showNat n.natAbs, [], [], by simp, Or.inl rfl, showNat_int _, Or.inl rfl, Or.inl rfl⟩

theorem parseInt_showInt {bits : Nat} {n : Int} (h : IntRange bits n) : parseInt bits (String.ofList (showInt n)) = some n := by
  obtain ⟨h1, h2⟩ := h
  unfold showInt
  split
  · rename_i hneg
    obtain ⟨d, r, hd, e⟩ := decAux_head (n.natAbs + 1) n.natAbs (by omega)
    have hv : decDigits 0 (digitChar d :: r) = some n.natAbs := by rw [← e]; exact decDigits_decAux (n.natAbs + 1) n.natAbs (by omega)
    unfold parseInt showNat
    rw [String.toList_ofList, e]
    simp only [hv, if_true]
    have e2 : -(n.natAbs : Int) = n := by omega
    rw [e2, if_pos ⟨h1, h2⟩]
  · rename_i hpos
    have e : ((n.natAbs : Nat) : Int) = n := by omega
    have := parseInt_intText (bits := bits) (n := n.natAbs) (by rw [e]; exact h2)
    rw [e] at this
    exact this

/-! ### Literals -/

theorem asReadItems_eq (L : JLib) (xs : List Value) : asReadItems L xs = xs.map (asRead L) := by
  induction xs with
  | nil => rw [asReadItems]; rfl
  | cons x r ih => rw [asReadItems, ih]; rfl

theorem asReadMembers_eq (L : JLib) (xs : List (String × Value)) : asReadMembers L xs = xs.map fun p => (p.1, asRead L p.2) := by
  induction xs with
  | nil => rw [asReadMembers]; rfl
  | cons x r ih => obtain ⟨k, x⟩ := x; rw [asReadMembers, ih]; rfl

/-- The document of a literal: what it decodes to and how deep it is. -/
def LitDoc (L : JLib) (v : Value) (d : JDoc) : Prop :=
  jEncode L v = some d ∧ DocOk d ∧ jDecode L d = some (canon (asRead L v)) ∧ ∀ n, NestedAtMost n v → docDepth d ≤ n

theorem lit_items (L : JLib) (xs : List Value) (h : ∀ x ∈ xs, ∃ d, LitDoc L x d) :
    ∃ ds, jEncodeItems L xs = some ds ∧ jDecodeItems L ds = some (canonItems (asReadItems L xs)) ∧
      (∀ d ∈ ds, DocOk d) ∧ ∀ n, (∀ x ∈ xs, NestedAtMost n x) → ∀ d ∈ ds, docDepth d ≤ n := by
  induction xs with
  | nil => exact ⟨[], by rw [jEncodeItems], by rw [jDecodeItems, asReadItems, canonItems], by simp, by simp⟩
  | cons x r ih =>
    obtain ⟨d, h1, h2, h3, h4⟩ := h x (by simp)
    obtain ⟨ds, g1, g2, g3, g4⟩ := ih (fun y hy => h y (List.mem_cons_of_mem _ hy))
    refine ⟨d :: ds, by rw [jEncodeItems, h1, g1]; rfl, by rw [jDecodeItems, h3, g2, asReadItems, canonItems]; rfl, ?_, ?_⟩
    · intro e he
      rcases List.mem_cons.1 he with rfl | he
      · exact h2
      · exact g3 e he
    · intro n hn e he
      rcases List.mem_cons.1 he with rfl | he
      · exact h4 n (hn x (by simp))
      · exact g4 n (fun y hy => hn y (List.mem_cons_of_mem _ hy)) e he

theorem lit_members (L : JLib) (xs : List (String × Value)) (h : ∀ x ∈ xs, ∃ d, LitDoc L x.2 d) :
    ∃ ds, jEncodeMembers L xs = some ds ∧
      List.Forall₂ (fun a b => a.1 = b.1 ∧ jDecode L b.2 = some a.2) (canonMembers (asReadMembers L xs)) ds ∧
      (∀ d ∈ ds, DocOk d.2) ∧ ∀ n, (∀ x ∈ xs, NestedAtMost n x.2) → ∀ d ∈ ds, docDepth d.2 ≤ n := by
  induction xs with
  | nil => exact ⟨[], by rw [jEncodeMembers], by rw [asReadMembers, canonMembers]; exact .nil, by simp, by simp⟩
  | cons x r ih =>
    obtain ⟨k, x⟩ := x
    obtain ⟨d, h1, h2, h3, h4⟩ := h (k, x) (by simp)
    obtain ⟨ds, g1, g2, g3, g4⟩ := ih (fun y hy => h y (List.mem_cons_of_mem _ hy))
    refine ⟨(k, d) :: ds, by rw [jEncodeMembers, h1, g1]; rfl,
      by rw [asReadMembers, canonMembers]; exact .cons ⟨rfl, h3⟩ g2, ?_, ?_⟩
    · intro e he
      rcases List.mem_cons.1 he with rfl | he
      · exact h2
      · exact g3 e he
    · intro n hn e he
      rcases List.mem_cons.1 he with rfl | he
      · exact h4 n (hn (k, x) (by simp))
      · exact g4 n (fun y hy => hn y (List.mem_cons_of_mem _ hy)) e he

theorem lit_doc (L : JLib) {v : Value} (h : LiteralShaped L v) : ∃ d, LitDoc L v d := by
  induction h with
  | null => exact ⟨.null, by rw [jEncode], by simp [DocOk], by simp [jDecode, asRead, canon], fun n _ => by simp [docDepth]⟩
  | bool b => exact ⟨.bool b, by rw [jEncode], by simp [DocOk], by simp [jDecode, asRead, canon], fun n _ => by simp [docDepth]⟩
  | boolPtr b => exact ⟨.bool b, by rw [jEncode], by simp [DocOk], by simp [jDecode, asRead, canon], fun n _ => by simp [docDepth]⟩
  | str s => exact ⟨.str s, by rw [jEncode], by simp [DocOk], by simp [jDecode, asRead, canon], fun n _ => by simp [docDepth]⟩
  | strPtr s => exact ⟨.str s, by rw [jEncode], by simp [DocOk], by simp [jDecode, asRead, canon], fun n _ => by simp [docDepth]⟩
  | uuid s => exact ⟨.str s, by rw [jEncode], by simp [DocOk], by simp [jDecode, asRead, canon], fun n _ => by simp [docDepth]⟩
  | @dec d hd =>
    obtain ⟨h1, f, h2⟩ := hd
    refine ⟨.num (L.showDecimal d).toList, ?_, ?_, ?_, fun n _ => by simp [docDepth]⟩
    · rw [jEncode]; simp [jIsNumber, jNumber_of h1]
    · rw [DocOk]; exact jNumber_of h1
    · simp [jDecode, asRead, canon, h2]
  | @num f hf =>
    obtain ⟨h1, h2, h3⟩ := hf
    refine ⟨.num (L.showFloat f), ?_, ?_, ?_, fun n _ => by simp [docDepth]⟩
    · cases f with
      | inf b => exact absurd rfl (h1 b)
      | fin m e => rw [jEncode]; simp
    · rw [DocOk]; exact jNumber_of h2
    · simp [jDecode, asRead, canon, h3]
  | @arr xs _ ih =>
    obtain ⟨ds, h1, h2, h3, h4⟩ := lit_items L xs ih
    refine ⟨.arr ds, by rw [jEncode, h1]; rfl, by rw [DocOk, docsOk_iff]; exact h3, by rw [jDecode, h2, asRead, canon]; rfl, ?_⟩
    intro n hn
    obtain ⟨m, rfl, hm⟩ := (nested_arr n xs).1 hn
    rw [docDepth]
    have := (docsDepth_le ds m).2 (h4 m hm)
    omega
  | @obj kvs hnd hsh ih =>
    obtain ⟨ds, h1, h2, h3, h4⟩ := lit_members L kvs ih
    have hperm := jSort_perm ds
    refine ⟨.obj (jSort ds), by rw [jEncode, h1]; rfl, ?_, ?_, ?_⟩
    · rw [DocOk, membersOk_iff]
      intro d hd
      exact h3 d (hperm.mem_iff.1 hd)
    · have h5 := jSort_forall₂ (fun a b h => h.1) h2
      have h6 : ((jSort (canonMembers (asReadMembers L kvs))).map Prod.fst).Nodup := by
        rw [((jSort_perm _).map Prod.fst).nodup_iff, canonMembers_eq, asReadMembers_eq]
        simpa [List.map_map, Function.comp_def] using hnd
      rw [jDecode, decode_members L h5 [] (by simpa using h6), asRead, canon]
      rfl
    · intro n hn
      obtain ⟨m, rfl, hm⟩ := (nested_obj n kvs).1 hn
      rw [docDepth]
      have := (membersDepth_le (jSort ds) m).2 (fun d hd => h4 m hm d (hperm.mem_iff.1 hd))
      omega

theorem lit_same (L : JLib) {v : Value} (h : LiteralShaped L v) : LoadedLiteral L v (canon (asRead L v)) := by
  unfold LoadedLiteral
  induction h with
  | @arr xs _ ih =>
    rw [asRead, canon, canonItems_eq, asReadItems_eq]
    refine .arr (by simp) (fun i x y hx hy => ?_)
    rw [List.getElem?_map, hx, Option.map_some, Option.some.injEq] at hy
    subst hy
    obtain ⟨z, hz, rfl⟩ := List.mem_map.1 (List.mem_of_getElem? hx)
    exact ih z hz
  | @obj kvs hnd _ ih =>
    rw [asRead, canon, canonMembers_eq, asReadMembers_eq]
    have hnd' : ((kvs.map fun p => (p.1, asRead L p.2)).map Prod.fst).Nodup := by
      simpa [List.map_map, Function.comp_def] using hnd
    refine .obj ?_ (fun k x y hx hy => ?_)
    · have := (jSort_perm ((kvs.map fun p => (p.1, asRead L p.2)).map fun p => (p.1, canon p.2))).map Prod.fst
      simpa only [List.map_map, Function.comp_def] using this.symm
    · rw [(jSort_perm _).mem_iff, List.mem_map] at hy
      obtain ⟨⟨k', x'⟩, hm, he⟩ := hy
      simp only [Prod.mk.injEq] at he
      obtain ⟨rfl, rfl⟩ := he
      rw [nodup_pair hnd' hx hm]
      obtain ⟨⟨k2, z⟩, hz, he2⟩ := List.mem_map.1 hm
      simp only [Prod.mk.injEq] at he2
      obtain ⟨rfl, rfl⟩ := he2
      exact ih (k2, z) hz
  | _ => simp only [asRead, canon]; exact .same _

/-! ### Members -/

/-- Every member is a document that can be printed, nested at most `D` deep. -/
def JFine (D : Nat) (m : JMembers) : Prop := ∀ p ∈ m, DocOk p.2 ∧ docDepth p.2 ≤ D

theorem fine_append {D : Nat} {a b : JMembers} : JFine D (a ++ b) ↔ JFine D a ∧ JFine D b := by
  unfold JFine
  exact List.forall_mem_append

theorem fine_nil {D : Nat} : JFine D [] := by simp [JFine]

theorem fine_one {D : Nat} {k : String} {d : JDoc} : JFine D [(k, d)] ↔ DocOk d ∧ docDepth d ≤ D := by simp [JFine]

theorem fine_mono {D E : Nat} {m : JMembers} (h : JFine D m) (hl : D ≤ E) : JFine E m :=
  fun p hp => ⟨(h p hp).1, le_trans (h p hp).2 hl⟩

theorem fine_obj {D : Nat} {m : JMembers} (h : JFine D m) : DocOk (.obj m) ∧ docDepth (.obj m) ≤ D + 1 := by
  constructor
  · rw [DocOk, membersOk_iff]; exact fun p hp => (h p hp).1
  · rw [docDepth]; have := (membersDepth_le m D).2 (fun p hp => (h p hp).2); omega

theorem fine_arr {D : Nat} {ds : List JDoc} (h : ∀ d ∈ ds, DocOk d ∧ docDepth d ≤ D) : DocOk (.arr ds) ∧ docDepth (.arr ds) ≤ D + 1 := by
  constructor
  · rw [DocOk, docsOk_iff]; exact fun p hp => (h p hp).1
  · rw [docDepth]; have := (docsDepth_le ds D).2 (fun p hp => (h p hp).2); omega

theorem fine_jStr {D : Nat} {k s : String} : JFine D (jStr k s) := by simp [jStr, fine_one, DocOk, docDepth]

theorem fine_jOptStr {D : Nat} {k s : String} : JFine D (jOptStr k s) := by
  unfold jOptStr; split
  · exact fine_nil
  · simp [fine_one, DocOk, docDepth]

theorem fine_jOptBool {D : Nat} {k : String} {b : Bool} : JFine D (jOptBool k b) := by
  unfold jOptBool; split
  · simp [fine_one, DocOk, docDepth]
  · exact fine_nil

theorem fine_num {D : Nat} {k : String} {t : List Char} (h : JsonNumber t) : JFine D [(k, .num t)] := by
  rw [fine_one, DocOk]; exact ⟨jNumber_of h, by simp [docDepth]⟩

theorem fine_jInt32 {D : Nat} {k : String} {n : Int} : JFine D (jInt32 k n) := fine_num (showInt_number n)

theorem fine_jOptInt {D : Nat} {k : String} {n : Option Int} : JFine D (jOptInt k n) := by
  cases n with
  | none => exact fine_nil
  | some n => exact fine_num (showInt_number n)

theorem fine_jOptArr {D : Nat} {k : String} {ds : List JDoc} (h : ∀ d ∈ ds, DocOk d ∧ docDepth d ≤ D) : JFine (D + 1) (jOptArr k ds) := by
  unfold jOptArr; split
  · exact fine_nil
  · rw [fine_one]; exact fine_arr h

theorem fine_texts {D : Nat} {k : String} {xs : List String} : JFine (D + 1) (jOptArr k (xs.map .str)) := by
  refine fine_jOptArr fun d hd => ?_
  obtain ⟨s, _, rfl⟩ := List.mem_map.1 hd
  simp [DocOk, docDepth]

theorem fine_jAnnotations {D : Nat} {m : GoMap String} : JFine (D + 1) (jAnnotations m) := by
  unfold jAnnotations; split
  · exact fine_nil
  · rw [fine_one]
    refine fine_obj fun p hp => ?_
    obtain ⟨q, _, rfl⟩ := List.mem_map.1 ((jSort_perm _).mem_iff.1 hp)
    simp [DocOk, docDepth]

/-! ### Looking up members -/

theorem jLook_append (k : String) (a b : JMembers) : jLook k (a ++ b) = (jLook k b).or (jLook k a) := by
  induction a with
  | nil => simp [jLook]
  | cons p r ih =>
    obtain ⟨k', d⟩ := p
    rw [List.cons_append, jLook, ih, jLook]
    cases jLook k b <;> cases jLook k r <;> simp

theorem jLook_jStr (k k' s : String) : jLook k (jStr k' s) = if k' = k then some (.str s) else none := rfl

theorem jLook_jOptStr (k k' s : String) :
    jLook k (jOptStr k' s) = if k' = k then (if s = "" then none else some (.str s)) else none := by
  unfold jOptStr; split <;> simp [jLook]

theorem jLook_jOptBool (k k' : String) (b : Bool) :
    jLook k (jOptBool k' b) = if k' = k then (if b then some (.bool true) else none) else none := by
  unfold jOptBool; split <;> simp [jLook]

theorem jLook_jInt32 (k k' : String) (n : Int) : jLook k (jInt32 k' n) = if k' = k then some (.num (showInt n)) else none := rfl

theorem jLook_jOptInt (k k' : String) (n : Option Int) :
    jLook k (jOptInt k' n) = if k' = k then n.map (fun n => .num (showInt n)) else none := by
  cases n <;> simp [jOptInt, jLook]

theorem jLook_jOptArr (k k' : String) (ds : List JDoc) :
    jLook k (jOptArr k' ds) = if k' = k then (if ds.isEmpty then none else some (.arr ds)) else none := by
  unfold jOptArr; split <;> simp [jLook]

theorem jLook_jAnnotations (k : String) (m : GoMap String) :
    jLook k (jAnnotations m) = if "annotations" = k then
      (if m.isEmpty then none else some (.obj (jSort (m.map fun p => (p.1, .str p.2))))) else none := by
  unfold jAnnotations; split <;> simp [jLook]

/-- A member that may be left out. -/
def optMember (k : String) : Option JDoc → JMembers
  | none => []
  | some d => [(k, d)]

theorem jLook_optMember (k k' : String) (o : Option JDoc) : jLook k (optMember k' o) = if k' = k then o else none := by
  cases o <;> simp [optMember, jLook]

theorem readStr_some {k s : String} {m : JMembers} (h : jLook k m = some (.str s)) : readStr k m = some s := by
  unfold readStr; rw [h]

theorem readStr_opt {k s : String} {m : JMembers} (h : jLook k m = if s = "" then none else some (.str s)) :
    readStr k m = some s := by
  unfold readStr; rw [h]
  by_cases hs : s = ""
  · simp [hs]
  · simp [hs]

theorem readBool_opt {k : String} {b : Bool} {m : JMembers} (h : jLook k m = if b then some (.bool true) else none) :
    readBool k m = some b := by
  unfold readBool; rw [h]; cases b <;> simp

theorem readInt_opt {bits : Nat} {k : String} {o : Option Int} {m : JMembers} (h : jLook k m = o.map fun n => .num (showInt n))
    (hr : ∀ n ∈ o, IntRange bits n) : readInt bits k m = some o := by
  unfold readInt; rw [h]
  cases o with
  | none => rfl
  | some n => simp [parseInt_showInt (hr n rfl)]

theorem readAll_texts (xs : List String) : readAll readJText (xs.map .str) = some xs := by
  induction xs with
  | nil => rfl
  | cons x r ih => rw [List.map_cons, readAll, ih]; rfl

theorem readSlice_texts {k : String} {o : Option (List String)} {m : JMembers}
    (h : jLook k m = if ((o.getD []).map JDoc.str).isEmpty then none else some (.arr ((o.getD []).map .str))) :
    readSlice readJText k m = some (if o = some [] then none else o) := by
  unfold readSlice; rw [h]
  match o with
  | none => simp
  | some [] => simp
  | some (x :: r) =>
    simp only [Option.getD_some, List.map_cons, List.isEmpty_cons, Bool.false_eq_true, if_false]
    have := readAll_texts (x :: r)
    rw [List.map_cons] at this
    rw [this]
    simp

theorem readList_opt {α : Type} {f : JDoc → Option α} {k : String} {ds : List JDoc} {m : JMembers}
    (h : jLook k m = if ds.isEmpty then none else some (.arr ds)) : readList f k m = readAll f ds := by
  unfold readList readSlice; rw [h]
  cases ds with
  | nil => simp [readAll]
  | cons d r =>
    simp only [List.isEmpty_cons, Bool.false_eq_true, if_false]
    cases readAll f (d :: r) <;> rfl

theorem readEntries_texts (l : GoMap String) (acc : GoMap String) (hd : (acc.map Prod.fst ++ l.map Prod.fst).Nodup) :
    readEntries acc (l.map fun p => (p.1, .str p.2)) = some (acc ++ l) := by
  induction l generalizing acc with
  | nil => simp [readEntries]
  | cons p r ih =>
    obtain ⟨k, s⟩ := p
    have hk : k ∉ acc.map Prod.fst := by
      intro h
      rw [List.map_cons, List.nodup_append] at hd
      exact hd.2.2 k h k (by simp) rfl
    have e : mset acc k s = acc ++ [(k, s)] := by
      clear ih hd
      induction acc with
      | nil => rfl
      | cons q t ih2 =>
        obtain ⟨k', s'⟩ := q
        simp only [List.map_cons, List.mem_cons, not_or] at hk
        have : ¬ k' = k := fun h => hk.1 h.symm
        simp [mset, this, ih2 hk.2]
    rw [List.map_cons, readEntries]
    simp only [readJText, Option.bind_some]
    rw [e, ih (acc ++ [(k, s)]) (by simpa using hd)]
    simp

theorem jSort_map_str (l : GoMap String) : jSort (l.map fun p => (p.1, JDoc.str p.2)) = (jSort l).map fun p => (p.1, JDoc.str p.2) := by
  have hins : ∀ (x : String × String) (l : GoMap String),
      jInsert (x.1, JDoc.str x.2) (l.map fun p => (p.1, JDoc.str p.2)) = (jInsert x l).map fun p => (p.1, JDoc.str p.2) := by
    intro x l
    induction l with
    | nil => rfl
    | cons y r ih =>
      rw [List.map_cons, jInsert, jInsert]
      dsimp only
      split
      · rfl
      · rw [ih]; rfl
  induction l with
  | nil => rfl
  | cons x r ih => rw [List.map_cons, jSort, ih, jSort, hins]

theorem readAnnotations_opt {a : GoMap String} {m : JMembers} (hd : a.Distinct)
    (h : jLook "annotations" m = if a.isEmpty then none else some (.obj (jSort (a.map fun p => (p.1, .str p.2))))) :
    readAnnotations m = some (jSort a) := by
  unfold readAnnotations; rw [h]
  cases a with
  | nil => rfl
  | cons p r =>
    simp only [List.isEmpty_cons, Bool.false_eq_true, if_false]
    rw [jSort_map_str, readEntries_texts _ [] (by
      rw [List.map_nil, List.nil_append, ((jSort_perm _).map Prod.fst).nodup_iff]; exact hd)]
    rfl

theorem dec_member {lib : Lib} {L : JLib} {o : Option BigFloat} (k : String) (h : ∀ d ∈ o, JBoundOk lib L d) :
    ∃ x, jOptDec L k o = some (optMember k x) ∧ (∀ D, JFine D (optMember k x)) ∧
      ∀ m, jLook k m = x → readDec lib k m = some o := by
  cases o with
  | none => exact ⟨none, rfl, fun _ => fine_nil, fun m hm => by unfold readDec; rw [hm]⟩
  | some d =>
    obtain ⟨h1, h2⟩ := h d rfl
    refine ⟨some (.num (L.showDecimal d).toList), ?_, fun D => fine_num h1, fun m hm => ?_⟩
    · simp [jOptDec, jIsNumber, jNumber_of h1, optMember]
    · unfold readDec; rw [hm]
      simp [decimalUnmarshal, h2]

theorem val_member {L : JLib} {v : Value} {n : Nat} (k : String) (h : JLiteralOk L n v) :
    ∃ x, jOptVal L k v = some (optMember k x) ∧ JFine n (optMember k x) ∧
      ∀ m, jLook k m = x → ∃ w, readVal L k m = some w ∧ LoadedLiteral L v w := by
  obtain ⟨h1, h2⟩ := h
  by_cases hv : v = .null
  · subst hv
    refine ⟨none, rfl, fine_nil, fun m hm => ⟨.null, by unfold readVal; rw [hm], ?_⟩⟩
    unfold LoadedLiteral
    simp only [asRead]
    exact .same _
  · obtain ⟨d, g1, g2, g3, g4⟩ := lit_doc L h1
    refine ⟨some d, ?_, ?_, fun m hm => ⟨canon (asRead L v), by unfold readVal; rw [hm]; exact g3, lit_same L h1⟩⟩
    · have : jOptVal L k v = (jEncode L v).map fun d => [(k, d)] := by
        cases v <;> first | rfl | exact absurd rfl hv
      rw [this, g1]; rfl
    · exact fine_one.2 ⟨g2, g4 n h2⟩

/-! ### Lists of structures -/

theorem docsOf_ok {α : Type} {f : α → Option JMembers} {Q : α → JMembers → Prop} {xs : List α}
    (h : ∀ x ∈ xs, ∃ d, f x = some d ∧ Q x d) :
    ∃ ds : List JMembers, docsOf f xs = some (ds.map .obj) ∧ List.Forall₂ Q xs ds := by
  induction xs with
  | nil => exact ⟨[], rfl, .nil⟩
  | cons x r ih =>
    obtain ⟨d, h1, h2⟩ := h x (by simp)
    obtain ⟨ds, g1, g2⟩ := ih (fun y hy => h y (List.mem_cons_of_mem _ hy))
    exact ⟨d :: ds, by rw [docsOf, h1, g1]; rfl, .cons h2 g2⟩

theorem docs_fine {α : Type} {Q : α → JMembers → Prop} {xs : List α} {ds : List JMembers} {D : Nat}
    (h : List.Forall₂ Q xs ds) (hq : ∀ x d, Q x d → JFine D d) (k : String) : JFine (D + 2) (jOptArr k (ds.map .obj)) := by
  refine fine_jOptArr fun d hd => ?_
  obtain ⟨m, hm, rfl⟩ := List.mem_map.1 hd
  have : ∃ x, Q x m := by
    clear hd
    induction h with
    | nil => simp at hm
    | cons hab _ ih =>
      rcases List.mem_cons.1 hm with rfl | hm
      · exact ⟨_, hab⟩
      · exact ih hm
  obtain ⟨x, hx⟩ := this
  exact fine_obj (hq x m hx)

theorem readAll_ok {α β : Type} {Q : α → JMembers → Prop} {R : α → β → Prop} {g : JMembers → Option β} {xs : List α}
    {ds : List JMembers} (h : List.Forall₂ Q xs ds) (hq : ∀ x d, Q x d → ∃ y, g d = some y ∧ R x y) :
    ∃ ys, readAll (readObj g) (ds.map .obj) = some ys ∧ List.Forall₂ R xs ys := by
  induction h with
  | nil => exact ⟨[], rfl, .nil⟩
  | cons hab _ ih =>
    obtain ⟨y, h1, h2⟩ := hq _ _ hab
    obtain ⟨ys, g1, g2⟩ := ih
    exact ⟨y :: ys, by rw [List.map_cons, readAll, readObj, h1, g1]; rfl, .cons h2 g2⟩

/-- Writing a list of structures and reading it back, in one step. -/
theorem list_ok {α β : Type} {f : α → Option JMembers} {R : α → β → Prop} {xs : List α} {D : Nat} {S : (JMembers → Option β) → Prop}
    (h : ∀ x ∈ xs, ∃ d, f x = some d ∧ JFine D d ∧ ∀ g, S g → ∃ y, g d = some y ∧ R x y) :
    ∃ ds, docsOf f xs = some ds ∧ (∀ k, JFine (D + 2) (jOptArr k ds)) ∧
      ∀ g, S g → ∃ ys, (∀ k m, (jLook k m = if ds.isEmpty then none else some (.arr ds)) → readList (readObj g) k m = some ys) ∧
        List.Forall₂ R xs ys := by
  obtain ⟨ds, h1, h2⟩ := docsOf_ok h
  refine ⟨ds.map .obj, h1, fun k => docs_fine h2 (fun _ _ hh => hh.1) k, fun g hg => ?_⟩
  obtain ⟨ys, g1, g2⟩ := readAll_ok (g := g) h2 (fun x d hh => hh.2 g hg)
  exact ⟨ys, fun k m hm => by rw [readList_opt hm, g1], g2⟩

theorem fieldDocs_eq (L : JLib) (xs : List StructFieldDef) : fieldDocs L xs = docsOf (fieldMembers L) xs := by
  induction xs with
  | nil => rw [fieldDocs, docsOf]
  | cons x r ih => rw [fieldDocs, docsOf, ih]

theorem variantDocs_eq (L : JLib) (xs : List UnionVariantDef) : variantDocs L xs = docsOf (variantMembers L) xs := by
  induction xs with
  | nil => rw [variantDocs, docsOf]
  | cons x r ih => rw [variantDocs, docsOf, ih]

theorem element_ok {e : EnumElementDef} (h : e.annotations.Distinct) : ∃ e', readObj readElement (elementDoc e) = some e' ∧ LoadedElement e e' := by
  refine ⟨{ symbol := e.symbol, comment := e.comment, annotations := jSort e.annotations }, ?_, rfl, rfl, jSort_perm _⟩
  rw [elementDoc, readObj, readElement]
  rw [readStr_some (k := "symbol") (s := e.symbol) (by simp [jLook_append, jLook_jStr, jLook_jOptStr, jLook_jAnnotations]),
    readStr_opt (k := "comment") (s := e.comment) (by simp [jLook_append, jLook_jStr, jLook_jOptStr, jLook_jAnnotations]),
    readAnnotations_opt h (by simp [jLook_append, jLook_jStr, jLook_jOptStr, jLook_jAnnotations])]
  rfl

theorem elements_ok {xs : List EnumElementDef} (h : ∀ e ∈ xs, e.annotations.Distinct) :
    ∃ ys, readAll (readObj readElement) (xs.map elementDoc) = some ys ∧ List.Forall₂ LoadedElement xs ys := by
  induction xs with
  | nil => exact ⟨[], rfl, .nil⟩
  | cons x r ih =>
    obtain ⟨y, h1, h2⟩ := element_ok (h x (by simp))
    obtain ⟨ys, g1, g2⟩ := ih (fun e he => h e (List.mem_cons_of_mem _ he))
    exact ⟨y :: ys, by rw [List.map_cons, readAll, h1, g1]; rfl, .cons h2 g2⟩

theorem fine_elements {xs : List EnumElementDef} {D : Nat} {k : String} : JFine (D + 3) (jOptArr k (xs.map elementDoc)) := by
  refine fine_jOptArr fun d hd => ?_
  obtain ⟨e, _, rfl⟩ := List.mem_map.1 hd
  refine fine_obj ?_
  simp only [fine_append]
  exact ⟨⟨fine_jStr, fine_jOptStr⟩, fine_jAnnotations⟩

/-! ### Type specifications -/

/-- The members of a type specification. -/
def specKeys : List String :=
  ["type", "pattern", "values", "minSize", "maxSize", "fields", "elements", "min", "max", "items", "keys", "variants", "unit", "value", "reference"]

/-- What writing a type specification gives: members that can be printed, and that are read back
even if other members come before them. -/
def SpecDoc (lib : Lib) (L : JLib) (n : Nat) (ts : TypeSpec) (sp : JMembers) : Prop :=
  specMembers L ts = some sp ∧ JFine (2 * n + 1) sp ∧ (∀ k, k ∉ specKeys → jLook k sp = none) ∧
    ∀ pre N, (∀ k ∈ specKeys, jLook k pre = none) → n ≤ N →
      ∃ ts', readSpec lib L N (pre ++ sp) = some ts' ∧ LoadedSpec L ts ts'

theorem field_ok {lib : Lib} {L : JLib} {n : Nat} {f : StructFieldDef} {sp : JMembers} (ha : f.annotations.Distinct)
    (hd : JLiteralOk L n f.default) (hs : SpecDoc lib L n f.ts sp) :
    ∃ d, fieldMembers L f = some d ∧ JFine (2 * n + 1) d ∧
      (∀ k, k ∉ specKeys → k ∉ ["name", "comment", "annotations", "required", "default"] → jLook k d = none) ∧
      ∀ pre N, (∀ k, k ∈ specKeys ∨ k ∈ ["name", "comment", "annotations", "required", "default"] → jLook k pre = none) → n ≤ N →
      ∃ g, readField L (readSpec lib L N) (pre ++ d) = some g ∧ LoadedField L f g := by
  obtain ⟨name, comment, annotations, required, dflt, ts⟩ := f
  obtain ⟨h1, h2, h3, h4⟩ := hs
  obtain ⟨x, d1, d2, d3⟩ := val_member "default" hd
  refine ⟨_, by rw [fieldMembers, d1, h1]; rfl, ?_, ?_, ?_⟩
  · simp only [fine_append]
    exact ⟨⟨⟨⟨⟨fine_jStr, fine_jOptStr⟩, fine_jAnnotations⟩, fine_jOptBool⟩, fine_mono d2 (by omega)⟩, h2⟩
  · intro k hk hk2
    simp only [List.mem_cons, List.not_mem_nil, or_false, not_or] at hk2
    simp [jLook_append, jLook_jStr, jLook_jOptStr, jLook_jAnnotations, jLook_jOptBool, jLook_optMember, h3 k hk, Ne.symm hk2.1,
      Ne.symm hk2.2.1, Ne.symm hk2.2.2.1, Ne.symm hk2.2.2.2.1, Ne.symm hk2.2.2.2.2]
  · intro pre N hpre hN
    have e3 : ∀ k, k ∈ ["name", "comment", "annotations", "required", "default"] → jLook k sp = none := by
      intro k hk
      refine h3 k ?_
      simp only [List.mem_cons, List.not_mem_nil, or_false] at hk
      rcases hk with rfl | rfl | rfl | rfl | rfl <;> decide
    have p3 : ∀ k, k ∈ ["name", "comment", "annotations", "required", "default"] → jLook k pre = none := fun k hk => hpre k (Or.inr hk)
    obtain ⟨ts', s1, s2⟩ := h4 (pre ++ (jStr "name" name ++ jOptStr "comment" comment ++ jAnnotations annotations ++
      jOptBool "required" required ++ optMember "default" x)) N (by
        intro k hk
        rw [jLook_append, hpre k (Or.inl hk), Option.or_none]
        simp only [specKeys, List.mem_cons, List.not_mem_nil, or_false] at hk
        rcases hk with rfl | rfl | rfl | rfl | rfl | rfl | rfl | rfl | rfl | rfl | rfl | rfl | rfl | rfl | rfl <;>
          simp [jLook_append, jLook_jStr, jLook_jOptStr, jLook_jAnnotations, jLook_jOptBool, jLook_optMember]) hN
    rw [List.append_assoc] at s1
    obtain ⟨w, w1, w2⟩ := d3 (pre ++ (jStr "name" name ++ jOptStr "comment" comment ++ jAnnotations annotations ++
      jOptBool "required" required ++ optMember "default" x ++ sp)) (by
        rw [jLook_append, jLook_append, e3 _ (by simp), p3 _ (by simp)]
        simp [jLook_append, jLook_jStr, jLook_jOptStr, jLook_jAnnotations, jLook_jOptBool, jLook_optMember])
    refine ⟨⟨name, comment, jSort annotations, required, w, ts'⟩, ?_, rfl, rfl, jSort_perm annotations, rfl, w2, s2⟩
    rw [readField, w1, s1,
      readStr_some (k := "name") (s := name) (by
        rw [jLook_append, jLook_append, e3 _ (by simp), p3 _ (by simp)]
        simp [jLook_append, jLook_jStr, jLook_jOptStr, jLook_jAnnotations, jLook_jOptBool, jLook_optMember]),
      readStr_opt (k := "comment") (s := comment) (by
        rw [jLook_append, jLook_append, e3 _ (by simp), p3 _ (by simp)]
        simp [jLook_append, jLook_jStr, jLook_jOptStr, jLook_jAnnotations, jLook_jOptBool, jLook_optMember]),
      readBool_opt (k := "required") (b := required) (by
        rw [jLook_append, jLook_append, e3 _ (by simp), p3 _ (by simp)]
        simp [jLook_append, jLook_jStr, jLook_jOptStr, jLook_jAnnotations, jLook_jOptBool, jLook_optMember]),
      readAnnotations_opt ha (by
        rw [jLook_append, jLook_append, e3 _ (by simp), p3 _ (by simp)]
        simp [jLook_append, jLook_jStr, jLook_jOptStr, jLook_jAnnotations, jLook_jOptBool, jLook_optMember])]
    rfl

/-- A structure with a name, a comment, annotations and a type specification. -/
theorem named_ok {lib : Lib} {L : JLib} {n : Nat} {name comment : String} {annotations : GoMap String} {ts : TypeSpec} {sp : JMembers}
    (ha : annotations.Distinct) (hs : SpecDoc lib L n ts sp) :
    JFine (2 * n + 1) (jStr "name" name ++ jOptStr "comment" comment ++ jAnnotations annotations ++ sp) ∧
    readStr "name" (jStr "name" name ++ jOptStr "comment" comment ++ jAnnotations annotations ++ sp) = some name ∧
    readStr "comment" (jStr "name" name ++ jOptStr "comment" comment ++ jAnnotations annotations ++ sp) = some comment ∧
    readAnnotations (jStr "name" name ++ jOptStr "comment" comment ++ jAnnotations annotations ++ sp) = some (jSort annotations) ∧
    ∀ N, n ≤ N → ∃ ts', readSpec lib L N (jStr "name" name ++ jOptStr "comment" comment ++ jAnnotations annotations ++ sp) = some ts' ∧
      LoadedSpec L ts ts' := by
  obtain ⟨h1, h2, h3, h4⟩ := hs
  refine ⟨?_, readStr_some ?_, readStr_opt ?_, readAnnotations_opt ha ?_, fun N hN => h4 _ N ?_ hN⟩
  · simp only [fine_append]
    exact ⟨⟨⟨fine_jStr, fine_jOptStr⟩, fine_jAnnotations⟩, h2⟩
  · rw [jLook_append, h3 _ (by decide)]; simp [jLook_append, jLook_jStr, jLook_jOptStr, jLook_jAnnotations]
  · rw [jLook_append, h3 _ (by decide)]; simp [jLook_append, jLook_jStr, jLook_jOptStr, jLook_jAnnotations]
  · rw [jLook_append, h3 _ (by decide)]; simp [jLook_append, jLook_jStr, jLook_jOptStr, jLook_jAnnotations]
  · intro k hk
    simp only [specKeys, List.mem_cons, List.not_mem_nil, or_false] at hk
    rcases hk with rfl | rfl | rfl | rfl | rfl | rfl | rfl | rfl | rfl | rfl | rfl | rfl | rfl | rfl | rfl <;>
      simp [jLook_append, jLook_jStr, jLook_jOptStr, jLook_jAnnotations]

theorem variant_ok {lib : Lib} {L : JLib} {n : Nat} {v : UnionVariantDef} {sp : JMembers} (ha : v.annotations.Distinct)
    (hs : SpecDoc lib L n v.ts sp) :
    ∃ d, variantMembers L v = some d ∧ JFine (2 * n + 1) d ∧
      ∀ N, n ≤ N → ∃ w, readVariant (readSpec lib L N) d = some w ∧
        (w.name = v.name ∧ w.comment = v.comment ∧ w.annotations.Perm v.annotations) ∧ LoadedSpec L v.ts w.ts := by
  obtain ⟨name, comment, annotations, ts⟩ := v
  obtain ⟨h1, h2, h3, h4, h5⟩ := named_ok (name := name) (comment := comment) ha hs
  refine ⟨_, by rw [variantMembers, hs.1]; rfl, h1, fun N hN => ?_⟩
  obtain ⟨ts', s1, s2⟩ := h5 N hN
  exact ⟨⟨name, comment, jSort annotations, ts'⟩, by rw [readVariant, h2, h3, h4, s1]; rfl, ⟨rfl, rfl, jSort_perm _⟩, s2⟩

theorem forall₂_get {α β : Type} {R : α → β → Prop} {xs : List α} {ys : List β} (h : List.Forall₂ R xs ys) :
    ∀ (i : Nat) x y, xs[i]? = some x → ys[i]? = some y → R x y := by
  induction h with
  | nil => intro i x y hx; simp at hx
  | cons hab _ ih =>
    intro i x y hx hy
    cases i with
    | zero => simp at hx hy; subst hx; subst hy; exact hab
    | succ i => exact ih i x y (by simpa using hx) (by simpa using hy)

theorem spec_ok {lib : Lib} {L : JLib} {n : Nat} {ts : TypeSpec} (h : JSpecOk lib L n ts) : ∃ sp, SpecDoc lib L n ts sp := by
  induction h with
  | @mk n ts hmin hmax hms hxs hel hf _ hv _ ihf ihv =>
    obtain ⟨type, pattern, values, minSize, maxSize, fields, elements, min, max, items, keys, variants, unit, value, reference⟩ := ts
    dsimp only at hmin hmax hms hxs hel hf hv ihf ihv
    obtain ⟨x, x1, x2, x3⟩ := dec_member "min" hmin
    obtain ⟨y, y1, y2, y3⟩ := dec_member "max" hmax
    obtain ⟨fs, f1, f2, f3⟩ := list_ok (f := fieldMembers L) (xs := fields) (D := 2 * n + 1) (R := LoadedField L)
      (S := fun g => ∃ N, n ≤ N ∧ g = readField L (readSpec lib L N)) (by
        intro f hfm
        obtain ⟨sp, hsp⟩ := ihf f hfm
        obtain ⟨d, d1, d2, _, d3⟩ := field_ok (hf f hfm).1 (hf f hfm).2 hsp
        refine ⟨d, d1, d2, ?_⟩
        rintro g ⟨N, hN, rfl⟩
        exact d3 [] N (fun _ _ => rfl) hN)
    obtain ⟨vs, v1, v2, v3⟩ := list_ok (f := variantMembers L) (xs := variants) (D := 2 * n + 1)
      (R := fun v w : UnionVariantDef => (w.name = v.name ∧ w.comment = v.comment ∧ w.annotations.Perm v.annotations) ∧ LoadedSpec L v.ts w.ts)
      (S := fun g => ∃ N, n ≤ N ∧ g = readVariant (readSpec lib L N)) (by
        intro v hvm
        obtain ⟨sp, hsp⟩ := ihv v hvm
        obtain ⟨d, d1, d2, d3⟩ := variant_ok (hv v hvm) hsp
        refine ⟨d, d1, d2, ?_⟩
        rintro g ⟨N, hN, rfl⟩
        exact d3 N hN)
    refine ⟨_, by rw [specMembers, fieldDocs_eq, variantDocs_eq, f1, x1, y1, v1]; rfl, ?_, ?_, ?_⟩
    · simp only [fine_append]
      have e : 2 * (n + 1) + 1 = (2 * n + 1) + 2 := by omega
      rw [e]
      exact ⟨⟨⟨⟨⟨⟨⟨⟨⟨⟨⟨⟨⟨⟨fine_jStr, fine_jOptStr⟩, fine_texts⟩, fine_jOptInt⟩, fine_jOptInt⟩, f2 _⟩, fine_elements⟩,
        x2 _⟩, y2 _⟩, fine_jOptStr⟩, fine_jOptStr⟩, v2 _⟩, fine_jOptStr⟩, fine_jOptStr⟩, fine_jOptStr⟩
    · intro k hk
      simp only [specKeys, List.mem_cons, List.not_mem_nil, or_false, not_or] at hk
      obtain ⟨k1, k2, k3, k4, k5, k6, k7, k8, k9, k10, k11, k12, k13, k14, k15⟩ := hk
      simp [jLook_append, jLook_jStr, jLook_jOptStr, jLook_jOptArr, jLook_jOptInt, jLook_optMember, Ne.symm k1, Ne.symm k2, Ne.symm k3,
        Ne.symm k4, Ne.symm k5, Ne.symm k6, Ne.symm k7, Ne.symm k8, Ne.symm k9, Ne.symm k10, Ne.symm k11, Ne.symm k12, Ne.symm k13,
        Ne.symm k14, Ne.symm k15]
    · intro pre N hpre hN
      obtain ⟨N, rfl⟩ : ∃ k, N = k + 1 := ⟨N - 1, by omega⟩
      have hN' : n ≤ N := by omega
      obtain ⟨fields', g1, g2⟩ := f3 _ ⟨N, hN', rfl⟩
      obtain ⟨variants', w1, w2⟩ := v3 _ ⟨N, hN', rfl⟩
      obtain ⟨elements', l1, l2⟩ := elements_ok hel
      generalize hM : pre ++ (jStr "type" type ++ jOptStr "pattern" pattern ++ jOptArr "values" ((values.getD []).map .str) ++
        jOptInt "minSize" minSize ++ jOptInt "maxSize" maxSize ++ jOptArr "fields" fs ++
        jOptArr "elements" (elements.map elementDoc) ++ optMember "min" x ++ optMember "max" y ++ jOptStr "items" items ++
        jOptStr "keys" keys ++ jOptArr "variants" vs ++ jOptStr "unit" unit ++ jOptStr "value" value ++
        jOptStr "reference" reference) = M
      have look : ∀ k ∈ specKeys, jLook k M = jLook k (jStr "type" type ++ jOptStr "pattern" pattern ++
        jOptArr "values" ((values.getD []).map .str) ++
        jOptInt "minSize" minSize ++ jOptInt "maxSize" maxSize ++ jOptArr "fields" fs ++
        jOptArr "elements" (elements.map elementDoc) ++ optMember "min" x ++ optMember "max" y ++ jOptStr "items" items ++
        jOptStr "keys" keys ++ jOptArr "variants" vs ++ jOptStr "unit" unit ++ jOptStr "value" value ++
        jOptStr "reference" reference) := by
        intro k hk
        rw [← hM, jLook_append, hpre k hk, Option.or_none]
      simp only [jLook_append, jLook_jStr, jLook_jOptStr, jLook_jOptArr, jLook_jOptInt, jLook_optMember] at look
      refine ⟨⟨type, pattern, if values = some [] then none else values, minSize, maxSize, fields', elements', min, max, items, keys,
        variants', unit, value, reference⟩, ?_, ?_⟩
      · rw [readSpec, readSpecWith,
          readStr_some (k := "type") (s := type) (by rw [look _ (by decide)]; simp),
          readStr_opt (k := "pattern") (s := pattern) (by rw [look _ (by decide)]; simp),
          readSlice_texts (k := "values") (o := values) (by rw [look _ (by decide)]; simp),
          readInt_opt (k := "minSize") (o := minSize) (by rw [look _ (by decide)]; simp) hms,
          readInt_opt (k := "maxSize") (o := maxSize) (by rw [look _ (by decide)]; simp) hxs,
          g1 "fields" M (by rw [look _ (by decide)]; simp),
          readList_opt (k := "elements") (ds := elements.map elementDoc) (by rw [look _ (by decide)]; simp), l1,
          x3 M (by rw [look _ (by decide)]; simp),
          y3 M (by rw [look _ (by decide)]; simp),
          readStr_opt (k := "items") (s := items) (by rw [look _ (by decide)]; simp),
          readStr_opt (k := "keys") (s := keys) (by rw [look _ (by decide)]; simp),
          w1 "variants" M (by rw [look _ (by decide)]; simp),
          readStr_opt (k := "unit") (s := unit) (by rw [look _ (by decide)]; simp),
          readStr_opt (k := "value") (s := value) (by rw [look _ (by decide)]; simp),
          readStr_opt (k := "reference") (s := reference) (by rw [look _ (by decide)]; simp)]
        rfl
      · refine .mk rfl rfl rfl rfl rfl rfl rfl rfl rfl rfl rfl rfl l2 ?_ ?_ ?_ ?_
        · exact List.Forall₂.imp (fun _ _ hh => ⟨hh.1, hh.2.1, hh.2.2.1, hh.2.2.2.1, hh.2.2.2.2.1⟩) g2
        · exact fun i f g hf hg => (forall₂_get g2 i f g hf hg).2.2.2.2.2
        · exact List.Forall₂.imp (fun _ _ hh => hh.1) w2
        · exact fun i f g hf hg => (forall₂_get w2 i f g hf hg).2

/-! ### The schema -/

/-- The type specification of a structure other than a type specification. -/
theorem typeSpec_le {n : Nat} (h : n ≤ 4996) : n ≤ jMaxDepth := le_trans h (by decide)

theorem field_ok' {lib : Lib} {L : JLib} {n : Nat} {f : StructFieldDef} (hn : n ≤ 4996) (h : JFieldOk lib L n f) :
    ∃ d, fieldMembers L f = some d ∧ JFine (2 * n + 1) d ∧
      (∀ k, k ∉ specKeys → k ∉ ["name", "comment", "annotations", "required", "default"] → jLook k d = none) ∧
      ∀ pre, (∀ k, k ∈ specKeys ∨ k ∈ ["name", "comment", "annotations", "required", "default"] → jLook k pre = none) →
      ∃ g, readField L (readTypeSpec lib L) (pre ++ d) = some g ∧ LoadedField L f g := by
  obtain ⟨ha, hd, hs⟩ := h
  obtain ⟨sp, hsp⟩ := spec_ok hs
  obtain ⟨d, d1, d2, d3, d4⟩ := field_ok ha hd hsp
  exact ⟨d, d1, d2, d3, fun pre hp => d4 pre jMaxDepth hp (typeSpec_le hn)⟩

theorem type_ok {lib : Lib} {L : JLib} {n : Nat} {t : TypeDef} (hn : n ≤ 4996) (h : t.annotations.Distinct ∧ JSpecOk lib L n t.ts) :
    ∃ d, typeMembers L t = some d ∧ JFine (2 * n + 1) d ∧ ∃ u, readType lib L d = some u ∧
      (u.name = t.name ∧ u.comment = t.comment ∧ u.annotations.Perm t.annotations ∧ LoadedSpec L t.ts u.ts) := by
  obtain ⟨sp, hsp⟩ := spec_ok h.2
  obtain ⟨h1, h2, h3, h4, h5⟩ := named_ok (name := t.name) (comment := t.comment) h.1 hsp
  refine ⟨_, by rw [typeMembers, hsp.1]; rfl, h1, ?_⟩
  obtain ⟨ts', s1, s2⟩ := h5 jMaxDepth (typeSpec_le hn)
  exact ⟨⟨t.name, t.comment, jSort t.annotations, ts'⟩, by rw [readType, readTypeSpec, h2, h3, h4, s1]; rfl, rfl, rfl, jSort_perm _, s2⟩

theorem output_ok {lib : Lib} {L : JLib} {n : Nat} {t : OperationOutput} (hn : n ≤ 4996)
    (h : t.annotations.Distinct ∧ JSpecOk lib L n t.ts) :
    ∃ d, outputMembers L t = some d ∧ JFine (2 * n + 1) d ∧ ∃ u, readOutput lib L d = some u ∧
      (u.name = t.name ∧ u.comment = t.comment ∧ u.annotations.Perm t.annotations ∧ LoadedSpec L t.ts u.ts) := by
  obtain ⟨sp, hsp⟩ := spec_ok h.2
  obtain ⟨h1, h2, h3, h4, h5⟩ := named_ok (name := t.name) (comment := t.comment) h.1 hsp
  refine ⟨_, by rw [outputMembers, hsp.1]; rfl, h1, ?_⟩
  obtain ⟨ts', s1, s2⟩ := h5 jMaxDepth (typeSpec_le hn)
  exact ⟨⟨t.name, t.comment, jSort t.annotations, ts'⟩, by rw [readOutput, readTypeSpec, h2, h3, h4, s1]; rfl, rfl, rfl, jSort_perm _, s2⟩

theorem example_ok {L : JLib} {n : Nat} {e : ExampleDef} (h : e.annotations.Distinct ∧ JLiteralOk L n e.example) :
    ∃ d, exampleMembers L e = some d ∧ JFine (n + 1) d ∧ ∃ f, readExample L d = some f ∧
      (f.target = e.target ∧ f.name = e.name ∧ f.comment = e.comment ∧ f.annotations.Perm e.annotations ∧
        LoadedLiteral L e.example f.example) := by
  obtain ⟨x, d1, d2, d3⟩ := val_member "example" h.2
  refine ⟨_, by rw [exampleMembers, d1]; rfl, ?_, ?_⟩
  · simp only [fine_append]
    exact ⟨⟨⟨⟨fine_jStr, fine_jOptStr⟩, fine_mono d2 (by omega)⟩, fine_jOptStr⟩, fine_jAnnotations⟩
  · try dsimp only
    generalize hM : jStr "target" e.target ++ jOptStr "name" e.name ++ optMember "example" x ++ jOptStr "comment" e.comment ++
      jAnnotations e.annotations = M
    have look : ∀ k, jLook k M = _ := fun k => congrArg (jLook k) hM.symm
    simp only [jLook_append, jLook_jStr, jLook_jOptStr, jLook_jAnnotations, jLook_optMember] at look
    obtain ⟨w, w1, w2⟩ := d3 M (by rw [look]; simp)
    refine ⟨⟨e.target, e.name, w, e.comment, jSort e.annotations⟩, ?_, rfl, rfl, rfl, jSort_perm _, w2⟩
    rw [readExample, readStr_some (k := "target") (s := e.target) (by rw [look]; simp),
      readStr_opt (k := "name") (s := e.name) (by rw [look]; simp), w1,
      readStr_opt (k := "comment") (s := e.comment) (by rw [look]; simp),
      readAnnotations_opt h.1 (by rw [look]; simp)]
    rfl

theorem operation_ok {lib : Lib} {L : JLib} {n : Nat} {o : OperationDef} (hn : n ≤ 4996) (ha : o.annotations.Distinct)
    (hi : ∀ i ∈ o.inputs, JFieldOk lib L n i) (ho : ∀ r ∈ o.outputs, r.annotations.Distinct ∧ JSpecOk lib L n r.ts) :
    ∃ d, operationMembers L o = some d ∧ JFine (2 * n + 3) d ∧ ∃ p, readOperation lib L d = some p ∧
      (p.name = o.name ∧ p.comment = o.comment ∧ p.annotations.Perm o.annotations ∧ List.Forall₂ (LoadedField L) o.inputs p.inputs ∧
        List.Forall₂ (fun t u : OperationOutput => u.name = t.name ∧ u.comment = t.comment ∧ u.annotations.Perm t.annotations ∧
          LoadedSpec L t.ts u.ts) o.outputs p.outputs ∧ p.exceptions = o.exceptions) := by
  obtain ⟨fs, f1, f2, f3⟩ := list_ok (f := fieldMembers L) (xs := o.inputs) (D := 2 * n + 1) (R := LoadedField L)
    (S := fun g => g = readField L (readTypeSpec lib L)) (by
      intro f hf
      obtain ⟨d, d1, d2, _, d3⟩ := field_ok' hn (hi f hf)
      refine ⟨d, d1, d2, ?_⟩
      rintro g rfl
      exact d3 [] (fun _ _ => rfl))
  obtain ⟨gs, g1, g2, g3⟩ := list_ok (f := outputMembers L) (xs := o.outputs) (D := 2 * n + 1)
    (R := fun t u : OperationOutput => u.name = t.name ∧ u.comment = t.comment ∧ u.annotations.Perm t.annotations ∧
          LoadedSpec L t.ts u.ts)
    (S := fun g => g = readOutput lib L) (by
      intro f hf
      obtain ⟨d, d1, d2, d3⟩ := output_ok hn (ho f hf)
      refine ⟨d, d1, d2, ?_⟩
      rintro g rfl
      exact d3)
  refine ⟨_, by rw [operationMembers, f1, g1]; rfl, ?_, ?_⟩
  · simp only [fine_append]
    exact ⟨⟨⟨⟨⟨fine_jOptStr, fine_jOptStr⟩, fine_jAnnotations⟩, f2 _⟩, g2 _⟩, fine_texts⟩
  · try dsimp only
    generalize hM : jOptStr "name" o.name ++ jOptStr "comment" o.comment ++ jAnnotations o.annotations ++ jOptArr "inputs" fs ++
      jOptArr "outputs" gs ++ jOptArr "exceptions" (o.exceptions.map .str) = M
    have look : ∀ k, jLook k M = _ := fun k => congrArg (jLook k) hM.symm
    simp only [jLook_append, jLook_jOptStr, jLook_jAnnotations, jLook_jOptArr] at look
    obtain ⟨ins, i1, i2⟩ := f3 _ rfl
    obtain ⟨outs, o1, o2⟩ := g3 _ rfl
    refine ⟨⟨o.name, o.comment, jSort o.annotations, ins, outs, o.exceptions⟩, ?_, rfl, rfl, jSort_perm _, i2, o2, rfl⟩
    rw [readOperation, readStr_opt (k := "name") (s := o.name) (by rw [look]; simp),
      readStr_opt (k := "comment") (s := o.comment) (by rw [look]; simp),
      readAnnotations_opt ha (by rw [look]; simp), i1 "inputs" M (by rw [look]; simp), o1 "outputs" M (by rw [look]; simp),
      readList_opt (k := "exceptions") (ds := o.exceptions.map .str) (by rw [look]; simp), readAll_texts]
    rfl

theorem param_ok {lib : Lib} {L : JLib} {n : Nat} {p : HttpParamSpec} (hn : n ≤ 4996) (h : JFieldOk lib L n p.field) :
    ∃ d, paramMembers L p = some d ∧ JFine (2 * n + 1) d ∧ ∃ q, readParam lib L d = some q ∧ LoadedParam L p q := by
  obtain ⟨d, d1, d2, d3, d4⟩ := field_ok' hn h
  refine ⟨_, by rw [paramMembers, d1]; rfl, ?_, ?_⟩
  · simp only [fine_append]
    exact ⟨⟨⟨fine_jOptStr, fine_jOptStr⟩, fine_jOptBool⟩, d2⟩
  · obtain ⟨g, g1, g2⟩ := d4 (jOptStr "header" p.header ++ jOptStr "query" p.query ++ jOptBool "path" p.path) (by
      intro k hk
      have : k ∉ ["header", "query", "path"] := by
        intro hc
        simp only [List.mem_cons, List.not_mem_nil, or_false] at hc
        rcases hc with rfl | rfl | rfl <;> revert hk <;> decide
      simp only [List.mem_cons, List.not_mem_nil, or_false, not_or] at this
      simp [jLook_append, jLook_jOptStr, jLook_jOptBool, Ne.symm this.1, Ne.symm this.2.1, Ne.symm this.2.2])
    refine ⟨⟨p.header, p.query, p.path, g⟩, ?_, rfl, rfl, rfl, g2⟩
    rw [readParam, g1,
      readStr_opt (k := "header") (s := p.header) (by
        rw [jLook_append, d3 _ (by decide) (by decide)]; simp [jLook_append, jLook_jOptStr, jLook_jOptBool]),
      readStr_opt (k := "query") (s := p.query) (by
        rw [jLook_append, d3 _ (by decide) (by decide)]; simp [jLook_append, jLook_jOptStr, jLook_jOptBool]),
      readBool_opt (k := "path") (b := p.path) (by
        rw [jLook_append, d3 _ (by decide) (by decide)]; simp [jLook_append, jLook_jOptStr, jLook_jOptBool])]
    rfl

theorem params_ok {lib : Lib} {L : JLib} {n : Nat} {ps : List HttpParamSpec} (hn : n ≤ 4996) (h : ∀ p ∈ ps, JFieldOk lib L n p.field) :
    ∃ ds, docsOf (paramMembers L) ps = some ds ∧ (∀ k, JFine (2 * n + 3) (jOptArr k ds)) ∧
      ∃ qs, (∀ k m, (jLook k m = if ds.isEmpty then none else some (.arr ds)) → readList (readObj (readParam lib L)) k m = some qs) ∧
        List.Forall₂ (LoadedParam L) ps qs := by
  obtain ⟨ds, h1, h2, h3⟩ := list_ok (f := paramMembers L) (xs := ps) (D := 2 * n + 1) (R := LoadedParam L)
    (S := fun g => g = readParam lib L) (by
      intro f hf
      obtain ⟨d, d1, d2, d3⟩ := param_ok hn (h f hf)
      refine ⟨d, d1, d2, ?_⟩
      rintro g rfl
      exact d3)
  exact ⟨ds, h1, h2, h3 _ rfl⟩

theorem expected_ok {lib : Lib} {L : JLib} {n : Nat} {e : HttpExpectedSpec} (hn : n ≤ 4996) (ha : e.annotations.Distinct)
    (hs : IntRange 32 e.status) (ho : ∀ o ∈ e.outputs, JFieldOk lib L n o.field) :
    ∃ d, expectedMembers L e = some d ∧ JFine (2 * n + 3) d ∧ ∃ f, readExpected lib L d = some f ∧
      (List.Forall₂ (LoadedParam L) e.outputs f.outputs ∧ f.status = e.status ∧ f.comment = e.comment ∧
        f.annotations.Perm e.annotations) := by
  obtain ⟨ds, h1, h2, qs, h3, h4⟩ := params_ok hn ho
  refine ⟨_, by rw [expectedMembers, h1]; rfl, ?_, ?_⟩
  · simp only [fine_append]
    exact ⟨⟨⟨h2 _, fine_jInt32⟩, fine_jOptStr⟩, fine_jAnnotations⟩
  · try dsimp only
    generalize hM : jOptArr "outputs" ds ++ jInt32 "status" e.status ++ jOptStr "comment" e.comment ++ jAnnotations e.annotations = M
    have look : ∀ k, jLook k M = _ := fun k => congrArg (jLook k) hM.symm
    simp only [jLook_append, jLook_jOptStr, jLook_jAnnotations, jLook_jOptArr, jLook_jInt32] at look
    refine ⟨⟨qs, e.status, e.comment, jSort e.annotations⟩, ?_, h4, rfl, rfl, jSort_perm _⟩
    rw [readExpected, h3 "outputs" M (by rw [look]; simp),
      readInt_opt (k := "status") (o := some e.status) (by rw [look]; simp) (by intro k hk; cases hk; exact hs),
      readStr_opt (k := "comment") (s := e.comment) (by rw [look]; simp),
      readAnnotations_opt ha (by rw [look]; simp)]
    rfl

theorem optExpected_ok {lib : Lib} {L : JLib} {n : Nat} {e : Option HttpExpectedSpec} (hn : n ≤ 4996)
    (h : ∀ e' ∈ e, e'.annotations.Distinct ∧ IntRange 32 e'.status ∧ ∀ o ∈ e'.outputs, JFieldOk lib L n o.field) :
    ∃ x, jOptExpected L e = some (optMember "expected" x) ∧ JFine (2 * n + 4) (optMember "expected" x) ∧
      ∃ f, (∀ m, jLook "expected" m = x → readOptExpected lib L m = some f) ∧
      Option.Rel (fun e f : HttpExpectedSpec => List.Forall₂ (LoadedParam L) e.outputs f.outputs ∧ f.status = e.status ∧
        f.comment = e.comment ∧ f.annotations.Perm e.annotations) e f := by
  cases e with
  | none => exact ⟨none, rfl, fine_nil, none, fun m hm => by rw [readOptExpected, hm], .none⟩
  | some e =>
    obtain ⟨h1, h2, h3⟩ := h e rfl
    obtain ⟨d, d1, d2, f, d3, d4⟩ := expected_ok hn h1 h2 h3
    refine ⟨some (.obj d), by rw [jOptExpected, d1]; rfl, fine_one.2 (fine_obj d2), some f, fun m hm => ?_, .some d4⟩
    rw [readOptExpected, hm]
    simp only [readObj, d3, Option.map_some]

theorem exception_ok {e : HttpExceptionSpec} (ha : e.annotations.Distinct) (hs : IntRange 32 e.status) :
    JFine 1 (exceptionMembers e) ∧ ∃ f, readException (exceptionMembers e) = some f ∧
      (f.type = e.type ∧ f.status = e.status ∧ f.comment = e.comment ∧ f.annotations.Perm e.annotations) := by
  refine ⟨?_, ?_⟩
  · unfold exceptionMembers
    simp only [fine_append]
    exact ⟨⟨⟨fine_jStr, fine_jInt32⟩, fine_jOptStr⟩, fine_jAnnotations⟩
  · try dsimp only
    generalize hM : exceptionMembers e = M
    have look : ∀ k, jLook k M = _ := fun k => congrArg (jLook k) hM.symm
    simp only [exceptionMembers, jLook_append, jLook_jStr, jLook_jOptStr, jLook_jAnnotations, jLook_jInt32] at look
    refine ⟨⟨e.type, e.status, e.comment, jSort e.annotations⟩, ?_, rfl, rfl, rfl, jSort_perm _⟩
    rw [readException, readStr_some (k := "type") (s := e.type) (by rw [look]; simp),
      readInt_opt (k := "status") (o := some e.status) (by rw [look]; simp) (by intro k hk; cases hk; exact hs),
      readStr_opt (k := "comment") (s := e.comment) (by rw [look]; simp),
      readAnnotations_opt ha (by rw [look]; simp)]
    rfl

theorem docsOf_some {α : Type} (f : α → JMembers) (xs : List α) :
    docsOf (fun x => some (f x)) xs = some (xs.map fun x => .obj (f x)) := by
  induction xs with
  | nil => rfl
  | cons x r ih => rw [docsOf, ih]; rfl

theorem http_ok {lib : Lib} {L : JLib} {n : Nat} {h : HttpDef} (hn : n ≤ 4996) (ha : h.annotations.Distinct)
    (hi : ∀ i ∈ h.inputs, JFieldOk lib L n i.field)
    (he : ∀ e ∈ h.expected, e.annotations.Distinct ∧ IntRange 32 e.status ∧ ∀ o ∈ e.outputs, JFieldOk lib L n o.field)
    (hx : ∀ e ∈ h.exceptions, e.annotations.Distinct ∧ IntRange 32 e.status) :
    ∃ d, httpMembers L h = some d ∧ JFine (2 * n + 4) d ∧ ∃ g, readHttp lib L d = some g ∧
      (g.name = h.name ∧ g.resource = h.resource ∧ g.comment = h.comment ∧
        g.annotations.Perm h.annotations ∧ g.method = h.method ∧ g.path = h.path ∧
        List.Forall₂ (LoadedParam L) h.inputs g.inputs ∧
        Option.Rel (fun e f : HttpExpectedSpec => List.Forall₂ (LoadedParam L) e.outputs f.outputs ∧ f.status = e.status ∧
          f.comment = e.comment ∧ f.annotations.Perm e.annotations) h.expected g.expected ∧
        List.Forall₂ (fun e f : HttpExceptionSpec => f.type = e.type ∧ f.status = e.status ∧ f.comment = e.comment ∧
          f.annotations.Perm e.annotations) h.exceptions g.exceptions) := by
  obtain ⟨ds, h1, h2, qs, h3, h4⟩ := params_ok hn hi
  obtain ⟨x, e1, e2, ex, e3, e4⟩ := optExpected_ok hn he
  obtain ⟨gs, g1, g2, g3⟩ := list_ok (f := fun e => some (exceptionMembers e)) (xs := h.exceptions) (D := 1)
    (R := fun e f : HttpExceptionSpec => f.type = e.type ∧ f.status = e.status ∧ f.comment = e.comment ∧ f.annotations.Perm e.annotations)
    (S := fun g => g = readException) (by
      intro f hf
      obtain ⟨d1, d2⟩ := exception_ok (hx f hf).1 (hx f hf).2
      refine ⟨_, rfl, d1, ?_⟩
      rintro g rfl
      exact d2)
  rw [docsOf_some] at g1
  obtain rfl := Option.some.inj g1
  refine ⟨_, by rw [httpMembers, h1, e1]; rfl, ?_, ?_⟩
  · simp only [fine_append]
    exact ⟨⟨⟨⟨⟨⟨⟨⟨fine_jOptStr, fine_jOptStr⟩, fine_jOptStr⟩, fine_jAnnotations⟩, fine_jStr⟩, fine_jStr⟩, fine_mono (h2 _) (by omega)⟩,
      e2⟩, fine_mono (g2 _) (by omega)⟩
  · try dsimp only
    generalize hM : jOptStr "name" h.name ++ jOptStr "resource" h.resource ++ jOptStr "comment" h.comment ++
      jAnnotations h.annotations ++ jStr "method" h.method ++ jStr "path" h.path ++ jOptArr "inputs" ds ++ optMember "expected" x ++
      jOptArr "exceptions" (h.exceptions.map fun e => .obj (exceptionMembers e)) = M
    have look : ∀ k, jLook k M = _ := fun k => congrArg (jLook k) hM.symm
    simp only [jLook_append, jLook_jStr, jLook_jOptStr, jLook_jAnnotations, jLook_jOptArr, jLook_optMember] at look
    obtain ⟨xs, x1, x2⟩ := g3 _ rfl
    refine ⟨⟨h.name, h.resource, h.comment, jSort h.annotations, h.method, h.path, qs, ex, xs⟩, ?_, rfl, rfl, rfl, jSort_perm _, rfl, rfl, h4, e4, x2⟩
    rw [readHttp, readStr_opt (k := "name") (s := h.name) (by rw [look]; simp),
      readStr_opt (k := "resource") (s := h.resource) (by rw [look]; simp),
      readStr_opt (k := "comment") (s := h.comment) (by rw [look]; simp),
      readAnnotations_opt ha (by rw [look]; simp),
      readStr_some (k := "method") (s := h.method) (by rw [look]; simp),
      readStr_some (k := "path") (s := h.path) (by rw [look]; simp),
      h3 "inputs" M (by rw [look]; simp), e3 M (by rw [look]; simp), x1 "exceptions" M (by rw [look]; simp)]
    rfl

theorem schema_ok {lib : Lib} {L : JLib} {n : Nat} {s : Schema} (hn : n ≤ 4996) (h : JSchemaOk lib L n s) :
    ∃ d, schemaMembers L s = some d ∧ JFine (2 * n + 6) d ∧ ∃ s', readSchema lib L d = some s' ∧ LoadedSchema L s s' := by
  obtain ⟨ts, t1, t2, t3⟩ := list_ok (f := typeMembers L) (xs := s.types) (D := 2 * n + 1)
    (R := fun t u : TypeDef => u.name = t.name ∧ u.comment = t.comment ∧ u.annotations.Perm t.annotations ∧ LoadedSpec L t.ts u.ts)
    (S := fun g => g = readType lib L) (by
      intro f hf
      obtain ⟨d, d1, d2, d3⟩ := type_ok hn (h.types f hf)
      refine ⟨d, d1, d2, ?_⟩
      rintro g rfl
      exact d3)
  obtain ⟨xs, x1, x2, x3⟩ := list_ok (f := exampleMembers L) (xs := s.examples) (D := n + 1)
    (R := fun e f : ExampleDef => f.target = e.target ∧ f.name = e.name ∧ f.comment = e.comment ∧
      f.annotations.Perm e.annotations ∧ LoadedLiteral L e.example f.example)
    (S := fun g => g = readExample L) (by
      intro f hf
      obtain ⟨d, d1, d2, d3⟩ := example_ok (h.examples f hf)
      refine ⟨d, d1, d2, ?_⟩
      rintro g rfl
      exact d3)
  obtain ⟨os, o1, o2, o3⟩ := list_ok (f := operationMembers L) (xs := s.operations) (D := 2 * n + 3)
    (R := fun o p : OperationDef => p.name = o.name ∧ p.comment = o.comment ∧
      p.annotations.Perm o.annotations ∧ List.Forall₂ (LoadedField L) o.inputs p.inputs ∧
      List.Forall₂ (fun t u : OperationOutput => u.name = t.name ∧ u.comment = t.comment ∧ u.annotations.Perm t.annotations ∧
        LoadedSpec L t.ts u.ts) o.outputs p.outputs ∧ p.exceptions = o.exceptions)
    (S := fun g => g = readOperation lib L) (by
      intro f hf
      obtain ⟨a1, a2, a3⟩ := h.operations f hf
      obtain ⟨d, d1, d2, d3⟩ := operation_ok hn a1 a2 a3
      refine ⟨d, d1, d2, ?_⟩
      rintro g rfl
      exact d3)
  obtain ⟨hs, h1, h2, h3⟩ := list_ok (f := httpMembers L) (xs := s.http) (D := 2 * n + 4)
    (R := fun h g : HttpDef => g.name = h.name ∧ g.resource = h.resource ∧ g.comment = h.comment ∧
      g.annotations.Perm h.annotations ∧ g.method = h.method ∧ g.path = h.path ∧
      List.Forall₂ (LoadedParam L) h.inputs g.inputs ∧
      Option.Rel (fun e f : HttpExpectedSpec => List.Forall₂ (LoadedParam L) e.outputs f.outputs ∧ f.status = e.status ∧
        f.comment = e.comment ∧ f.annotations.Perm e.annotations) h.expected g.expected ∧
      List.Forall₂ (fun e f : HttpExceptionSpec => f.type = e.type ∧ f.status = e.status ∧ f.comment = e.comment ∧
        f.annotations.Perm e.annotations) h.exceptions g.exceptions)
    (S := fun g => g = readHttp lib L) (by
      intro f hf
      obtain ⟨a1, a2, a3, a4⟩ := h.http f hf
      obtain ⟨d, d1, d2, d3⟩ := http_ok hn a1 a2 a3 a4
      refine ⟨d, d1, d2, ?_⟩
      rintro g rfl
      exact d3)
  refine ⟨_, by rw [schemaMembers, t1, x1, o1, h1]; rfl, ?_, ?_⟩
  · simp only [fine_append]
    exact ⟨⟨⟨⟨⟨⟨⟨⟨⟨⟨fine_jStr, fine_jStr⟩, fine_jOptStr⟩, fine_jOptStr⟩, fine_jOptStr⟩, fine_mono (t2 _) (by omega)⟩,
      fine_mono (x2 _) (by omega)⟩, fine_mono (o2 _) (by omega)⟩, h2 _⟩, fine_jOptStr⟩, fine_jAnnotations⟩
  · try dsimp only
    generalize hM : jStr "sadl" s.sadl ++ jStr "name" s.name ++ jOptStr "namespace" s.namespace ++ jOptStr "version" s.version ++
      jOptStr "comment" s.comment ++ jOptArr "types" ts ++ jOptArr "examples" xs ++ jOptArr "operations" os ++
      jOptArr "http" hs ++ jOptStr "base" s.base ++ jAnnotations s.annotations = M
    have look : ∀ k, jLook k M = _ := fun k => congrArg (jLook k) hM.symm
    simp only [jLook_append, jLook_jStr, jLook_jOptStr, jLook_jAnnotations, jLook_jOptArr] at look
    obtain ⟨ts', a1, a2⟩ := t3 _ rfl
    obtain ⟨xs', b1, b2⟩ := x3 _ rfl
    obtain ⟨os', c1, c2⟩ := o3 _ rfl
    obtain ⟨hs', d1, d2⟩ := h3 _ rfl
    refine ⟨⟨s.sadl, s.name, s.namespace, s.version, s.comment, ts', xs', os', hs', s.base, jSort s.annotations⟩, ?_,
      ⟨rfl, rfl, rfl, rfl, rfl, rfl, jSort_perm _, a2, b2, c2, d2⟩⟩
    rw [readSchema, readStr_some (k := "sadl") (s := s.sadl) (by rw [look]; simp),
      readStr_some (k := "name") (s := s.name) (by rw [look]; simp),
      readStr_opt (k := "namespace") (s := s.namespace) (by rw [look]; simp),
      readStr_opt (k := "version") (s := s.version) (by rw [look]; simp),
      readStr_opt (k := "comment") (s := s.comment) (by rw [look]; simp),
      a1 "types" M (by rw [look]; simp), b1 "examples" M (by rw [look]; simp), c1 "operations" M (by rw [look]; simp),
      d1 "http" M (by rw [look]; simp),
      readStr_opt (k := "base") (s := s.base) (by rw [look]; simp),
      readAnnotations_opt h.annotations (by rw [look]; simp)]
    rfl

end Sadl
