import Verif.Spec.OpenApiJson
import Verif.Model.OpenApiJson
import Verif.Lemmas.SchemaJson
/-
Lemmas for an OpenAPI document printed as JSON and read again.
-/
namespace Sadl
open Sadl.Spec Sadl.Props

/-! ### Single members -/

theorem showInt_nat (n : Nat) : showInt (n : Int) = showNat n := by
  unfold showInt
  rw [if_neg (by omega)]
  rfl

theorem showNat_number (n : Nat) : JsonNumber (showNat n) := by rw [← showInt_nat]; exact showInt_number _

theorem parseUint_showNat {n : Nat} (h : n < 2 ^ 64) : parseUint (showNat n) = some n := by
  unfold parseUint
  have h1 : ¬ (showNat n).head? = some '-' := by
    intro hd
    rcases showNat_int n with e | ⟨c, ds, e, _, hD⟩
    · rw [e] at hd; simp at hd
    · rw [e] at hd hD
      simp only [List.head?_cons, Option.some.injEq] at hd
      have := hD c (by simp)
      rw [hd] at this
      exact absurd this.1 (by decide)
  rw [if_neg h1, ← showInt_nat, parseInt_showInt (bits := 65) ⟨by norm_num <;> omega, by norm_num <;> omega⟩]
  simp

theorem jLook_jUint (k k' : String) (n : Nat) :
    jLook k (jUint k' n) = if k' = k then (if n = 0 then none else some (.num (showNat n))) else none := by
  unfold jUint; split <;> simp [jLook]

theorem jLook_jOptUint (k k' : String) (n : Option Nat) :
    jLook k (jOptUint k' n) = if k' = k then n.map (fun n => .num (showNat n)) else none := by
  cases n <;> simp [jOptUint, jLook]

theorem jLook_jOptMap (k k' : String) (ms : JMembers) :
    jLook k (jOptMap k' ms) = if k' = k then (if ms.isEmpty then none else some (.obj (jSort ms))) else none := by
  unfold jOptMap; split <;> simp [jLook]

theorem fine_jUint {D : Nat} {k : String} {n : Nat} : JFine D (jUint k n) := by
  unfold jUint
  split
  · exact fine_nil
  · exact fine_num (showNat_number n)

theorem fine_jOptUint {D : Nat} {k : String} {n : Option Nat} : JFine D (jOptUint k n) := by
  cases n with
  | none => exact fine_nil
  | some n => exact fine_num (showNat_number n)

theorem readUint_val {k : String} {n : Nat} {m : JMembers} (h : jLook k m = if n = 0 then none else some (.num (showNat n)))
    (hn : n < 2 ^ 64) : ∃ o, readUint k m = some o ∧ o.getD 0 = n := by
  unfold readUint; rw [h]
  by_cases h0 : n = 0
  · exact ⟨none, by simp [h0], by simp [h0]⟩
  · exact ⟨some n, by simp [h0, parseUint_showNat hn], rfl⟩

theorem readUint_opt {k : String} {o : Option Nat} {m : JMembers} (h : jLook k m = o.map fun n => .num (showNat n))
    (hr : ∀ n ∈ o, n < 2 ^ 64) : readUint k m = some o := by
  unfold readUint; rw [h]
  cases o with
  | none => rfl
  | some n => simp [parseUint_showNat (hr n rfl)]

theorem float_member {L : JLib} {o : Option BigFloat} (k : String) (h : ∀ f ∈ o, PrintsBack L f) :
    ∃ x, jOptFloat L k o = some (optMember k x) ∧ (∀ D, JFine D (optMember k x)) ∧
      ∀ m, jLook k m = x → readFloat L k m = some o := by
  cases o with
  | none => exact ⟨none, rfl, fun _ => fine_nil, fun m hm => by unfold readFloat; rw [hm]⟩
  | some f =>
    obtain ⟨h1, h2, h3⟩ := h f rfl
    refine ⟨some (.num (L.showFloat f)), ?_, fun D => fine_num h2, fun m hm => ?_⟩
    · cases f with
      | inf neg => exact absurd rfl (h1 neg)
      | _ => rfl
    · unfold readFloat; rw [hm]
      simp [h3]

theorem valueBack_null (L : JLib) : valueBack L .null = .null := by simp [valueBack, asRead, canon]

theorem value_member {L : JLib} {v : Value} {n : Nat} (k : String) (h : JLiteralOk L n v) :
    ∃ x, jOptVal L k v = some (optMember k x) ∧ JFine n (optMember k x) ∧
      ∀ m, jLook k m = x → readVal L k m = some (valueBack L v) := by
  obtain ⟨h1, h2⟩ := h
  by_cases hv : v = .null
  · subst hv
    exact ⟨none, rfl, fine_nil, fun m hm => by unfold readVal; rw [hm, valueBack_null]⟩
  · obtain ⟨d, g1, g2, g3, g4⟩ := lit_doc L h1
    refine ⟨some d, ?_, fine_one.2 ⟨g2, g4 n h2⟩, fun m hm => by unfold readVal; rw [hm]; exact g3⟩
    have : jOptVal L k v = (jEncode L v).map fun d => [(k, d)] := by
      cases v <;> first | rfl | exact absurd rfl hv
    rw [this, g1]; rfl

theorem values_member {L : JLib} {vs : List Value} {n : Nat} (h : ∀ v ∈ vs, JLiteralOk L n v) :
    ∃ ds, jEncodeItems L vs = some ds ∧ (∀ d ∈ ds, DocOk d ∧ docDepth d ≤ n) ∧ ds.isEmpty = vs.isEmpty ∧
      readAll (jDecode L) ds = some (vs.map (valueBack L)) := by
  induction vs with
  | nil => exact ⟨[], by rw [jEncodeItems], by simp, rfl, rfl⟩
  | cons v r ih =>
    obtain ⟨ds, h1, h2, _, h3⟩ := ih fun x hx => h x (by simp [hx])
    obtain ⟨d, g1, g2, g3, g4⟩ := lit_doc L (h v (by simp)).1
    refine ⟨d :: ds, by rw [jEncodeItems, g1, h1]; rfl, ?_, rfl, ?_⟩
    · intro e he
      rcases List.mem_cons.1 he with rfl | he
      · exact ⟨g2, g4 n (h v (by simp)).2⟩
      · exact h2 e he
    · rw [readAll, g3, h3]; rfl

theorem readSlice_values {L : JLib} {o : Option (List Value)} {ds : List JDoc} {k : String} {m : JMembers}
    (h : jLook k m = if ds.isEmpty then none else some (.arr ds)) (he : ds.isEmpty = (o.getD []).isEmpty)
    (hr : readAll (jDecode L) ds = some ((o.getD []).map (valueBack L))) :
    readSlice (jDecode L) k m = some (valuesBack L o) := by
  unfold readSlice; rw [h, he]
  match o with
  | none => rfl
  | some [] => rfl
  | some (v :: r) =>
    simp only [Option.getD_some, List.isEmpty_cons, Bool.false_eq_true, if_false] at hr ⊢
    rw [hr]; rfl

/-! ### Structures, pointers to them, lists and maps of them -/

/-- `x` is written by `f`, at most `D` deep, and read by `g` as `y`. -/
def TripsTo {α β : Type} (f : α → Option JMembers) (g : JMembers → Option β) (D : Nat) (x : α) (y : β) : Prop :=
  ∃ d, f x = some d ∧ JFine D d ∧ g d = some y

theorem opt_trip {α : Type} {f : α → Option JMembers} {g : JMembers → Option α} {b : α → α} {D : Nat} {o : Option α} (k : String)
    (h : ∀ x ∈ o, TripsTo f g D x (b x)) :
    ∃ x, jOptObj f k o = some (optMember k x) ∧ JFine (D + 1) (optMember k x) ∧
      ∀ m, jLook k m = x → readOptObj g k m = some (o.map b) := by
  cases o with
  | none => exact ⟨none, rfl, fine_nil, fun m hm => by unfold readOptObj; rw [hm]; rfl⟩
  | some x =>
    obtain ⟨d, h1, h2, h3⟩ := h x rfl
    refine ⟨some (.obj d), by simp [jOptObj, h1, optMember], fine_one.2 (fine_obj h2), fun m hm => ?_⟩
    unfold readOptObj; rw [hm]
    simp [readObj, h3]

theorem list_trip {α : Type} {f : α → Option JMembers} {g : JMembers → Option α} {b : α → α} {D : Nat} {xs : List α}
    (h : ∀ x ∈ xs, TripsTo f g D x (b x)) :
    ∃ ds, docsOf f xs = some ds ∧ (∀ k, JFine (D + 2) (jOptArr k ds)) ∧
      ∀ k m, (jLook k m = if ds.isEmpty then none else some (.arr ds)) → readList (readObj g) k m = some (xs.map b) := by
  obtain ⟨ds, h1, h2, h3⟩ := list_ok (f := f) (xs := xs) (D := D) (R := fun x y => y = b x) (S := fun g' => g' = g) (by
    intro x hx
    obtain ⟨d, d1, d2, d3⟩ := h x hx
    refine ⟨d, d1, d2, ?_⟩
    rintro g' rfl
    exact ⟨_, d3, rfl⟩)
  obtain ⟨ys, g1, g2⟩ := h3 g rfl
  have : ys = xs.map b := by
    clear g1 h1 h h3
    induction g2 with
    | nil => rfl
    | cons a _ ih => rw [a, ih, List.map_cons]
  subst this
  exact ⟨ds, h1, h2, g1⟩

theorem jSort_map {α β : Type} (f : String × α → β) (l : List (String × α)) :
    jSort (l.map fun p => (p.1, f p)) = (jSort l).map fun p => (p.1, f p) := by
  have hins : ∀ (x : String × α) (l : List (String × α)),
      jInsert (x.1, f x) (l.map fun p => (p.1, f p)) = (jInsert x l).map fun p => (p.1, f p) := by
    intro x l
    induction l with
    | nil => rfl
    | cons y r ih =>
      rw [List.map_cons, jInsert, jInsert]
      dsimp only
      split
      · rfl
      · rw [ih]; rfl
  induction l with
  | nil => rfl
  | cons x r ih => rw [List.map_cons, jSort, ih, jSort, hins]

theorem mset_new {α : Type} {acc : GoMap α} {k : String} (x : α) (hk : k ∉ acc.map Prod.fst) : mset acc k x = acc ++ [(k, x)] := by
  induction acc with
  | nil => rfl
  | cons q t ih =>
    obtain ⟨k', s'⟩ := q
    simp only [List.map_cons, List.mem_cons, not_or] at hk
    have : ¬ k' = k := fun h => hk.1 h.symm
    simp [mset, this, ih hk.2]

theorem readMapEntries_ok {α : Type} {g : JMembers → Option α} {l : List (String × α)} {D : String × α → JMembers} {b : String × α → α}
    (acc : GoMap α) (hd : (acc.map Prod.fst ++ l.map Prod.fst).Nodup) (h : ∀ p ∈ l, g (D p) = some (b p)) :
    readMapEntries g acc (l.map fun p => (p.1, .obj (D p))) = some (acc ++ l.map fun p => (p.1, b p)) := by
  induction l generalizing acc with
  | nil => simp [readMapEntries]
  | cons p r ih =>
    have hk : p.1 ∉ acc.map Prod.fst := by
      intro hh
      rw [List.map_cons, List.nodup_append] at hd
      exact hd.2.2 _ hh _ (by simp) rfl
    rw [List.map_cons, readMapEntries]
    simp only [readObj, h p (by simp), Option.bind_some]
    rw [mset_new _ hk, ih (acc ++ [(p.1, b p)]) (by simpa using hd) (fun q hq => h q (by simp [hq]))]
    simp

theorem map_trip {α : Type} {f : α → Option JMembers} {g : JMembers → Option α} {b : α → α} {D : Nat} {l : List (String × α)}
    (hn : (l.map Prod.fst).Nodup) (h : ∀ p ∈ l, TripsTo f g D p.2 (b p.2)) :
    ∃ ms, mapDocs f l = some ms ∧ JFine (D + 1) (jSort ms) ∧ ms.isEmpty = l.isEmpty ∧ (∀ p ∈ ms, ∃ d, p.2 = .obj d) ∧
      readMapEntries g [] (jSort ms) = some (entriesBack b l) := by
  classical
  let F : String × α → JMembers := fun p => (f p.2).getD []
  have hF : ∀ p ∈ l, f p.2 = some (F p) ∧ JFine D (F p) ∧ g (F p) = some (b p.2) := by
    intro p hp
    obtain ⟨d, h1, h2, h3⟩ := h p hp
    have : F p = d := by simp [F, h1]
    rw [this]
    exact ⟨h1, h2, h3⟩
  have e : mapDocs f l = some (l.map fun p => (p.1, .obj (F p))) := by
    clear hn h
    induction l with
    | nil => rfl
    | cons p r ih =>
      obtain ⟨k, x⟩ := p
      rw [mapDocs, (hF (k, x) (by simp)).1, ih fun q hq => hF q (by simp [hq])]
      rfl
  refine ⟨_, e, ?_, by cases l <;> rfl, ?_, ?_⟩
  · intro q hq
    have hq := (jSort_perm _).mem_iff.1 hq
    obtain ⟨p, hp, rfl⟩ := List.mem_map.1 hq
    exact fine_obj (hF p hp).2.1
  · intro q hq
    obtain ⟨p, hp, rfl⟩ := List.mem_map.1 hq
    exact ⟨_, rfl⟩
  · rw [jSort_map (fun p => JDoc.obj (F p)), readMapEntries_ok (b := fun p => b p.2) [] (by
      rw [List.map_nil, List.nil_append, ((jSort_perm _).map Prod.fst).nodup_iff]; exact hn)
      (fun p hp => (hF p ((jSort_perm _).mem_iff.1 hp)).2.2), List.nil_append]
    unfold entriesBack
    rw [jSort_map (fun p => b p.2)]

theorem fine_jOptMap {D : Nat} {k : String} {ms : JMembers} (h : JFine D (jSort ms)) : JFine (D + 1) (jOptMap k ms) := by
  unfold jOptMap
  split
  · exact fine_nil
  · exact fine_one.2 (fine_obj h)

theorem readMapD_ok {α : Type} {g : JMembers → Option α} {b : α → α} {l : List (String × α)} {ms : JMembers} {k : String} {m : JMembers}
    (h : jLook k m = if ms.isEmpty then none else some (.obj (jSort ms))) (he : ms.isEmpty = l.isEmpty)
    (hr : readMapEntries g [] (jSort ms) = some (entriesBack b l)) : readMapD g k m = some (entriesBack b l) := by
  unfold readMapD readMap; rw [h, he]
  cases l with
  | nil => rfl
  | cons p r =>
    simp only [List.isEmpty_cons, Bool.false_eq_true, if_false]
    rw [hr]; rfl

/-! ### Schemas -/

theorem oschemaDocs_eq (L : JLib) (xs : List OSchema) : oschemaDocs L xs = docsOf (oschemaMembers L) xs := by
  induction xs with
  | nil => rw [oschemaDocs, docsOf]
  | cons x r ih => rw [oschemaDocs, docsOf, ih]

theorem oschemaOpt_eq (L : JLib) (k : String) (o : Option OSchema) : oschemaOpt L k o = jOptObj (oschemaMembers L) k o := by
  cases o with
  | none => rw [oschemaOpt, jOptObj]
  | some s => rw [oschemaOpt, jOptObj]

theorem oschemaProps_eq (L : JLib) (xs : List (String × OSchema)) : oschemaProps L xs = mapDocs (oschemaMembers L) xs := by
  induction xs with
  | nil => rw [oschemaProps, mapDocs]
  | cons x r ih =>
    obtain ⟨k, s⟩ := x
    rw [oschemaProps, mapDocs, ih, oschemaProp]
    cases oschemaMembers L s <;> rfl

theorem oschemaEntries_eq (L : JLib) (o : Option (List (String × OSchema))) : oschemaEntries L o = mapDocs (oschemaMembers L) (o.getD []) := by
  cases o with
  | none => rw [oschemaEntries]; rfl
  | some ps => rw [oschemaEntries, oschemaProps_eq]; rfl

theorem oschemasBack_eq (L : JLib) (xs : List OSchema) : oschemasBack L xs = xs.map (oschemaBack L) := by
  induction xs with
  | nil => rw [oschemasBack]; rfl
  | cons x r ih => rw [oschemasBack, ih]; rfl

theorem oschemaOptBack_eq (L : JLib) (o : Option OSchema) : oschemaOptBack L o = o.map (oschemaBack L) := by
  cases o with
  | none => rw [oschemaOptBack]; rfl
  | some s => rw [oschemaOptBack]; rfl

theorem oschemaPropsBack_eq (L : JLib) (xs : List (String × OSchema)) : oschemaPropsBack L xs = xs.map fun p => (p.1, oschemaBack L p.2) := by
  induction xs with
  | nil => rw [oschemaPropsBack]; rfl
  | cons x r ih => obtain ⟨k, s⟩ := x; rw [oschemaPropsBack, ih, oschemaPropBack]; rfl

theorem oschemaEntriesBack_eq (L : JLib) (o : Option (List (String × OSchema))) :
    oschemaEntriesBack L o = if (o.getD []).isEmpty then none else some (entriesBack (oschemaBack L) (o.getD [])) := by
  match o with
  | none => rw [oschemaEntriesBack]; rfl
  | some [] => rw [oschemaEntriesBack]; rfl
  | some (p :: r) =>
    obtain ⟨k, s⟩ := p
    rw [oschemaEntriesBack, oschemaPropBack, oschemaPropsBack_eq]; rfl

theorem oschema_trip {L : JLib} {n : Nat} {s : OSchema} (h : OSchemaOk L n s) :
    ∀ N, n ≤ N → TripsTo (oschemaMembers L) (readOSchemaN L N) (2 * n + 2) s (oschemaBack L s) := by
  induction h with
  | @mk n s hen hex hmin hmax hml hxl hnd _ _ _ _ ih1 ih2 ih3 ih4 =>
    intro N hN
    obtain ⟨N, rfl⟩ : ∃ k, N = k + 1 := ⟨N - 1, by omega⟩
    have hN' : n ≤ N := by omega
    obtain ⟨ref, type, format, description, enum, ex, min, max, minLength, maxLength, pattern, oneOf, items, required, properties, additional⟩ := s
    dsimp only at hen hex hmin hmax hml hxl hnd ih1 ih2 ih3 ih4
    obtain ⟨one, o1, o2, o3⟩ := list_trip (fun t ht => ih1 t ht N hN')
    obtain ⟨en, e1, e2, e3, e4⟩ := values_member hen
    obtain ⟨x, x1, x2, x3⟩ := value_member "example" hex
    obtain ⟨mn, mn1, mn2, mn3⟩ := float_member "minimum" hmin
    obtain ⟨mx, mx1, mx2, mx3⟩ := float_member "maximum" hmax
    obtain ⟨it, it1, it2, it3⟩ := opt_trip "items" (fun t ht => ih2 t ht N hN')
    obtain ⟨ps, p1, p2, p3, _, p4⟩ := map_trip hnd (fun t ht => ih3 t ht N hN')
    obtain ⟨ad, ad1, ad2, _⟩ := opt_trip "additionalProperties" (fun t ht => ih4 t ht N hN')
    refine ⟨_, by rw [oschemaMembers, oschemaDocs_eq, oschemaOpt_eq, oschemaOpt_eq, oschemaEntries_eq, o1, e1, x1, mn1, mx1, it1, p1, ad1]; rfl,
      ?_, ?_⟩
    · simp only [fine_append]
      have ee : 2 * (n + 1) + 2 = (2 * n + 2) + 2 := by omega
      rw [ee]
      exact ⟨⟨⟨⟨⟨⟨⟨⟨⟨⟨⟨⟨⟨⟨⟨fine_jOptStr, o2 _⟩, fine_jOptStr⟩, fine_jOptStr⟩, fine_jOptStr⟩, fine_mono (fine_jOptArr e2) (by omega)⟩,
        fine_mono x2 (by omega)⟩, mn2 _⟩, mx2 _⟩, fine_jUint⟩, fine_jOptUint⟩, fine_jOptStr⟩, fine_mono it2 (by omega)⟩, fine_texts⟩,
        fine_jOptMap p2⟩, fine_mono ad2 (by omega)⟩
    · try dsimp only
      generalize hM : jOptStr "$ref" ref ++ jOptArr "oneOf" one ++ jOptStr "type" type ++ jOptStr "format" format ++
        jOptStr "description" description ++ jOptArr "enum" en ++ optMember "example" x ++ optMember "minimum" mn ++
        optMember "maximum" mx ++ jUint "minLength" minLength ++
        jOptUint "maxLength" maxLength ++ jOptStr "pattern" pattern ++ optMember "items" it ++ jOptArr "required" (required.map .str) ++
        jOptMap "properties" ps ++ optMember "additionalProperties" ad = M
      have look : ∀ k, jLook k M = _ := fun k => congrArg (jLook k) hM.symm
      simp only [jLook_append, jLook_jOptStr, jLook_jOptArr, jLook_jUint, jLook_jOptUint, jLook_jOptMap, jLook_optMember] at look
      obtain ⟨ml, ml1, ml2⟩ := readUint_val (k := "minLength") (n := minLength) (m := M) (by rw [look]; simp) hml
      rw [readOSchemaN, readOSchemaWith,
        readStr_opt (k := "$ref") (s := ref) (by rw [look]; simp),
        o3 "oneOf" M (by rw [look]; simp),
        readStr_opt (k := "type") (s := type) (by rw [look]; simp),
        readStr_opt (k := "format") (s := format) (by rw [look]; simp),
        readStr_opt (k := "description") (s := description) (by rw [look]; simp),
        readSlice_values (k := "enum") (o := enum) (ds := en) (by rw [look]; simp) e3 e4,
        x3 M (by rw [look]; simp), mn3 M (by rw [look]; simp), mx3 M (by rw [look]; simp), ml1,
        readUint_opt (k := "maxLength") (o := maxLength) (by rw [look]; simp) hxl,
        readStr_opt (k := "pattern") (s := pattern) (by rw [look]; simp),
        it3 M (by rw [look]; simp),
        readList_opt (k := "required") (ds := required.map .str) (by rw [look]; simp), readAll_texts]
      have hp : readMap (readOSchemaN L N) "properties" M = some (oschemaEntriesBack L properties) := by
        unfold readMap
        rw [look, oschemaEntriesBack_eq]
        cases hh : properties.getD [] with
        | nil => rw [hh] at p3; simp [p3]
        | cons q r =>
          rw [hh] at p3 p4
          simp [p3, p4]
      rw [hp]
      simp only [Option.bind_some, Option.map_some, ml2]
      rw [oschemaBack, oschemasBack_eq, oschemaOptBack_eq]

/-! ### The document -/

theorem oexample_trip {L : JLib} {n : Nat} {v : Value} (h : JLiteralOk L n v) :
    TripsTo (oexampleMembers L) (readOExample L) n v (valueBack L v) := by
  obtain ⟨x, x1, x2, x3⟩ := value_member "value" h
  exact ⟨_, x1, x2, x3 _ (by simp [jLook_optMember])⟩

section
variable {L : JLib} {n : Nat} (hn : n ≤ 4990)
include hn

theorem oschema_top {s : OSchema} (h : OSchemaOk L n s) : TripsTo (oschemaMembers L) (readOSchema L) (2 * n + 2) s (oschemaBack L s) :=
  oschema_trip h _ (le_trans hn (by decide))

theorem omedia_trip {c : OMedia} (h : OMediaOk L n c) : TripsTo (omediaMembers L) (readOMedia L) (2 * n + 3) c (omediaBack L c) := by
  obtain ⟨h1, h2, h3, h4⟩ := h
  obtain ⟨x, x1, x2, x3⟩ := opt_trip "schema" (fun s hs => oschema_top hn (h1 s hs))
  obtain ⟨y, y1, y2, y3⟩ := value_member "example" h2
  obtain ⟨ms, m1, m2, m3, _, m4⟩ := map_trip h3 (fun p hp => oexample_trip (h4 p hp))
  refine ⟨_, by rw [omediaMembers, x1, y1, m1]; rfl, ?_, ?_⟩
  · simp only [fine_append]
    exact ⟨⟨x2, fine_mono y2 (by omega)⟩, fine_mono (fine_jOptMap m2) (by omega)⟩
  · try dsimp only
    generalize hM : optMember "schema" x ++ optMember "example" y ++ jOptMap "examples" ms = M
    have look : ∀ k, jLook k M = _ := fun k => congrArg (jLook k) hM.symm
    simp only [jLook_append, jLook_jOptMap, jLook_optMember] at look
    rw [readOMedia, x3 M (by rw [look]; simp), y3 M (by rw [look]; simp), readMapD_ok (k := "examples") (by rw [look]; simp) m3 m4]
    rfl

theorem oparam_trip {c : OParam} (h : OParamOk L n c) : TripsTo (oparamMembers L) (readOParam L) (2 * n + 3) c (oparamBack L c) := by
  obtain ⟨h1, h2, h3, h4⟩ := h
  obtain ⟨x, x1, x2, x3⟩ := opt_trip "schema" (fun s hs => oschema_top hn (h1 s hs))
  obtain ⟨y, y1, y2, y3⟩ := value_member "example" h2
  obtain ⟨ms, m1, m2, m3, _, m4⟩ := map_trip h3 (fun p hp => oexample_trip (h4 p hp))
  refine ⟨_, by rw [oparamMembers, x1, y1, m1]; rfl, ?_, ?_⟩
  · simp only [fine_append]
    exact ⟨⟨⟨⟨⟨⟨fine_jOptStr, fine_jOptStr⟩, fine_jOptStr⟩, fine_jOptBool⟩, x2⟩, fine_mono y2 (by omega)⟩, fine_mono (fine_jOptMap m2) (by omega)⟩
  · try dsimp only
    generalize hM : jOptStr "name" c.name ++ jOptStr "in" c.in ++ jOptStr "description" c.description ++ jOptBool "required" c.required ++
      optMember "schema" x ++ optMember "example" y ++ jOptMap "examples" ms = M
    have look : ∀ k, jLook k M = _ := fun k => congrArg (jLook k) hM.symm
    simp only [jLook_append, jLook_jOptStr, jLook_jOptBool, jLook_jOptMap, jLook_optMember] at look
    rw [readOParam, readStr_opt (k := "name") (s := c.name) (by rw [look]; simp),
      readStr_opt (k := "in") (s := c.in) (by rw [look]; simp),
      readStr_opt (k := "description") (s := c.description) (by rw [look]; simp),
      readBool_opt (k := "required") (b := c.required) (by rw [look]; simp),
      x3 M (by rw [look]; simp), y3 M (by rw [look]; simp), readMapD_ok (k := "examples") (by rw [look]; simp) m3 m4]
    rfl

theorem oheader_trip {c : OHeader} (h : ∀ s ∈ c.schema, OSchemaOk L n s) :
    TripsTo (oheaderMembers L) (readOHeader L) (2 * n + 3) c (oheaderBack L c) := by
  obtain ⟨x, x1, x2, x3⟩ := opt_trip "schema" (fun s hs => oschema_top hn (h s hs))
  refine ⟨_, by rw [oheaderMembers, x1]; rfl, ?_, ?_⟩
  · simp only [fine_append]
    exact ⟨fine_jOptStr, x2⟩
  · try dsimp only
    generalize hM : jOptStr "description" c.description ++ optMember "schema" x = M
    have look : ∀ k, jLook k M = _ := fun k => congrArg (jLook k) hM.symm
    simp only [jLook_append, jLook_jOptStr, jLook_optMember] at look
    rw [readOHeader, readStr_opt (k := "description") (s := c.description) (by rw [look]; simp), x3 M (by rw [look]; simp)]
    rfl

theorem oresponse_trip {r : OResponse} (h : OResponseOk L n r) :
    TripsTo (oresponseMembers L) (readOResponse L) (2 * n + 5) r (oresponseBack L r) := by
  obtain ⟨hs, h1, h2, h3, _, h4⟩ := map_trip h.keys (fun p hp => oheader_trip hn (h.headers p hp))
  obtain ⟨cs, c1, c2, c3, _, c4⟩ := map_trip h.content.1 (fun p hp => omedia_trip hn (h.content.2 p hp))
  refine ⟨_, by rw [oresponseMembers, h1, c1]; rfl, ?_, ?_⟩
  · simp only [fine_append]
    exact ⟨⟨fine_jOptStr, fine_jOptMap h2⟩, fine_jOptMap c2⟩
  · try dsimp only
    generalize hM : jOptStr "description" r.description ++ jOptMap "headers" hs ++ jOptMap "content" cs = M
    have look : ∀ k, jLook k M = _ := fun k => congrArg (jLook k) hM.symm
    simp only [jLook_append, jLook_jOptStr, jLook_jOptMap] at look
    rw [readOResponse, readStr_opt (k := "description") (s := r.description) (by rw [look]; simp),
      readMapD_ok (k := "headers") (by rw [look]; simp) h3 h4, readMapD_ok (k := "content") (by rw [look]; simp) c3 c4]
    rfl

theorem obody_trip {b : OBody} (h : OContentOk L n b.content) :
    TripsTo (obodyMembers L) (readOBody L) (2 * n + 5) b (obodyBack L b) := by
  obtain ⟨cs, c1, c2, c3, _, c4⟩ := map_trip h.1 (fun p hp => omedia_trip hn (h.2 p hp))
  refine ⟨_, by rw [obodyMembers, c1]; rfl, ?_, ?_⟩
  · simp only [fine_append]
    exact ⟨⟨fine_jOptStr, fine_jOptBool⟩, fine_jOptMap c2⟩
  · try dsimp only
    generalize hM : jOptStr "description" b.description ++ jOptBool "required" b.required ++ jOptMap "content" cs = M
    have look : ∀ k, jLook k M = _ := fun k => congrArg (jLook k) hM.symm
    simp only [jLook_append, jLook_jOptStr, jLook_jOptBool, jLook_jOptMap] at look
    rw [readOBody, readStr_opt (k := "description") (s := b.description) (by rw [look]; simp),
      readBool_opt (k := "required") (b := b.required) (by rw [look]; simp), readMapD_ok (k := "content") (by rw [look]; simp) c3 c4]
    rfl

theorem ooperation_trip {o : OOperation} (h : OOperationOk L n o) :
    TripsTo (ooperationMembers L) (readOOperation L) (2 * n + 7) o (ooperationBack L o) := by
  obtain ⟨ps, p1, p2, p3⟩ := list_trip (fun p hp => oparam_trip hn (h.parameters p hp))
  obtain ⟨x, x1, x2, x3⟩ := opt_trip "requestBody" (fun b hb => obody_trip hn (h.body b hb))
  obtain ⟨rs, r1, r2, r3, _, r4⟩ := map_trip h.keys (fun p hp => oresponse_trip hn (h.responses p hp))
  refine ⟨_, by rw [ooperationMembers, p1, x1, r1]; rfl, ?_, ?_⟩
  · simp only [fine_append]
    exact ⟨⟨⟨⟨⟨fine_texts, fine_jOptStr⟩, fine_jOptStr⟩, fine_mono (p2 _) (by omega)⟩, fine_mono x2 (by omega)⟩, fine_jOptMap r2⟩
  · try dsimp only
    generalize hM : jOptArr "tags" (o.tags.map .str) ++ jOptStr "summary" o.summary ++ jOptStr "operationId" o.operationId ++
      jOptArr "parameters" ps ++ optMember "requestBody" x ++ jOptMap "responses" rs = M
    have look : ∀ k, jLook k M = _ := fun k => congrArg (jLook k) hM.symm
    simp only [jLook_append, jLook_jOptStr, jLook_jOptArr, jLook_jOptMap, jLook_optMember] at look
    rw [readOOperation, readList_opt (k := "tags") (ds := o.tags.map .str) (by rw [look]; simp), readAll_texts,
      readStr_opt (k := "summary") (s := o.summary) (by rw [look]; simp),
      readStr_opt (k := "operationId") (s := o.operationId) (by rw [look]; simp),
      p3 "parameters" M (by rw [look]; simp), x3 M (by rw [look]; simp), readMapD_ok (k := "responses") (by rw [look]; simp) r3 r4]
    rfl

theorem opath_trip {i : OPathItem} (h : ∀ k, ∀ o ∈ i.op k, OOperationOk L n o) :
    TripsTo (opathMembers L) (readOPath L) (2 * n + 8) i (opathBack L i) := by
  obtain ⟨de, a1, a2, a3⟩ := opt_trip "delete" (o := i.delete) (fun o ho => ooperation_trip hn (h .delete o ho))
  obtain ⟨ge, b1, b2, b3⟩ := opt_trip "get" (o := i.get) (fun o ho => ooperation_trip hn (h .get o ho))
  obtain ⟨he, c1, c2, c3⟩ := opt_trip "head" (o := i.head) (fun o ho => ooperation_trip hn (h .head o ho))
  obtain ⟨pa, d1, d2, d3⟩ := opt_trip "patch" (o := i.patch) (fun o ho => ooperation_trip hn (h .patch o ho))
  obtain ⟨po, e1, e2, e3⟩ := opt_trip "post" (o := i.post) (fun o ho => ooperation_trip hn (h .post o ho))
  obtain ⟨pu, f1, f2, f3⟩ := opt_trip "put" (o := i.put) (fun o ho => ooperation_trip hn (h .put o ho))
  refine ⟨_, by rw [opathMembers, a1, b1, c1, d1, e1, f1]; rfl, ?_, ?_⟩
  · simp only [fine_append]
    exact ⟨⟨⟨⟨⟨a2, b2⟩, c2⟩, d2⟩, e2⟩, f2⟩
  · try dsimp only
    generalize hM : optMember "delete" de ++ optMember "get" ge ++ optMember "head" he ++ optMember "patch" pa ++
      optMember "post" po ++ optMember "put" pu = M
    have look : ∀ k, jLook k M = _ := fun k => congrArg (jLook k) hM.symm
    simp only [jLook_append, jLook_optMember] at look
    rw [readOPath, a3 M (by rw [look]; simp), b3 M (by rw [look]; simp), c3 M (by rw [look]; simp), d3 M (by rw [look]; simp),
      e3 M (by rw [look]; simp), f3 M (by rw [look]; simp)]
    rfl

end

theorem olicense_trip (l : String × String) : TripsTo olicenseMembers readOLicense 0 l (id l) := by
  refine ⟨_, rfl, ?_, ?_⟩
  · simp only [fine_append]
    exact ⟨fine_jOptStr, fine_jOptStr⟩
  · rw [readOLicense, readStr_opt (k := "name") (s := l.1) (by simp [jLook_append, jLook_jOptStr]),
      readStr_opt (k := "url") (s := l.2) (by simp [jLook_append, jLook_jOptStr])]
    rfl

theorem oinfo_trip (d : ODoc) : TripsTo oinfoMembers readOInfo 1 d ⟨d.title, d.description, d.version, d.license⟩ := by
  obtain ⟨x, x1, x2, x3⟩ := opt_trip "license" (o := d.license) (fun l _ => olicense_trip l)
  refine ⟨_, by rw [oinfoMembers, x1]; rfl, ?_, ?_⟩
  · simp only [fine_append]
    exact ⟨⟨⟨fine_jOptStr, fine_jOptStr⟩, x2⟩, fine_jOptStr⟩
  · try dsimp only
    generalize hM : jOptStr "title" d.title ++ jOptStr "description" d.description ++ optMember "license" x ++
      jOptStr "version" d.version = M
    have look : ∀ k, jLook k M = _ := fun k => congrArg (jLook k) hM.symm
    simp only [jLook_append, jLook_jOptStr, jLook_optMember] at look
    rw [readOInfo, readStr_opt (k := "title") (s := d.title) (by rw [look]; simp),
      readStr_opt (k := "description") (s := d.description) (by rw [look]; simp),
      readStr_opt (k := "version") (s := d.version) (by rw [look]; simp), x3 M (by rw [look]; simp)]
    cases d.license <;> rfl

theorem no_null {ms : JMembers} (h : ∀ p ∈ ms, ∃ d, p.2 = JDoc.obj d) : nonNull ms = ms ∧ nullKeys ms = [] := by
  induction ms with
  | nil => exact ⟨rfl, rfl⟩
  | cons p r ih =>
    obtain ⟨k, x⟩ := p
    obtain ⟨d, rfl⟩ : ∃ d, x = JDoc.obj d := h (k, x) (by simp)
    obtain ⟨h1, h2⟩ := ih fun q hq => h q (by simp [hq])
    exact ⟨by rw [nonNull, h1]; simp, by rw [nullKeys, h2]; simp⟩

theorem servers_trip (us : List String) : readAll (readObj (readStr "url")) (us.map fun u => .obj (jOptStr "url" u)) = some us := by
  induction us with
  | nil => rfl
  | cons u r ih =>
    rw [List.map_cons, readAll, ih, readObj, readStr_opt (k := "url") (s := u) (by simp [jLook_jOptStr])]
    rfl

theorem odoc_trip {L : JLib} {n : Nat} (hn : n ≤ 4990) {d : ODoc} (h : ODocOk L n d) :
    ∃ ms, odocMembers L d = some ms ∧ JFine (2 * n + 10) ms ∧ readOFile L ms = some { doc := odocBack L d } := by
  obtain ⟨cs, c1, c2, c3, _, c4⟩ := map_trip h.schemaKeys (fun p hp => oschema_top hn (h.schemas p hp))
  obtain ⟨info, i1, i2, i3⟩ := oinfo_trip d
  obtain ⟨ps, p1, p2, p3, p5, p4⟩ := map_trip h.pathKeys (fun p hp => opath_trip hn (h.paths p hp))
  have hnull := no_null (ms := jSort ps) (fun p hp => p5 p ((jSort_perm _).mem_iff.1 hp))
  refine ⟨_, by rw [odocMembers, c1, i1, p1]; rfl, ?_, ?_⟩
  · rw [fine_append]
    constructor
    · intro q hq
      simp only [List.mem_cons, List.not_mem_nil, or_false] at hq
      rcases hq with rfl | rfl | rfl | rfl
      · exact (fun hh => ⟨hh.1, le_trans hh.2 (by omega)⟩) (fine_obj (fine_jOptMap (k := "schemas") c2))
      · exact (fun hh => ⟨hh.1, le_trans hh.2 (by omega)⟩) (fine_obj i2)
      · exact ⟨trivial, Nat.zero_le _⟩
      · exact (fun hh => ⟨hh.1, le_trans hh.2 (by omega)⟩) (fine_obj p2)
    · refine fine_mono (D := 2) (fine_jOptArr fun e he => ?_) (by omega)
      obtain ⟨u, _, rfl⟩ := List.mem_map.1 he
      exact fine_obj (D := 0) fine_jOptStr
  · try dsimp only
    generalize hM : [("components", JDoc.obj (jOptMap "schemas" cs)), ("info", .obj info), ("openapi", .str d.openapi), ("paths", .obj (jSort ps))] ++
      jOptArr "servers" (d.servers.map fun u => .obj (jOptStr "url" u)) = M
    have look : ∀ k, jLook k M = _ := fun k => congrArg (jLook k) hM.symm
    simp only [jLook_append, jLook_jOptArr, jLook] at look
    have l1 : jLook "components" M = some (.obj (jOptMap "schemas" cs)) := by rw [look]; simp
    have l2 : jLook "info" M = some (.obj info) := by rw [look]; simp
    have l3 : jLook "paths" M = some (.obj (jSort ps)) := by rw [look]; simp
    rw [readOFile, readStr_some (k := "openapi") (s := d.openapi) (by rw [look]; simp),
      readList_opt (k := "servers") (ds := d.servers.map fun u => .obj (jOptStr "url" u)) (by rw [look]; simp), servers_trip]
    unfold readOptObj readOPaths
    simp only [l1, l2, l3, readObj, i3, hnull.1, hnull.2, p4,
      readMapD_ok (k := "schemas") (m := jOptMap "schemas" cs) (by rw [jLook_jOptMap]; simp) c3 c4]
    rfl

end Sadl
