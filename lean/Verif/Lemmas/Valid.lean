import Verif.Spec.Valid
import Verif.Model.ParserValidate
import Verif.Lemmas.ValidateApi
import Verif.Lemmas.Http
import Verif.Lemmas.Tactics
/-
The checks of the parser agree with `Spec.Valid`.
-/
namespace Sadl
open Spec

theorem andThen_rok {r k : Res Unit} : r.andThen k = rok ↔ r = rok ∧ k = rok := by
  unfold Res.andThen rok
  rcases r with _ | (_ | _ | _) <;> simp

theorem checkAll_rok {α : Type} {f : α → Res Unit} {xs : List α} : checkAll f xs = rok ↔ ∀ x ∈ xs, f x = rok := by
  induction xs with
  | nil => simp [checkAll]
  | cons x r ih => rw [checkAll, andThen_rok, ih]; simp

theorem ofVRes_rok {v : VRes} : ofVRes v = rok ↔ v = vok := by
  unfold ofVRes rok vok
  rcases v with _ | (_ | _) <;> simp [rok]

@[simp] theorem rerr_eq_rok (e : String) : (rerr e = rok) ↔ False := by simp [rerr, rok]
@[simp] theorem panic_eq_rok (e : String) : ((some (.panic e) : Res Unit) = rok) ↔ False := by simp [rok]

theorem ite_rok {c : Prop} [Decidable c] {a b : Res Unit} :
    (if c then a else b) = rok ↔ (c → a = rok) ∧ (¬ c → b = rok) := by
  split_ifs with h <;> simp [h]

section
variable {lib : Lib} {s : Schema} {m : Model} (hm : newModel s = .ok m)
include hm

theorem findType_defines {n : String} {td : TypeDef} (h : m.findType n = some td) : Defines s n td.ts := by
  rw [← means_eq_defines hm]; exact ⟨td, h, rfl⟩

theorem findType_of_defines {n : String} {ts : TypeSpec} (h : Defines s n ts) : ∃ td, m.findType n = some td ∧ td.ts = ts := by
  rw [← means_eq_defines hm] at h; exact h

theorem findType_none {n : String} : m.findType n = none ↔ ¬ Known s n := by
  constructor
  · rintro h ⟨ts, hts⟩
    obtain ⟨td, h1, _⟩ := findType_of_defines hm hts
    rw [h] at h1; cases h1
  · intro h
    cases hf : m.findType n with
    | none => rfl
    | some td => exact absurd ⟨_, findType_defines hm hf⟩ h

theorem defined_rok {n : String} : defined m n = rok ↔ Known s n := by
  unfold defined
  cases hf : m.findType n with
  | none => simp [(findType_none hm).1 hf]
  | some td => exact ⟨fun _ => ⟨_, findType_defines hm hf⟩, fun _ => rfl⟩

omit hm in
theorem known_any : Known s "Any" := ⟨_, .inr ⟨by decide, rfl⟩⟩
omit hm in
theorem known_string : Known s "String" := ⟨_, .inr ⟨by decide, rfl⟩⟩

omit hm in
theorem isNumericType_iff {ts : TypeSpec} : isNumericType ts = true ↔ ts.type ∈ NumericNames := by
  unfold isNumericType NumericNames
  split
  iterate 7 (next h => simp [h])
  next h => simp_all

omit hm in
theorem notNil_iff {v : Value} : notNil v = true ↔ v ≠ .null := by
  cases v <;> simp [notNil]

theorem optional_rok {n : String} : (if n ≠ "" ∧ n ≠ "Any" then defined m n else rok) = rok ↔ (n ≠ "" → Known s n) := by
  rw [ite_rok, defined_rok hm]
  constructor
  · rintro ⟨h1, _⟩ hn
    by_cases ha : n = "Any"
    · rw [ha]; exact known_any
    · exact h1 ⟨hn, ha⟩
  · intro h
    exact ⟨fun ⟨h1, _⟩ => h h1, fun _ => rfl⟩

theorem checkField_rok {n : Nat} {f : StructFieldDef} :
    checkField lib m n f = rok ↔ FieldOk (fun ts v => validateSpec lib m n ts v = vok) s f := by
  have hp : checkFieldParams m f.ts = rok ↔ (f.ts.type = "Array" → f.ts.items ≠ "" → Known s f.ts.items) ∧
      (f.ts.type = "Map" → f.ts.keys ≠ "" → Known s f.ts.keys) ∧ (f.ts.type = "Map" → f.ts.items ≠ "" → Known s f.ts.items) := by
    unfold checkFieldParams
    split
    · next h => rw [optional_rok hm]; simp [h]
    · next h => rw [andThen_rok, optional_rok hm, optional_rok hm]; simp [h]
    · next h1 h2 => exact ⟨fun _ => ⟨fun h => absurd h h1, fun h => absurd h h2, fun h => absurd h h2⟩, fun _ => rfl⟩
  have hd : checkDefault lib m n f = rok ↔ (f.default ≠ .null → f.required = false) ∧
      (f.default ≠ .null → validateSpec lib m n f.ts f.default = vok) := by
    unfold checkDefault
    rw [ite_rok, notNil_iff]
    simp only [ite_rok, ofVRes_rok, rerr_eq_rok, Bool.not_eq_true]
    constructor
    · rintro ⟨h1, _⟩
      exact ⟨fun h => by cases hr : f.required <;> [rfl; exact absurd hr (h1 h).1],
        fun h => (h1 h).2 (by cases hr : f.required <;> [rfl; exact absurd hr (h1 h).1])⟩
    · rintro ⟨h1, h2⟩
      exact ⟨fun h => ⟨by simp [h1 h], fun _ => h2 h⟩, fun _ => trivial⟩
  have hv : (if f.ts.values.isSome = true ∧ f.ts.pattern ≠ "" then rerr "Cannot have both 'values' and 'pattern'" else rok) = rok ↔
      (f.ts.values = none ∨ f.ts.pattern = "") := by
    rw [ite_rok]
    cases f.ts.values <;> simp
  unfold checkField
  rw [andThen_rok, andThen_rok, andThen_rok, defined_rok hm, hp, hd, hv]
  constructor
  · rintro ⟨h1, ⟨h2, h3, h4⟩, ⟨h5, h6⟩, h7⟩
    exact ⟨h1, h2, h3, h4, h5, h6, h7⟩
  · rintro ⟨h1, h2, h3, h4, h5, h6, h7⟩
    exact ⟨h1, ⟨h2, h3, h4⟩, ⟨h5, h6⟩, h7⟩

theorem checkUnitValue_rok {td : TypeDef} : checkUnitValue m td = rok ↔ ∃ tv tu, Defines s td.ts.value tv ∧
    tv.type ∈ NumericNames ∧ Defines s td.ts.unit tu ∧ (tu.type = "String" ∨ tu.type = "Enum") := by
  unfold checkUnitValue
  cases h1 : m.findType td.ts.value with
  | none =>
    simp only [rerr_eq_rok, false_iff]
    rintro ⟨tv, tu, h, _⟩
    exact (findType_none hm).1 h1 ⟨_, h⟩
  | some vt =>
    simp only [ite_rok, rerr_eq_rok, isNumericType_iff]
    cases h2 : m.findType td.ts.unit with
    | none =>
      simp only [rerr_eq_rok]
      constructor
      · rintro ⟨h3, h4⟩; exact absurd h3 h4
      · rintro ⟨tv, tu, _, _, h, _⟩
        exact absurd ⟨_, h⟩ ((findType_none hm).1 h2)
    | some ut =>
      simp only [ite_rok, rerr_eq_rok]
      constructor
      · rintro ⟨h3, h4⟩
        have hn := not_not.1 h4
        refine ⟨_, _, findType_defines hm h1, hn, findType_defines hm h2, ?_⟩
        have := (h3 hn).1
        tauto
      · rintro ⟨tv, tu, h3, h4, h5, h6⟩
        have e1 := defines_unique hm h3 (findType_defines hm h1)
        have e2 := defines_unique hm h5 (findType_defines hm h2)
        subst e1 e2
        exact ⟨fun _ => ⟨by tauto, fun _ => trivial⟩, fun h => h h4⟩

theorem checkReference_rok {td : TypeDef} : checkReference m td = rok ↔ (td.ts.reference ≠ "" → Known s td.ts.reference) := by
  unfold checkReference
  rw [ite_rok, defined_rok hm]
  simp

theorem checkType_rok {n : Nat} {td : TypeDef} :
    checkType lib m n td = rok ↔ TypeOk (fun ts v => validateSpec lib m n ts v = vok) s td := by
  unfold checkType
  split
  · next h =>
    unfold checkStruct
    rw [checkAll_rok]
    constructor
    · intro hc
      exact ⟨fun _ f hf => (checkField_rok hm).1 (hc f hf), by simp [h], by simp [h], by simp [h], by simp [h], by simp [h]⟩
    · intro hc f hf
      exact (checkField_rok hm).2 (hc.struct h f hf)
  · next h =>
    unfold checkArray
    rw [ite_rok, defined_rok hm]
    constructor
    · intro hc
      refine ⟨by simp [h], fun _ => ?_, by simp [h], by simp [h], by simp [h], by simp [h]⟩
      by_cases ha : td.ts.items = "Any"
      · rw [ha]; exact known_any
      · exact hc.2 ha
    · intro hc
      exact ⟨fun _ => rfl, fun _ => hc.array h⟩
  · next h =>
    unfold checkMap
    rw [ite_rok, andThen_rok, ite_rok, defined_rok hm, defined_rok hm]
    constructor
    · intro hc
      refine ⟨by simp [h], by simp [h], fun _ => ?_, by simp [h], by simp [h], by simp [h]⟩
      by_cases ha : td.ts.items = "Any"
      · exact .inl ha
      · refine .inr ⟨(hc.2 ha).1, ?_⟩
        by_cases hk : td.ts.keys = "String"
        · rw [hk]; exact known_string
        · exact (hc.2 ha).2.2 hk
    · intro hc
      rcases hc.map h with h1 | h1
      · exact ⟨fun _ => rfl, fun h2 => absurd h1 h2⟩
      · exact ⟨fun _ => rfl, fun _ => ⟨h1.1, fun _ => rfl, fun _ => h1.2⟩⟩
  · next h =>
    rw [checkUnitValue_rok hm]
    constructor
    · intro hc
      exact ⟨by simp [h], by simp [h], by simp [h], fun _ => hc, by simp [h], by simp [h]⟩
    · intro hc
      exact hc.unitValue h
  · next h =>
    unfold checkStringDef
    rw [ite_rok, checkReference_rok hm]
    simp only [rerr_eq_rok]
    constructor
    · intro hc
      have hx : td.ts.values = none ∨ td.ts.pattern = "" := by
        by_contra hcon
        push Not at hcon
        exact hc.1 ⟨hcon.2, by cases hv : td.ts.values <;> simp_all⟩
      have hx' : ¬ (td.ts.pattern ≠ "" ∧ td.ts.values.isSome = true) := fun h2 => hc.1 h2
      exact ⟨by simp [h], by simp [h], by simp [h], by simp [h], fun _ => hx, fun _ => hc.2 hx'⟩
    · intro hc
      refine ⟨fun h2 => ?_, fun _ => hc.reference (.inl h)⟩
      rcases hc.patternOrValues h with h3 | h3
      · simp [h3] at h2
      · exact h2.1 h3
  · next h =>
    rw [checkReference_rok hm]
    constructor
    · intro hc
      exact ⟨by simp [h], by simp [h], by simp [h], by simp [h], by simp [h], fun _ => hc⟩
    · intro hc
      exact hc.reference (.inr h)
  · next h1 h2 h3 h4 h5 h6 =>
    refine ⟨fun _ => ⟨fun h => absurd h h1, fun h => absurd h h2, fun h => absurd h h3, fun h => absurd h h4,
      fun h => absurd h h5, ?_⟩, fun _ => rfl⟩
    rintro (h | h)
    · exact absurd h h5
    · exact absurd h h6

/-! ### examples -/

omit hm in
theorem reverse_find? {α : Type} {p : α → Bool} {l : List α} {x : α} :
    l.reverse.find? p = some x ↔ p x = true ∧ ∃ a b, l = a ++ x :: b ∧ ∀ y ∈ b, p y = false := by
  rw [List.find?_eq_some_iff_append]
  constructor
  · rintro ⟨h1, as, bs, h2, h3⟩
    refine ⟨h1, bs.reverse, as.reverse, ?_, ?_⟩
    · have := congrArg List.reverse h2
      simpa using this
    · intro y hy
      have := h3 y (by simpa using hy)
      simpa using this
  · rintro ⟨h1, a, b, rfl, h3⟩
    refine ⟨h1, b.reverse, a.reverse, by simp, ?_⟩
    intro y hy
    simp [h3 y (by simpa using hy)]

theorem exampleSpec_iff {target : String} {ts : TypeSpec} : exampleSpec m target = some ts ↔ Target s target ts := by
  unfold exampleSpec
  cases h1 : m.findType target with
  | some td =>
    simp only [Option.some.injEq]
    constructor
    · rintro rfl; exact .type (findType_defines hm h1)
    · intro h
      cases h with
      | type h => exact defines_unique hm (findType_defines hm h1) h
      | field hn => exact absurd ⟨_, findType_defines hm h1⟩ hn
  | none =>
    have hk := (findType_none hm).1 h1
    cases h2 : splitFirst '.' target.toList with
    | none =>
      simp only [reduceCtorEq, false_iff]
      intro h
      cases h with
      | type h => exact hk ⟨_, h⟩
      | field _ ht =>
        rw [splitFirst_none] at h2
        apply h2
        rw [ht]; simp
    | some ab =>
      obtain ⟨a, b⟩ := ab
      obtain ⟨h3, h4⟩ := splitFirst_some.1 h2
      have hsplit : ∀ tname mname : String, target = tname ++ "." ++ mname → '.' ∉ tname.toList → tname.toList = a ∧ mname.toList = b := by
        intro tname mname e hd
        have e' : target.toList = tname.toList ++ '.' :: mname.toList := by rw [e]; simp
        have := splitFirst_some.2 ⟨e', hd⟩
        rw [h2] at this
        injection this with this
        injection this with e1 e2
        exact ⟨e1.symm, e2.symm⟩
      dsimp only
      by_cases h5 : a = []
      · simp only [h5, if_true, reduceCtorEq, false_iff]
        intro h
        cases h with
        | type h => exact hk ⟨_, h⟩
        | field _ ht hd hne =>
          have := (hsplit _ _ ht hd).1
          apply hne
          rw [h5] at this
          exact String.toList_inj.1 (by simpa using this)
      · simp only [h5, if_false]
        cases h6 : m.findType (String.ofList a) with
        | none =>
          simp only [reduceCtorEq, false_iff]
          intro h
          cases h with
          | type h => exact hk ⟨_, h⟩
          | field _ ht hd hne hD =>
            rw [← (hsplit _ _ ht hd).1, String.ofList_toList] at h6
            exact (findType_none hm).1 h6 ⟨_, hD⟩
        | some td =>
          have hD := findType_defines hm h6
          dsimp only
          by_cases h7 : td.ts.type = "Struct"
          · simp only [h7, if_true, Option.map_eq_some_iff, reverse_find?]
            constructor
            · rintro ⟨f, ⟨h8, bef, aft, h9, h10⟩, rfl⟩
              refine .field (tname := String.ofList a) (mname := String.ofList b) hk ?_ (by simpa using h4) ?_ hD h7 h9
                (by simpa using h8) (fun g hg => by simpa using h10 g hg)
              · apply String.toList_inj.1
                rw [h3]; simp
              · intro h0
                have := congrArg String.toList h0
                rw [String.toList_ofList] at this
                exact h5 (by simpa using this)
            · intro h
              cases h with
              | type h => exact absurd ⟨_, h⟩ hk
              | @field tname mname t f bef aft _ ht hd hne hD' hs' hf hfn hlast =>
                obtain ⟨e1, e2⟩ := hsplit _ _ ht hd
                have et : String.ofList a = tname := by rw [← e1, String.ofList_toList]
                have em : String.ofList b = mname := by rw [← e2, String.ofList_toList]
                rw [et] at hD
                have := defines_unique hm hD hD'
                subst this
                refine ⟨f, ⟨?_, bef, aft, hf, ?_⟩, rfl⟩
                · simp [em, hfn]
                · intro y hy; simp [em, hlast y hy]
          · simp only [h7, if_false, reduceCtorEq, false_iff]
            intro h
            cases h with
            | type h => exact absurd ⟨_, h⟩ hk
            | field _ ht hd hne hD' hs' =>
              obtain ⟨e1, e2⟩ := hsplit _ _ ht hd
              rw [← e1, String.ofList_toList] at hD
              rw [defines_unique hm hD hD'] at h7
              exact h7 hs'

omit hm in
theorem cutSuffixS_iff {suf t base : String} : cutSuffixS suf t = some base ↔ t = base ++ suf := by
  unfold cutSuffixS
  constructor
  · intro h
    split_ifs at h with h1
    injection h with h
    rw [List.isSuffixOf_iff_suffix] at h1
    obtain ⟨a, ha⟩ := h1
    apply String.toList_inj.1
    rw [← h, String.toList_append, String.toList_ofList, ← ha]
    simp
  · rintro rfl
    rw [if_pos (by rw [List.isSuffixOf_iff_suffix, String.toList_append]; exact ⟨_, rfl⟩)]
    rw [String.toList_append]
    simp

omit hm in
theorem not_both {a b : String} : a ++ "Request" ≠ b ++ "Response" := by
  intro h
  have h1 := congrArg (fun x => (String.toList x).reverse) h
  simp only [String.toList_append, List.reverse_append] at h1
  have h2 : ("Request".toList.reverse ++ a.toList.reverse)[1]? = ("Response".toList.reverse ++ b.toList.reverse)[1]? := by rw [h1]
  have e1 : "Request".toList.reverse = ['t', 's', 'e', 'u', 'q', 'e', 'R'] := by decide
  have e2 : "Response".toList.reverse = ['e', 's', 'n', 'o', 'p', 's', 'e', 'R'] := by decide
  rw [e1, e2] at h1
  simp at h1

theorem checkMember_rok {n : Nat} {ps : List HttpParamSpec} {kv : String × Value} :
    checkMember lib m n ps kv = rok ↔ ∀ p ∈ ps, p.field.name = kv.1 → ∃ ts, Defines s p.field.ts.type ts ∧
      validateSpec lib m n ts kv.2 = vok := by
  unfold checkMember
  rw [checkAll_rok]
  refine forall_congr' fun p => forall_congr' fun _ => ?_
  rw [ite_rok]
  constructor
  · rintro ⟨h1, _⟩ hp
    have h2 := h1 hp
    cases hf : m.findType p.field.ts.type with
    | none => rw [hf] at h2; simp at h2
    | some td =>
      rw [hf] at h2
      exact ⟨td.ts, findType_defines hm hf, ofVRes_rok.1 h2⟩
  · intro h
    refine ⟨fun hp => ?_, fun _ => rfl⟩
    obtain ⟨ts, h1, h2⟩ := h hp
    obtain ⟨td, h3, rfl⟩ := findType_of_defines hm h1
    rw [h3]
    exact ofVRes_rok.2 h2

omit hm in
theorem checkPresent_rok {ps : List HttpParamSpec} {kvs : GoMap Value} :
    checkPresent ps kvs = rok ↔ ∀ p ∈ ps, p.field.required = true → ∃ x, (p.field.name, x) ∈ kvs := by
  unfold checkPresent
  rw [checkAll_rok]
  refine forall_congr' fun p => forall_congr' fun _ => ?_
  rw [ite_rok]
  simp only [rerr_eq_rok, Option.isNone_iff_eq_none, mget_none_iff, List.mem_map, Prod.exists, exists_and_right, exists_eq_right,
    imp_false, not_and, not_not, implies_true, and_true]

theorem checkHttpExample_rok {n : Nat} {ps : List HttpParamSpec} {v : Value} :
    checkHttpExample lib m n ps v = rok ↔ ParamsOk (fun ts v => validateSpec lib m n ts v = vok) s ps v := by
  unfold checkHttpExample ParamsOk
  split
  · next kvs =>
    rw [andThen_rok, checkAll_rok, checkPresent_rok]
    constructor
    · rintro ⟨h1, h2⟩
      exact ⟨kvs, rfl, fun k x hx p hp he => (checkMember_rok hm).1 (h1 (k, x) hx) p hp he, h2⟩
    · rintro ⟨kvs', he, h1, h2⟩
      injection he with he
      subst he
      exact ⟨fun kv hkv => (checkMember_rok hm).2 (fun p hp he => h1 kv.1 kv.2 hkv p hp he), h2⟩
  · next h =>
    simp only [rerr_eq_rok, false_iff]
    rintro ⟨kvs, rfl, _⟩
    exact h kvs rfl

theorem findHttp_iff {n : String} {h : HttpDef} : m.findHttp n = some h ↔ h ∈ s.http ∧ h.name = n :=
  newModel_findHttp_iff hm n h

theorem findHttp_unique {a b : HttpDef} (ha : a ∈ s.http) (hb : b ∈ s.http) (h : a.name = b.name) : a = b := by
  have h1 := (findHttp_iff hm).2 ⟨ha, rfl⟩
  have h2 := (findHttp_iff hm).2 ⟨hb, h.symm⟩
  rw [h1] at h2
  injection h2

theorem checkExample_rok {n : Nat} {ex : ExampleDef} :
    checkExample lib m n ex = rok ↔ ExampleOk (fun ts v => validateSpec lib m n ts v = vok) s ex := by
  unfold checkExample
  cases h1 : exampleSpec m ex.target with
  | some ts =>
    have ht := (exampleSpec_iff hm).1 h1
    simp only [ofVRes_rok]
    constructor
    · intro h; exact .type ht h
    · intro h
      cases h with
      | type ht' hc =>
        have := (exampleSpec_iff hm).2 ht'
        rw [h1] at this
        injection this with this
        rw [this]; exact hc
      | request hn => exact absurd ht (hn _)
      | response hn => exact absurd ht (hn _)
  | none =>
    have hn : ∀ ts, ¬ Target s ex.target ts := by
      intro ts ht
      rw [(exampleSpec_iff hm).2 ht] at h1
      cases h1
    dsimp only
    cases h2 : cutSuffixS "Request" ex.target with
    | some base =>
      have e2 := cutSuffixS_iff.1 h2
      dsimp only
      have huniq : ∀ b, ex.target = b ++ "Request" → b = base := by
        intro b hb
        have := cutSuffixS_iff.2 hb
        rw [h2] at this
        injection this with this
        exact this.symm
      cases h3 : m.findHttp (uncapitalize base) with
      | none =>
        simp only [rerr_eq_rok, false_iff]
        intro h
        cases h with
        | type ht => exact hn _ ht
        | request _ he hh hname =>
          rw [huniq _ he] at hname
          rw [(findHttp_iff hm).2 ⟨hh, hname⟩] at h3
          cases h3
        | response _ he => exact not_both (e2.symm.trans he)
      | some h =>
        obtain ⟨h4, h5⟩ := (findHttp_iff hm).1 h3
        simp only [checkHttpExample_rok hm]
        constructor
        · intro hp; exact .request hn e2 h4 h5 hp
        · intro hp
          cases hp with
          | type ht => exact absurd ht (hn _)
          | request _ he hh hname hps =>
            rw [huniq _ he] at hname
            rw [findHttp_unique hm h4 hh (h5.trans hname.symm)]
            exact hps
          | response _ he => exact absurd (e2.symm.trans he) not_both
    | none =>
      have hr : ∀ b, ex.target ≠ b ++ "Request" := by
        intro b hb
        rw [cutSuffixS_iff.2 hb] at h2
        cases h2
      dsimp only
      cases h3 : cutSuffixS "Response" ex.target with
      | none =>
        simp only [rerr_eq_rok, false_iff]
        intro h
        cases h with
        | type ht => exact hn _ ht
        | request _ he => exact hr _ he
        | response _ he =>
          rw [cutSuffixS_iff.2 he] at h3
          cases h3
      | some base =>
        have e3 := cutSuffixS_iff.1 h3
        dsimp only
        have huniq : ∀ b, ex.target = b ++ "Response" → b = base := by
          intro b hb
          have := cutSuffixS_iff.2 hb
          rw [h3] at this
          injection this with this
          exact this.symm
        cases h4 : m.findHttp (uncapitalize base) with
        | none =>
          simp only [rerr_eq_rok, false_iff]
          intro h
          cases h with
          | type ht => exact hn _ ht
          | request _ he => exact hr _ he
          | response _ he hh hname =>
            rw [huniq _ he] at hname
            rw [(findHttp_iff hm).2 ⟨hh, hname⟩] at h4
            cases h4
        | some h =>
          obtain ⟨h5, h6⟩ := (findHttp_iff hm).1 h4
          dsimp only
          unfold checkHttpResponse
          constructor
          · intro hc
            cases hv : ex.example with
            | obj kvs =>
              rw [hv] at hc
              cases he : h.expected with
              | none => rw [he] at hc; simp at hc
              | some e =>
                rw [he] at hc
                refine .response hn e3 h5 h6 he ?_
                rw [hv]
                exact (checkHttpExample_rok hm).1 hc
            | _ => rw [hv] at hc; simp at hc
          · intro hp
            cases hp with
            | type ht => exact absurd ht (hn _)
            | request _ he => exact absurd he (hr _)
            | response _ he hh hname hexp hps =>
              rw [huniq _ he] at hname
              have := findHttp_unique hm h5 hh (h6.trans hname.symm)
              subst this
              obtain ⟨kvs, hv, _⟩ := id hps
              rw [hv, hexp]
              dsimp only
              rw [checkHttpExample_rok hm, ← hv]
              exact hps

/-! ### HTTP actions -/

theorem checkInputs_rok {needs : Bool} {ps : List HttpParamSpec} (hn : ∀ p ∈ ps, p.field.name ≠ "") :
    ∀ body, checkInputs m needs body ps = rok ↔ (∀ p ∈ ps, Known s p.field.ts.type) ∧
      (∀ p ∈ ps, BodyInput p → needs = true) ∧ (ps.filter BodyInput).length ≤ (if body = "" then 1 else 0) := by
  induction ps with
  | nil => intro body; simp [checkInputs]
  | cons p r ih =>
    intro body
    have hr : ∀ q ∈ r, q.field.name ≠ "" := fun q hq => hn q (by simp [hq])
    have hp := hn p (by simp)
    unfold checkInputs
    rw [andThen_rok, defined_rok hm, ite_rok]
    by_cases hb : BodyInput p = true
    · have hb' : p.path = false ∧ p.query = "" ∧ p.header = "" := by simpa [BodyInput] using hb
      simp only [hb', and_self, true_imp_iff, not_true, false_imp_iff, and_true, ite_rok, rerr_eq_rok, ih hr,
        List.mem_cons, forall_eq_or_imp, hb, List.filter_cons, if_true, List.length_cons]
      by_cases hbody : body = ""
      · by_cases hneeds : needs = true
        · simp only [hbody, hneeds, hp, if_true, if_false, ne_eq, not_true, false_imp_iff, true_and, not_false_eq_true,
            true_imp_iff, and_true, implies_true]
          constructor
          · rintro ⟨h1, h2, h3⟩; exact ⟨⟨h1, h2⟩, by omega⟩
          · rintro ⟨⟨h1, h2⟩, h3⟩; exact ⟨h1, h2, by omega⟩
        · simp [hneeds]
      · simp only [hbody, if_false]
        constructor
        · rintro ⟨_, h1, h2⟩
          by_cases hneeds : needs = true
          · exact absurd hbody (h1 hneeds).1
          · exact absurd hneeds h2
        · rintro ⟨_, _, h3⟩; omega
    · have hb' : ¬ (p.path = false ∧ p.query = "" ∧ p.header = "") := by simpa [BodyInput] using hb
      simp only [hb', false_imp_iff, not_false_eq_true, true_imp_iff, true_and, ih hr,
        List.mem_cons, forall_eq_or_imp, hb, List.filter_cons, if_false]
      tauto

theorem checkOutputs_rok {needs : Bool} {ps : List HttpParamSpec} (hn : ∀ p ∈ ps, p.field.name ≠ "") :
    ∀ body, checkOutputs m needs body ps = rok ↔ (∀ p ∈ ps, Known s p.field.ts.type) ∧
      (∀ p ∈ ps, BodyOutput p → needs = true) ∧ (ps.filter BodyOutput).length ≤ (if body = "" then 1 else 0) := by
  induction ps with
  | nil => intro body; simp [checkOutputs]
  | cons p r ih =>
    intro body
    have hr : ∀ q ∈ r, q.field.name ≠ "" := fun q hq => hn q (by simp [hq])
    have hp := hn p (by simp)
    unfold checkOutputs
    rw [andThen_rok, defined_rok hm, ite_rok]
    by_cases hb : BodyOutput p = true
    · have hb' : p.header = "" := by simpa [BodyOutput] using hb
      simp only [hb', true_imp_iff, not_true, false_imp_iff, and_true, ite_rok, rerr_eq_rok, ih hr,
        List.mem_cons, forall_eq_or_imp, hb, List.filter_cons, if_true, List.length_cons]
      by_cases hbody : body = ""
      · by_cases hneeds : needs = true
        · simp only [hbody, hneeds, hp, if_true, if_false, ne_eq, not_true, false_imp_iff, true_and, not_false_eq_true,
            true_imp_iff, and_true, implies_true]
          constructor
          · rintro ⟨h1, h2, h3⟩; exact ⟨⟨h1, h2⟩, by omega⟩
          · rintro ⟨⟨h1, h2⟩, h3⟩; exact ⟨h1, h2, by omega⟩
        · simp [hneeds]
      · simp only [hbody, if_false]
        constructor
        · rintro ⟨_, h1, h2⟩
          by_cases hneeds : needs = true
          · exact absurd hbody (h1 hneeds).1
          · exact absurd hneeds h2
        · rintro ⟨_, _, h3⟩; omega
    · have hb' : ¬ (p.header = "") := by simpa [BodyOutput] using hb
      simp only [hb', false_imp_iff, not_false_eq_true, true_imp_iff, true_and, ih hr,
        List.mem_cons, forall_eq_or_imp, hb, List.filter_cons, if_false]
      tauto

omit hm in
theorem pathOk_iff (path : String) : pathTemplateOk path = true ↔ PathOk path := by
  constructor
  · intro h p q hpq
    unfold pathTemplateOk at h
    rw [← (pathAndQuery_unique hpq).1] at h
    exact (pathLoop_iff _).1 h
  · intro h
    have := h _ _ (pathAndQuery path.toList)
    exact (pathLoop_iff _).2 this

theorem checkHttp_rok {h : HttpDef} (hn : (∀ p ∈ h.inputs, p.field.name ≠ "") ∧
    ∀ e, h.expected = some e → ∀ p ∈ e.outputs, p.field.name ≠ "") : checkHttp m h = rok ↔ HttpOk s h := by
  unfold checkHttp
  rw [andThen_rok, andThen_rok, ite_rok, checkInputs_rok hm hn.1, pathOk_iff]
  simp only [rerr_eq_rok, if_true, decide_eq_true_eq]
  cases he : h.expected with
  | none =>
    constructor
    · rintro ⟨⟨_, h1⟩, ⟨h2, h3, h4⟩, _⟩
      exact ⟨by tauto, h2, fun p hp hb => by simpa using h3 p hp hb, h4, by simp [he], by simp [he], by simp [he], by simp [he]⟩
    · intro h
      exact ⟨⟨fun _ => trivial, fun hp => hp h.path⟩, ⟨h.inputTypes, fun p hp hb => by simpa using h.bodyAllowed p hp hb, h.oneBody⟩, rfl⟩
  | some e =>
    simp only [andThen_rok, checkOutputs_rok hm (hn.2 e he), checkAll_rok, defined_rok hm, if_true, decide_eq_true_eq]
    constructor
    · rintro ⟨⟨_, h1⟩, ⟨h2, h3, h4⟩, ⟨h5, h6, h7⟩, h8⟩
      refine ⟨by tauto, h2, fun p hp hb => by simpa using h3 p hp hb, h4, ?_, ?_, ?_, ?_⟩
      · intro e' he'; rw [he] at he'; injection he' with he'; subst he'; exact h5
      · intro e' he'; rw [he] at he'; injection he' with he'; subst he'; exact h6
      · intro e' he'; rw [he] at he'; injection he' with he'; subst he'; exact h7
      · intro e' he'; exact h8
    · intro h
      exact ⟨⟨fun _ => trivial, fun hp => hp h.path⟩, ⟨h.inputTypes, fun p hp hb => by simpa using h.bodyAllowed p hp hb, h.oneBody⟩,
        ⟨h.outputTypes e he, h.outputBodyAllowed e he, h.oneOutputBody e he⟩, h.exceptionTypes e he⟩

/-- The checks succeed exactly if the schema is valid, with the validation of values in place
of conformance. -/
theorem checkModel_rok {n : Nat} (hn : NamedParams s) :
    checkModel lib m n = rok ↔ Valid (fun ts v => validateSpec lib m n ts v = vok) s := by
  unfold checkModel
  have es : m.schema = s := by
    obtain ⟨_, _, _, rfl⟩ := (newModel_ok_iff s m).1 hm
    rfl
  rw [andThen_rok, andThen_rok, checkAll_rok, checkAll_rok, checkAll_rok, es]
  constructor
  · rintro ⟨h1, h2, h3⟩
    exact ⟨fun td h => (checkType_rok hm).1 (h1 td h), fun ex h => (checkExample_rok hm).1 (h2 ex h),
      fun a h => (checkHttp_rok hm (hn a h)).1 (h3 a h)⟩
  · rintro ⟨h1, h2, h3⟩
    exact ⟨fun td h => (checkType_rok hm).2 (h1 td h), fun ex h => (checkExample_rok hm).2 (h2 ex h),
      fun a h => (checkHttp_rok hm (hn a h)).2 (h3 a h)⟩
end
end Sadl
