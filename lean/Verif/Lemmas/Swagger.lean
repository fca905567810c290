import Verif.Model.Swagger
import Verif.Spec.Swagger
import Verif.Lemmas.Basic
/-
The conversion of a Swagger document: when it crashes.
-/
namespace Sadl
open Spec

/-! ### Members -/

theorem dataGet_one (v : Value) (k : String) : dataGet v [k] = match asMap v with
    | none => .null
    | some m => (mget m k).getD .null := by
  unfold dataGet; cases asMap v with
  | none => rfl
  | some m => simp only []; cases mget m k <;> rfl

theorem member_iff (v : Value) (k : String) (w : Value) : Member v k w ↔ dataGet v [k] = w ∧ w ≠ .null := by
  rw [dataGet_one]
  constructor
  · rintro ⟨kvs, rfl, h, hn⟩
    simp [asMap, h, hn]
  · rintro ⟨h, hn⟩
    cases v <;> simp only [asMap] at h <;> try exact absurd h.symm hn
    rename_i kvs
    refine ⟨kvs, rfl, ?_, hn⟩
    cases hg : mget kvs k with
    | none => simp [hg] at h; exact absurd h.symm hn
    | some x => simp [hg] at h; rw [h]

theorem lacks_iff (v : Value) (k : String) : Lacks v k ↔ dataGet v [k] = .null := by
  constructor
  · intro h
    by_cases hn : dataGet v [k] = .null
    · exact hn
    · exact absurd ((member_iff v k _).mpr ⟨rfl, hn⟩) (h _)
  · intro h w hm
    obtain ⟨h', hn⟩ := (member_iff v k w).mp hm
    exact hn (h'.symm.trans h)

theorem dataHas_iff (v : Value) (k : String) : dataHas v [k] = true ↔ ∃ w, Member v k w := by
  constructor
  · intro h
    refine ⟨dataGet v [k], (member_iff _ _ _).mpr ⟨rfl, ?_⟩⟩
    intro hn
    simp [dataHas, hn] at h
  · rintro ⟨w, hm⟩
    obtain ⟨rfl, hn⟩ := (member_iff _ _ _).mp hm
    unfold dataHas
    revert hn
    cases dataGet v [k] <;> simp

theorem getString_of_text {v : Value} {k s : String} (h : Text v k s) : getString v k = s := by
  rcases h with h | h <;> · have := ((member_iff _ _ _).mp h).1; simp [getString, this, asString]

theorem text_of_getString {v : Value} {k s : String} (h : getString v k = s) (hs : s ≠ "") : Text v k s := by
  unfold getString at h
  cases hd : dataGet v [k] <;> simp [hd, asString] at h <;> try exact absurd h hs
  · exact .inl ((member_iff _ _ _).mpr ⟨by rw [hd, h], by simp⟩)
  · exact .inr ((member_iff _ _ _).mpr ⟨by rw [hd, h], by simp⟩)

theorem text_iff {v : Value} {k s : String} (hs : s ≠ "") : Text v k s ↔ getString v k = s :=
  ⟨getString_of_text, fun h => text_of_getString h hs⟩

theorem getMap_entry (v : Value) (k n : String) (w : Value) : (n, w) ∈ getMap v k ↔ Entry v k n w := by
  unfold getMap Entry
  constructor
  · intro h
    cases hd : dataGet v [k] <;> simp [hd, asMap] at h
    rename_i kvs
    exact ⟨kvs, (member_iff _ _ _).mpr ⟨hd, by simp⟩, h⟩
  · rintro ⟨kvs, hm, h⟩
    rw [((member_iff _ _ _).mp hm).1]; simpa [asMap] using h

theorem getArray_element (v : Value) (k : String) (w : Value) : w ∈ getArray v k ↔ Element v k w := by
  unfold getArray Element
  constructor
  · intro h
    cases hd : dataGet v [k] <;> simp [hd, asArray] at h
    rename_i kvs
    exact ⟨kvs, (member_iff _ _ _).mpr ⟨hd, by simp⟩, h⟩
  · rintro ⟨kvs, hm, h⟩
    rw [((member_iff _ _ _).mp hm).1]; simpa [asArray] using h

/-! ### Schemas -/

theorem v3ItemsAt_eq (wild : Int) (kvs : List (String × Value)) :
    v3ItemsAt wild kvs = toV3Schema wild ((mget kvs "items").getD .null) := by
  induction kvs with
  | nil => simp [v3ItemsAt, mget, toV3Schema]
  | cons kv rest ih =>
    obtain ⟨k, v⟩ := kv
    rw [v3ItemsAt, mget]
    by_cases h : k = "items" <;> simp [h, ih, v3Member]

theorem v3PropertiesAt_eq (wild : Int) (kvs : List (String × Value)) :
    v3PropertiesAt wild kvs = v3Properties wild (getMap (.obj kvs) "properties") := by
  have hg : getMap (.obj kvs) "properties" = (asMap ((mget kvs "properties").getD .null)).getD [] := by
    simp [getMap, dataGet_one, asMap]
  rw [hg]
  clear hg
  induction kvs with
  | nil => simp [v3PropertiesAt, mget, asMap, v3Properties]
  | cons kv rest ih =>
    obtain ⟨k, v⟩ := kv
    rw [v3PropertiesAt, mget]
    by_cases h : k = "properties"
    · simp only [h, if_true, Option.getD_some]
      cases v <;> simp [v3PropertiesOf, asMap, v3Properties]
    · simp only [h, if_false]; exact ih

theorem v3Properties_ok {wild : Int} : ∀ {ps : List (String × Value)} {ss : List (String × OSchema)},
    v3Properties wild ps = .ok ss ↔ List.Forall₂ (fun kv ks => ks.1 = kv.1 ∧ toV3Schema wild kv.2 = .ok ks.2) ps ss
  | [], ss => by
    simp only [v3Properties, Out.ok.injEq]
    constructor
    · rintro rfl; exact .nil
    · intro h; cases h; rfl
  | (k, v) :: rest, ss => by
    rw [v3Properties, v3Member]
    constructor
    · intro h
      cases hs : toV3Schema wild v with
      | ok s =>
        rw [hs] at h
        simp only [Out.bind] at h
        cases hr : v3Properties wild rest with
        | ok ss' =>
          rw [hr] at h
          simp only [Out.ok.injEq] at h
          subst h
          exact .cons ⟨rfl, hs⟩ (v3Properties_ok.mp hr)
        | err e => rw [hr] at h; simp at h
        | panic e => rw [hr] at h; simp at h
      | err e => rw [hs] at h; simp [Out.bind] at h
      | panic e => rw [hs] at h; simp [Out.bind] at h
    · intro h
      cases h with
      | cons h1 h2 =>
        rename_i b l
        obtain ⟨bk, bs⟩ := b
        obtain ⟨hk, hs⟩ := h1
        simp only at hk hs
        subst hk
        rw [hs, v3Properties_ok.mpr h2]; rfl

theorem sizeOf_mget {kvs : List (String × Value)} {k : String} {w : Value} (h : mget kvs k = some w) :
    sizeOf w < sizeOf (Value.obj kvs) := by
  have := mget_mem h
  have h2 := List.sizeOf_lt_of_mem this
  simp at h2 ⊢; omega

theorem sizeOf_entry {v w : Value} {k n : String} (h : Entry v k n w) : sizeOf w < sizeOf v := by
  obtain ⟨kvs, ⟨us, rfl, hm, _⟩, hw⟩ := h
  have h1 := sizeOf_mget hm
  have h2 := List.sizeOf_lt_of_mem hw
  simp at h2 h1 ⊢; omega

/-- The schema with the members that all types have. -/
def v3Base (v : Value) : OSchema :=
  { description := getString v "description", type := getString v "type", required := dataGetStringArray v ["required"] }

theorem toV3Schema_eq (wild : Int) (v : Value) (h : ∀ s, v ≠ .str s) : toV3Schema wild v =
    if getString v "type" = "object" then
      (v3Properties wild (getMap v "properties")).bind fun ps => .ok { v3Base v with properties := some ps }
    else if getString v "type" = "array" then
      (toV3Schema wild (dataGet v ["items"])).bind fun i => .ok { v3Base v with items := some i }
    else v3Simple wild v := by
  cases v <;> first | (exact absurd rfl (h _)) | skip
  case obj kvs =>
    rw [toV3Schema, v3ItemsAt_eq, v3PropertiesAt_eq]
    simp [dataGet_one, asMap, v3Base]
  all_goals
    simp [toV3Schema, getString, dataGet_one, asMap, asString]

theorem v3Simple_iff (wild : Int) (v : Value) (h1 : getString v "type" ≠ "object") (h2 : getString v "type" ≠ "array")
    (h : ∀ s, v ≠ .str s) :
    (Supported v → ∃ s, v3Simple wild v = .ok s) ∧ (¬ Supported v → ∃ e, v3Simple wild v = .panic e) := by
  constructor
  · intro hs
    cases hs with
    | simple _ t ht hm =>
      have := getString_of_text ht
      simp only [SimpleTypes, List.mem_cons, List.not_mem_nil, or_false] at hm
      unfold v3Simple
      rcases hm with rfl | rfl | rfl | rfl <;> simp [this]
    | array _ w ht => exact absurd (getString_of_text ht) h2
    | object _ ht => exact absurd (getString_of_text ht) h1
    | ref _ r hn hr =>
      have := (dataHas_iff v "$ref").mpr ⟨r, hr⟩
      unfold v3Simple
      simp only [this, if_true]
      split; exact ⟨_, rfl⟩
      split; exact ⟨_, rfl⟩
      split <;> exact ⟨_, rfl⟩
    | text s => exact absurd rfl (h s)
  · intro hs
    unfold v3Simple
    have hno : ∀ t ∈ SimpleTypes, getString v "type" ≠ t := by
      intro t ht he
      exact hs (.simple v t (text_of_getString he (by rintro rfl; simp [SimpleTypes] at ht)) ht)
    have hr : dataHas v ["$ref"] = false := by
      cases hd : dataHas v ["$ref"] with
      | false => rfl
      | true =>
        obtain ⟨r, hr⟩ := (dataHas_iff v "$ref").mp hd
        refine absurd (Supported.ref v r ?_ hr) hs
        intro t ht hm
        have := getString_of_text ht
        simp only [List.mem_cons] at hm
        rcases hm with rfl | rfl | hm
        · exact h2 this
        · exact h1 this
        · exact hno t hm this
    simp only [SimpleTypes, List.mem_cons, List.not_mem_nil, or_false, forall_eq_or_imp, forall_eq] at hno
    simp [hno, hr]

theorem v3Properties_panic {wild : Int} : ∀ {ps : List (String × Value)},
    (∀ kv ∈ ps, (Supported kv.2 → ∃ s, toV3Schema wild kv.2 = .ok s) ∧ (¬ Supported kv.2 → ∃ e, toV3Schema wild kv.2 = .panic e)) →
    ((∀ kv ∈ ps, Supported kv.2) → ∃ ss, v3Properties wild ps = .ok ss) ∧
    ((∃ kv ∈ ps, ¬ Supported kv.2) → ∃ e, v3Properties wild ps = .panic e)
  | [], _ => ⟨fun _ => ⟨[], rfl⟩, by simp⟩
  | (k, v) :: rest, h => by
    obtain ⟨ih1, ih2⟩ := v3Properties_panic (ps := rest) fun kv hkv => h kv (List.mem_cons_of_mem _ hkv)
    obtain ⟨hv1, hv2⟩ := h (k, v) (List.mem_cons_self ..)
    rw [v3Properties, v3Member]
    constructor
    · intro hall
      obtain ⟨s, hs⟩ := hv1 (hall (k, v) (List.mem_cons_self ..))
      obtain ⟨ss, hss⟩ := ih1 fun kv hkv => hall kv (List.mem_cons_of_mem _ hkv)
      exact ⟨_, by simp only at hs; rw [hs, hss]; rfl⟩
    · intro hex
      by_cases hsup : Supported v
      · obtain ⟨s, hs⟩ := hv1 hsup
        have : ∃ kv ∈ rest, ¬ Supported kv.2 := by
          obtain ⟨kv, hkv, hn⟩ := hex
          rcases List.mem_cons.mp hkv with rfl | hkv
          · exact absurd hsup hn
          · exact ⟨kv, hkv, hn⟩
        obtain ⟨e, he⟩ := ih2 this
        exact ⟨e, by simp only at hs; rw [hs, he]; rfl⟩
      · obtain ⟨e, he⟩ := hv2 hsup
        exact ⟨e, by simp only at he; rw [he]; rfl⟩

/-- A schema is converted exactly when it is supported; otherwise the conversion panics. -/
theorem toV3Schema_iff (wild : Int) (v : Value) :
    (Supported v → ∃ s, toV3Schema wild v = .ok s) ∧ (¬ Supported v → ∃ e, toV3Schema wild v = .panic e) := by
  by_cases hstr : ∃ s, v = .str s
  · obtain ⟨s, rfl⟩ := hstr
    exact ⟨fun _ => ⟨_, by rw [toV3Schema]⟩, fun h => absurd (.text s) h⟩
  have hstr' : ∀ s, v ≠ .str s := fun s h => hstr ⟨s, h⟩
  rw [toV3Schema_eq wild v hstr']
  by_cases hobj : getString v "type" = "object"
  · rw [if_pos hobj]
    have hsz : ∀ kv ∈ getMap v "properties", sizeOf kv.2 < sizeOf v := fun kv hkv =>
      sizeOf_entry ((getMap_entry v "properties" kv.1 kv.2).mp hkv)
    obtain ⟨h1, h2⟩ := v3Properties_panic (wild := wild) (ps := getMap v "properties") fun kv hkv =>
      have := hsz kv hkv
      toV3Schema_iff wild kv.2
    have ht : Text v "type" "object" := text_of_getString hobj (by decide)
    have key : Supported v ↔ ∀ kv ∈ getMap v "properties", Supported kv.2 := by
      constructor
      · intro hs
        cases hs with
        | simple _ t ht' hm =>
          rw [getString_of_text ht'] at hobj
          subst hobj; simp [SimpleTypes] at hm
        | array _ w ht' => rw [getString_of_text ht'] at hobj; exact absurd hobj (by decide)
        | object _ _ hp => exact fun kv hkv => hp kv.1 kv.2 ((getMap_entry _ _ _ _).mp hkv)
        | ref _ r hn _ => exact absurd (by simp) (hn "object" ht)
        | text s => exact absurd rfl (hstr' s)
      · intro hp
        exact .object v ht fun n w hw => hp (n, w) ((getMap_entry _ _ _ _).mpr hw)
    constructor
    · intro hs
      obtain ⟨ss, hss⟩ := h1 (key.mp hs)
      exact ⟨_, by rw [hss]; rfl⟩
    · intro hs
      rw [key] at hs
      obtain ⟨e, he⟩ := h2 (by simpa using hs)
      exact ⟨e, by rw [he]; rfl⟩
  rw [if_neg hobj]
  by_cases harr : getString v "type" = "array"
  · rw [if_pos harr]
    have ht : Text v "type" "array" := text_of_getString harr (by decide)
    by_cases hit : dataGet v ["items"] = .null
    · have hno : ¬ Supported v := by
        intro hs
        cases hs with
        | simple _ t ht' hm =>
          rw [getString_of_text ht'] at harr
          subst harr; simp [SimpleTypes] at hm
        | array _ w _ hm => exact ((lacks_iff v "items").mpr hit) w hm
        | object _ ht' => exact hobj (getString_of_text ht')
        | ref _ r hn _ => exact absurd (by simp) (hn "array" ht)
        | text s => exact absurd rfl (hstr' s)
      refine ⟨fun h => absurd h hno, fun _ => ⟨"fix this schema", ?_⟩⟩
      rw [hit]
      simp [toV3Schema, v3Simple, getString, dataGet_one, asMap, asString, dataHas, Out.bind]
    · have hm : Member v "items" (dataGet v ["items"]) := (member_iff _ _ _).mpr ⟨rfl, hit⟩
      have hsz : sizeOf (dataGet v ["items"]) < sizeOf v := by
        obtain ⟨kvs, hv, hg, _⟩ := hm
        have := sizeOf_mget hg
        rw [hv] at this ⊢; exact this
      obtain ⟨h1, h2⟩ := toV3Schema_iff wild (dataGet v ["items"])
      have key : Supported v ↔ Supported (dataGet v ["items"]) := by
        constructor
        · intro hs
          cases hs with
          | simple _ t ht' hm =>
            rw [getString_of_text ht'] at harr
            subst harr; simp [SimpleTypes] at hm
          | array _ w _ hm' hw => rw [((member_iff _ _ _).mp hm').1]; exact hw
          | object _ ht' => exact absurd (getString_of_text ht') hobj
          | ref _ r hn _ => exact absurd (by simp) (hn "array" ht)
          | text s => exact absurd rfl (hstr' s)
        · exact fun h => .array v _ ht hm h
      constructor
      · intro hs
        obtain ⟨ss, hss⟩ := h1 (key.mp hs)
        exact ⟨_, by rw [hss]; rfl⟩
      · intro hs
        rw [key] at hs
        obtain ⟨e, he⟩ := h2 hs
        exact ⟨e, by rw [he]; rfl⟩
  rw [if_neg harr]
  exact v3Simple_iff wild v hobj harr hstr'
termination_by sizeOf v

/-! ### Documents -/

/-- The computation succeeds exactly when `P` holds, and panics otherwise. -/
def Fine {α : Type} (x : Out α) (P : Prop) : Prop := (P → ∃ a, x = .ok a) ∧ (¬ P → ∃ e, x = .panic e)

theorem Fine.bind {α β : Type} {x : Out α} {f : α → Out β} {P Q : Prop} (hx : Fine x P)
    (hf : ∀ a, Fine (f a) Q) : Fine (x.bind f) (P ∧ Q) := by
  constructor
  · rintro ⟨hp, hq⟩
    obtain ⟨a, ha⟩ := hx.1 hp
    obtain ⟨b, hb⟩ := (hf a).1 hq
    exact ⟨b, by rw [ha]; exact hb⟩
  · intro hn
    by_cases hp : P
    · obtain ⟨a, ha⟩ := hx.1 hp
      obtain ⟨e, he⟩ := (hf a).2 fun hq => hn ⟨hp, hq⟩
      exact ⟨e, by rw [ha]; exact he⟩
    · obtain ⟨e, he⟩ := hx.2 hp
      exact ⟨e, by rw [he]; rfl⟩

theorem Fine.ok {α : Type} (a : α) : Fine (.ok a) True := ⟨fun _ => ⟨a, rfl⟩, fun h => absurd trivial h⟩

theorem Fine.congr {α : Type} {x : Out α} {P Q : Prop} (h : Fine x P) (hpq : P ↔ Q) : Fine x Q := by
  rwa [propext hpq] at h

theorem fine_schema (wild : Int) (v : Value) : Fine (toV3Schema wild v) (Supported v) := toV3Schema_iff wild v

theorem fine_content (wild : Int) (mts : List String) (p : Value) :
    Fine (toV3Content wild mts (dataGet p ["schema"])) (∀ w, Member p "schema" w → Supported w) := by
  by_cases h : dataGet p ["schema"] = .null
  · rw [h]
    exact (Fine.ok _).congr (by simp; exact fun w hw => absurd hw ((lacks_iff p "schema").mpr h w))
  · have : toV3Content wild mts (dataGet p ["schema"]) = (toV3Schema wild (dataGet p ["schema"])).bind fun s =>
        .ok (mts.foldl (fun c mt => mset c mt ({ schema := some s } : OMedia)) []) := by
      unfold toV3Content
      revert h
      cases dataGet p ["schema"] <;> simp
    rw [this]
    refine ((fine_schema wild _).bind fun s => Fine.ok _).congr ?_
    simp only [and_true]
    constructor
    · intro hs w hw
      rw [← ((member_iff _ _ _).mp hw).1]; exact hs
    · intro hw
      exact hw _ ((member_iff _ _ _).mpr ⟨rfl, h⟩)

theorem fine_response (wild : Int) (mts : List String) (r : Value) :
    Fine (toV3Response wild mts r) (∀ w, Member r "schema" w → Supported w) :=
  ((fine_content wild mts r).bind fun _ => Fine.ok _).congr (by simp)

theorem fine_responses (wild : Int) (mts : List String) : ∀ rs : GoMap Value,
    Fine (toV3Responses wild mts rs) (∀ kv ∈ rs, ∀ w, Member kv.2 "schema" w → Supported w)
  | [] => (Fine.ok _).congr (by simp)
  | (k, v) :: rest => by
    rw [toV3Responses]
    exact ((fine_response wild mts v).bind fun _ => (fine_responses wild mts rest).bind fun _ => Fine.ok _).congr (by simp)

/-- The schemas that a parameter needs are supported. -/
def ParamFine (p : Value) : Prop :=
  (Text p "in" "body" → ∀ w, Member p "schema" w → Supported w) ∧
  (¬ Text p "in" "body" → (∀ t, Text p "type" t → t = "") →
    ∀ w, (Member p "schema" w ∨ (Lacks p "schema" ∧ w = .null)) → Supported w)

theorem fine_param (wild : Int) (p : Value) (hin : getString p "in" ≠ "body") : Fine (toV3Param wild p) (ParamFine p) := by
  have hnb : ¬ Text p "in" "body" := fun h => hin (getString_of_text h)
  unfold toV3Param
  refine ((fine_schema wild _).bind fun _ => Fine.ok _).congr ?_
  simp only [and_true, ParamFine, hnb, false_implies, not_false_eq_true, true_implies, true_and]
  by_cases ht : getString p "type" = ""
  · rw [if_pos ht]
    have hall : ∀ t, Text p "type" t → t = "" := fun t h => (getString_of_text h).symm.trans ht
    constructor
    · rintro hs - w (hw | ⟨hl, rfl⟩)
      · rw [← ((member_iff _ _ _).mp hw).1]; exact hs
      · rw [← (lacks_iff p "schema").mp hl]; exact hs
    · intro h
      by_cases hn : dataGet p ["schema"] = .null
      · rw [hn]; exact h hall _ (.inr ⟨(lacks_iff p "schema").mpr hn, rfl⟩)
      · exact h hall _ (.inl ((member_iff _ _ _).mpr ⟨rfl, hn⟩))
  · rw [if_neg ht]
    constructor
    · intro _ h
      exact absurd (h _ (text_of_getString rfl ht)) ht
    · intro _; exact .text _

theorem fine_params (wild : Int) (mts : List String) : ∀ (ps : List Value) (body : Option OBody),
    Fine (toV3Params wild mts ps body) (∀ p ∈ ps, ParamFine p)
  | [], body => (Fine.ok _).congr (by simp)
  | p :: rest, body => by
    rw [toV3Params]
    by_cases hin : getString p "in" = "body"
    · rw [if_pos hin]
      refine ((fine_content wild mts p).bind fun _ => fine_params wild mts rest _).congr ?_
      have : Text p "in" "body" := text_of_getString hin (by decide)
      simp [ParamFine, this]
    · rw [if_neg hin]
      refine ((fine_param wild p hin).bind fun _ => (fine_params wild mts rest body).bind fun _ => Fine.ok _).congr ?_
      simp

/-- The schemas that an operation needs are supported. -/
def OpFine (op : Value) : Prop :=
  (∀ p, Element op "parameters" p → ParamFine p) ∧
  (∀ st r, Entry op "responses" st r → ∀ w, Member r "schema" w → Supported w)

theorem fine_operation (wild : Int) (dc dp : List String) (item : Value) (k : String) :
    Fine (toV3Operation wild dc dp (dataGet item [k])) (∀ op, Member item k op → OpFine op) := by
  by_cases h : dataGet item [k] = .null
  · rw [h]
    exact (Fine.ok _).congr (by simp; exact fun w hw => absurd hw ((lacks_iff item k).mpr h w))
  · have hm : Member item k (dataGet item [k]) := (member_iff _ _ _).mpr ⟨rfl, h⟩
    have hone : (∀ op, Member item k op → OpFine op) ↔ OpFine (dataGet item [k]) :=
      ⟨fun hh => hh _ hm, fun hh op ho => by rw [← ((member_iff _ _ _).mp ho).1]; exact hh⟩
    rw [hone]
    generalize dataGet item [k] = v at *
    have : toV3Operation wild dc dp v =
        (toV3Params wild (orDefault (dataGetStringArray v ["consumes"]) dc) (getArray v "parameters") none).bind fun pb =>
        (toV3Responses wild (orDefault (dataGetStringArray v ["produces"]) dp) (getMap v "responses")).bind fun rs =>
        .ok (some { operationId := getString v "operationId", tags := dataGetStringArray v ["tags"]
                    summary := getString v "summary", parameters := pb.1, requestBody := pb.2, responses := rs }) := by
      unfold toV3Operation
      revert h
      cases v <;> simp
    rw [this]
    refine ((fine_params wild _ _ _).bind fun _ => (fine_responses wild _ _).bind fun _ => Fine.ok _).congr ?_
    simp only [and_true, OpFine]
    refine and_congr (forall_congr' fun p => by rw [getArray_element]) ?_
    constructor
    · exact fun hh st r hr => hh (st, r) ((getMap_entry _ _ _ _).mpr hr)
    · exact fun hh kv hkv => hh kv.1 kv.2 ((getMap_entry _ _ _ _).mp hkv)

theorem fine_path (wild : Int) (dc dp : List String) (item : Value) :
    Fine (toV3Path wild dc dp item) (∀ k ∈ SwaggerMethods, ∀ op, Member item k op → OpFine op) := by
  unfold toV3Path
  refine ((fine_operation wild dc dp item "get").bind fun _ => (fine_operation wild dc dp item "delete").bind fun _ =>
    (fine_operation wild dc dp item "put").bind fun _ => (fine_operation wild dc dp item "post").bind fun _ =>
    (fine_operation wild dc dp item "patch").bind fun _ => (fine_operation wild dc dp item "head").bind fun _ => Fine.ok _).congr ?_
  simp [SwaggerMethods]

theorem fine_paths (wild : Int) (dc dp : List String) : ∀ items : GoMap Value,
    Fine (toV3Paths wild dc dp items) (∀ kv ∈ items, ∀ k ∈ SwaggerMethods, ∀ op, Member kv.2 k op → OpFine op)
  | [] => (Fine.ok _).congr (by simp)
  | (k, v) :: rest => by
    rw [toV3Paths]
    exact ((fine_path wild dc dp v).bind fun _ => (fine_paths wild dc dp rest).bind fun _ => Fine.ok _).congr (by simp)

theorem fine_definitions (wild : Int) : ∀ defs : GoMap Value,
    Fine (toV3Definitions wild defs) (∀ kv ∈ defs, Supported kv.2)
  | [] => (Fine.ok _).congr (by simp)
  | (k, v) :: rest => by
    rw [toV3Definitions]
    exact ((fine_schema wild v).bind fun _ => (fine_definitions wild rest).bind fun _ => Fine.ok _).congr (by simp)

theorem fine_toV3 (wild : Int) (v : Value) (hv : Text v "swagger" "2.0") :
    Fine (toV3 wild v) (∀ w, Needs v w → Supported w) := by
  unfold toV3
  rw [if_pos (getString_of_text hv)]
  refine ((fine_definitions wild _).bind fun _ => (fine_paths wild _ _ _).bind fun _ => Fine.ok _).congr ?_
  simp only [and_true]
  constructor
  · rintro ⟨hd, hp⟩ w hw
    cases hw with
    | definition n _ he => exact hd (n, w) ((getMap_entry _ _ _ _).mpr he)
    | body op p _ ho he hb hm =>
      obtain ⟨path, item, k, hi, hk, hmem⟩ := ho
      exact (((hp (path, item) ((getMap_entry _ _ _ _).mpr hi) k hk op hmem).1 p he).1 hb) w hm
    | param op p _ ho he hb ht hm =>
      obtain ⟨path, item, k, hi, hk, hmem⟩ := ho
      exact (((hp (path, item) ((getMap_entry _ _ _ _).mpr hi) k hk op hmem).1 p he).2 hb) ht w hm
    | response op st r _ ho he hm =>
      obtain ⟨path, item, k, hi, hk, hmem⟩ := ho
      exact (hp (path, item) ((getMap_entry _ _ _ _).mpr hi) k hk op hmem).2 st r he w hm
  · intro h
    refine ⟨fun kv hkv => h _ (.definition kv.1 _ ((getMap_entry _ _ _ _).mp hkv)), fun kv hkv k hk op hop => ?_⟩
    have ho : OperationOf v op := ⟨kv.1, kv.2, k, (getMap_entry _ _ _ _).mp hkv, hk, hop⟩
    exact ⟨fun p he => ⟨fun hb w hm => h w (.body op p w ho he hb hm), fun hb ht w hm => h w (.param op p w ho he hb ht hm)⟩,
      fun st r he w hm => h w (.response op st r w ho he hm)⟩

end Sadl
