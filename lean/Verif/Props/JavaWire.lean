import Verif.Spec.JavaWire
import Verif.Props.JavaRest
/-
C96: the generated Java client and server of an action agree.
-/
namespace Sadl.Props
open Sadl Sadl.Spec

variable {V : Type}

theorem notNull_find {obj : String → Option V} {names : List (String × String)} {P : String → Prop} [DecidablePred P] {k n : String}
    (hm : (k, n) ∈ names) (hk : P k) (hu : ∀ x ∈ names, P x.1 → x = (k, n)) :
    ((NotNull obj names).find? fun h => P h.1).map (·.2) = obj n := by
  unfold NotNull
  induction names with
  | nil => simp at hm
  | cons x xs ih =>
    obtain ⟨h1, h2⟩ := List.forall_mem_cons.1 hu
    by_cases hx : P x.1
    · have := h1 hx
      subst this
      simp only [List.filterMap_cons]
      cases ho : obj n with
      | some v => simp [hk]
      | none =>
        simp only [Option.map_none]
        rw [Option.map_eq_none_iff, List.find?_eq_none]
        rintro ⟨k', v⟩ hy
        obtain ⟨⟨a, b⟩, hz, hz2⟩ := List.mem_filterMap.1 hy
        simp only [decide_eq_true_eq]
        intro hp
        cases hb : obj b with
        | none => simp [hb] at hz2
        | some w =>
          simp only [hb, Option.map_some, Option.some.injEq, Prod.mk.injEq] at hz2
          obtain ⟨rfl, rfl⟩ := hz2
          have := h2 _ hz hp
          injection this with _ e
          rw [e, ho] at hb
          cases hb
    · have hne : (k, n) ≠ x := by rintro rfl; exact hx hk
      have hm' : (k, n) ∈ xs := (List.mem_cons.1 hm).resolve_left hne
      simp only [List.filterMap_cons]
      cases ho : obj x.2 with
      | none => simpa [ho] using ih hm' h2
      | some v =>
        simp only [Option.map_some]
        rw [List.find?_cons_of_neg (by simpa using hx)]
        exact ih hm' h2

theorem nodup_map_unique {α β : Type} {f : α → β} {l : List α} (h : (l.map f).Nodup) {x y : α} (hx : x ∈ l) (hy : y ∈ l) (he : f x = f y) :
    x = y := List.inj_on_of_nodup_map h hx hy he

theorem forall₂_imp_mem {α β : Type} {R S : α → β → Prop} {l : List α} {l' : List β} (h : List.Forall₂ R l l') (hi : ∀ a ∈ l, ∀ b ∈ l', R a b → S a b) :
    List.Forall₂ S l l' := by
  induction h with
  | nil => exact .nil
  | cons h1 _ ih =>
    exact .cons (hi _ (by simp) _ (by simp) h1) (ih fun a ha b hb => hi a (List.mem_cons_of_mem _ ha) b (List.mem_cons_of_mem _ hb))

theorem filter_one {α : Type} {P : α → Bool} {l : List α} (h : (l.filter P).length ≤ 1) {x y : α} (hx : x ∈ l) (hy : y ∈ l) (px : P x = true)
    (py : P y = true) : x = y := by
  have h1 : x ∈ l.filter P := List.mem_filter.2 ⟨hx, px⟩
  have h2 : y ∈ l.filter P := List.mem_filter.2 ⟨hy, py⟩
  match hf : l.filter P, h with
  | [], _ => rw [hf] at h1; simp at h1
  | [a], _ => rw [hf] at h1 h2; simp at h1 h2; rw [h1, h2]
  | a :: b :: t, h => simp at h

theorem bodyInput_iff {p : HttpParamSpec} : BodyInput p = true ↔ JavaInBody p := by
  unfold BodyInput JavaInBody
  rw [decide_eq_true_iff]
  tauto

section
variable {s : Schema} {conf : JavaConf} {h : HttpDef} {r : JResource} {c : JCall} (read : String → V) (obj : String → Option V)

theorem javaDefault_unique {dec : BigFloat → String} {v : Value} {a b : Option String} (h1 : JavaDefaultFor dec v a) (h2 : JavaDefaultFor dec v b) :
    a = b := by cases h1 <;> cases h2 <;> rfl

theorem javaGets_or {p : HttpParamSpec} {d : Option String} (hb : ¬ JavaInBody p) (hd : JavaDefaultFor conf.decText p.field.default d) (o : Option V) :
    JavaGets conf.decText read p o (o.or (d.map read)) := by
  cases o with
  | some v => exact .value
  | none =>
    cases d with
    | none => exact .null hb hd
    | some t => exact .default hb hd

/-- The request reaches the implementation. -/
theorem javaRequest_arrives (hr : JavaResourceFor s conf h r) (hc : JavaCallFor s conf h c) (hplace : ∀ p ∈ h.inputs, OnePlace p)
    (hdiff : JavaInputsDiffer h) (hone : (h.inputs.filter BodyInput).length ≤ 1)
    (hbody : ∀ p ∈ h.inputs, BodyInput p = true → h.method = "POST" ∨ h.method = "PUT")
    (hpath : ∀ p ∈ h.inputs, p.path = true → obj p.field.name ≠ none) :
    ∃ w, JavaSend c obj = some w ∧ w.verb = r.verb ∧ w.path = r.path ∧
      List.Forall₂ (fun p a => a.1 = p.field.name ∧ JavaGets conf.decText read p (obj p.field.name) a.2) h.inputs (JavaArgs read r w) := by
  have hsend : ∀ n ∈ c.templates, (obj n).isSome = true := by
    intro n hn
    rw [hc.templates] at hn
    obtain ⟨p, hp, rfl⟩ := List.mem_map.1 hn
    obtain ⟨h1, h2⟩ := List.mem_filter.1 hp
    exact Option.isSome_iff_ne_none.2 (hpath p h1 h2)
  refine ⟨_, by unfold JavaSend; rw [if_pos hsend], ?_, ?_, ?_⟩
  · show c.verb = r.verb
    rw [hc.verb, hr.verb]
  · show c.path = r.path
    rw [beforeQuery_unique hc.path, beforeQuery_unique hr.path]
  · unfold JavaArgs
    rw [List.forall₂_map_right_iff]
    refine forall₂_imp_mem hr.params fun p hp x _ hx => ⟨hx.name, ?_⟩
    unfold JavaArg
    obtain ⟨hpl1, hpl2⟩ := hplace p hp
    have hb := hx.bind
    generalize x.bind = bd at hb ⊢
    cases hb with
    | query hq =>
      have hpp : p.path = false := by
        cases hpp : p.path with
        | false => rfl
        | true => exact absurd (hpl1 hpp).1 hq
      have e : ValueOf (NotNull obj c.queries) p.query = obj p.field.name := by
        refine notNull_find (P := fun k => k = p.query) ?_ rfl ?_
        · rw [hc.queries]
          exact List.mem_map.2 ⟨p, List.mem_filter.2 ⟨hp, by simp [hpp, hq]⟩, rfl⟩
        · rw [hc.queries]
          intro y hy hk
          obtain ⟨q, hq2, rfl⟩ := List.mem_map.1 hy
          obtain ⟨h1, h2⟩ := List.mem_filter.1 hq2
          simp only [decide_eq_true_eq] at h2 hk
          have : q = p := nodup_map_unique hdiff.query (List.mem_filter.2 ⟨h1, by simp [h2.2]⟩) (List.mem_filter.2 ⟨hp, by simp [hq]⟩) hk
          rw [this]
      show JavaGets conf.decText read p (obj p.field.name) ((ValueOf (NotNull obj c.queries) p.query).or _)
      rw [e]
      exact javaGets_or read (fun h => hq h.1) hx.default _
    | header hq hh =>
      have e : HeaderValue (NotNull obj c.headers) p.header = obj p.field.name := by
        refine notNull_find (P := fun k => SameHeader k p.header) ?_ rfl ?_
        · rw [hc.headers]
          exact List.mem_map.2 ⟨p, List.mem_filter.2 ⟨hp, by simp [hh]⟩, rfl⟩
        · rw [hc.headers]
          intro y hy hk
          obtain ⟨q, hq2, rfl⟩ := List.mem_map.1 hy
          obtain ⟨h1, h2⟩ := List.mem_filter.1 hq2
          have : q = p := nodup_map_unique hdiff.header (List.mem_filter.2 ⟨h1, h2⟩) (List.mem_filter.2 ⟨hp, by simp [hh]⟩) hk
          rw [this]
      show JavaGets conf.decText read p (obj p.field.name) ((HeaderValue (NotNull obj c.headers) p.header).or _)
      rw [e]
      exact javaGets_or read (fun h => hh h.2.1) hx.default _
    | path hq hh hpp =>
      have e : ValueOf (NotNull obj (c.templates.map fun n => (n, n))) p.field.name = obj p.field.name := by
        refine notNull_find (P := fun k => k = p.field.name) ?_ rfl ?_
        · rw [hc.templates]
          exact List.mem_map.2 ⟨p.field.name, List.mem_map.2 ⟨p, List.mem_filter.2 ⟨hp, hpp⟩, rfl⟩, rfl⟩
        · intro y hy hk
          obtain ⟨n, _, rfl⟩ := List.mem_map.1 hy
          rw [show n = p.field.name from hk]
      show JavaGets conf.decText read p (obj p.field.name) ((ValueOf (NotNull obj (c.templates.map fun n => (n, n))) p.field.name).or _)
      rw [e]
      exact javaGets_or read (fun h => by have := h.2.2; rw [hpp] at this; simp at this) hx.default _
    | body hbd =>
      have hm := hbody p hp (bodyInput_iff.2 hbd)
      obtain ⟨n, t, hs, he⟩ := hc.sends hm
      have hn : n = p.field.name := by
        cases hs with
        | input _ hf =>
          obtain ⟨a, b, hl, hq, _⟩ := hf
          rw [filter_one hone (by rw [hl]; simp) hp (bodyInput_iff.2 hq) (bodyInput_iff.2 hbd)]
        | noInput _ hno => exact absurd hbd (hno p hp)
        | output h1 h2 _ _ => exact absurd hm (by simp [h1, h2])
        | noOutput h1 h2 _ _ => exact absurd hm (by simp [h1, h2])
      show JavaGets conf.decText read p (obj p.field.name) (c.entity.bind obj)
      rw [he, hn]
      show JavaGets conf.decText read p (obj p.field.name) (obj p.field.name)
      cases obj p.field.name with
      | some v => exact .value
      | none => exact .body hbd

end

theorem javaBare_unique {m : Model} (hw : JavaWf s m) (conf : JavaConf) {n : String} {r : Bool} {t u : JTy} (h1 : JavaBare s conf.instants n r t)
    (h2 : JavaBare s conf.instants n r u) : t = u := by
  obtain ⟨a, ha, rfl⟩ := (javaType_bare hw conf n r t).2 h1
  obtain ⟨b, hb, rfl⟩ := (javaType_bare hw conf n r u).2 h2
  rw [ha] at hb; cases hb; rfl

theorem forall₂_mem_left {α β : Type} {R : α → β → Prop} {l : List α} {l' : List β} (h : List.Forall₂ R l l') {a : α} (ha : a ∈ l) : ∃ b ∈ l', R a b := by
  induction h with
  | nil => simp at ha
  | cons h1 _ ih =>
    rcases List.mem_cons.1 ha with rfl | ha
    · exact ⟨_, by simp, h1⟩
    · obtain ⟨b, hb, h2⟩ := ih ha; exact ⟨b, List.mem_cons_of_mem _ hb, h2⟩

theorem forall₂_mem_right {α β : Type} {R : α → β → Prop} {l : List α} {l' : List β} (h : List.Forall₂ R l l') {b : β} (hb : b ∈ l') : ∃ a ∈ l, R a b := by
  induction h with
  | nil => simp at hb
  | cons h1 _ ih =>
    rcases List.mem_cons.1 hb with rfl | hb
    · exact ⟨_, by simp, h1⟩
    · obtain ⟨a, ha, h2⟩ := ih hb; exact ⟨a, List.mem_cons_of_mem _ ha, h2⟩

theorem forall₂_index {α β : Type} {R : α → β → Prop} {l : List α} {l' : List β} (h : List.Forall₂ R l l') {i : Nat} {a : α} {b : β} (ha : l[i]? = some a)
    (hb : l'[i]? = some b) : R a b := by
  induction h generalizing i with
  | nil => simp at ha
  | cons h1 _ ih =>
    cases i with
    | zero => simp at ha hb; subst ha; subst hb; exact h1
    | succ i => simp at ha hb; exact ih ha hb

section
variable {s : Schema} {m : Model} (hw : JavaWf s m) {conf : JavaConf} {h : HttpDef} {r : JResource} {c : JCall} {e : HttpExpectedSpec}
  (hr : JavaResourceFor s conf h r) (hc : JavaCallFor s conf h c) (he : h.expected = some e)
include hr hc he

theorem javaResponse_null (hno : e.outputs = []) (f : String → Option V) : JavaReceive c (JavaReply conf r (.returns f)) = .null := by
  obtain ⟨e1, h1, h2, h3, _⟩ := hr.expected
  obtain ⟨e2, g1, g2, g3⟩ := hc.expected
  rw [he] at h1 g1; cases h1; cases g1
  have hres : r.result = false := by
    cases hb : r.result with
    | false => rfl
    | true => exact absurd hno (h3.1 hb)
  have : c.result = .nothing := by
    generalize c.result = x at g3
    cases g3 with
    | nothing => rfl
    | value h _ _ _ => exact absurd hno h
  simp [JavaReply, JavaReceive, hres, h2, g2, this]

theorem javaResponse_arrives (hne : e.outputs ≠ []) (hdiff : JavaOutputsDiffer s conf.instants e) (hname : ∀ p ∈ e.outputs, p.field.name ≠ "")
    (hone : (e.outputs.filter BodyOutput).length ≤ 1) (f : String → Option V) (hinst : JavaInstantsSent s conf.instants e f) :
    ∃ l, JavaReceive c (JavaReply conf r (.returns f)) = .returns l ∧ (∀ p ∈ e.outputs, (p.field.name, f p.field.name) ∈ l) ∧
      ∀ x ∈ l, ∃ p ∈ e.outputs, x = (p.field.name, f p.field.name) := by
  obtain ⟨e1, h1, h2, h3, h4, h5⟩ := hr.expected
  obtain ⟨e2, g1, g2, g3⟩ := hc.expected
  rw [he] at h1 g1; cases h1; cases g1
  have hres := h3.2 hne
  have hval : ∀ p ∈ e.outputs, p.header ≠ "" → HeaderValue (NotNull f r.headers) p.header = f p.field.name := by
    intro p hp hh
    refine notNull_find (P := fun k => SameHeader k p.header) ?_ rfl ?_
    · rw [h4]
      exact List.mem_map.2 ⟨p, List.mem_filter.2 ⟨hp, by simp [hh]⟩, rfl⟩
    · rw [h4]
      intro y hy hk
      obtain ⟨q, hq2, rfl⟩ := List.mem_map.1 hy
      have : q = p := nodup_map_unique hdiff.header hq2 (List.mem_filter.2 ⟨hp, by simp [hh]⟩) hk
      rw [this]
  generalize hres' : c.result = x at g3
  cases g3 with
  | nothing h => exact absurd h hne
  | @value b hs _ hb hb0 hhs =>
    have hcond : ∀ y ∈ hs, y.2.2 = "Instant" → (HeaderValue (NotNull f r.headers) y.1).isSome := by
      intro y hy hi
      obtain ⟨p, hp, k1, k2, t, k3, k4⟩ := forall₂_mem_right hhs hy
      obtain ⟨hp1, hp2⟩ := List.mem_filter.1 hp
      have hp2 : p.header ≠ "" := by simpa using hp2
      rw [k1, hval p hp1 hp2]
      exact Option.isSome_iff_ne_none.2 (hinst p hp1 hp2 t k3 (by rw [← k4, hi]))
    refine ⟨(b.toList.map fun x => (x.1, r.entity.bind fun n => f n.1)) ++
      hs.map fun h => (h.2.1, HeaderValue (NotNull f r.headers) h.1), ?_, ?_, ?_⟩
    · simp only [JavaReply, JavaReceive, hres, if_true, h2, g2, hres', if_pos hcond]
    · intro p hp
      by_cases hh : p.header = ""
      · have hfirst : ∀ q, FirstOf JavaOutBody e.outputs q → q = p := by
          rintro q ⟨a, d, hl, hq, _⟩
          refine filter_one hone (by rw [hl]; simp) hp ?_ ?_
          · exact decide_eq_true hq
          · exact decide_eq_true hh
        have hff : FirstOf JavaOutBody e.outputs p := by
          cases hfi : e.outputs.find? fun p => decide (JavaOutBody p) with
          | some q => have := firstOf_find.1 hfi; rwa [hfirst q this] at this
          | none => exact absurd hh (find_none.1 hfi p hp)
        obtain ⟨t, ht, hbt⟩ := hb p hff
        rw [if_neg (hdiff.type p hp t ht)] at hbt
        have hent : r.entity.bind (fun n => f n.1) = f p.field.name := by
          generalize r.entity = ent at h5
          cases h5 with
          | some k1 _ _ _ => rw [hfirst _ k1]; rfl
          | void k1 k2 _ =>
            rw [hfirst _ k1] at k2
            rcases k2 with k2 | k2
            · exact absurd k2 (hdiff.name p hp)
            · exact absurd k2 (hname p hp)
          | none k1 => exact absurd hh (k1 p hp)
        rw [hbt, hent]
        simp
      · obtain ⟨y, hy, k1, k2, _⟩ := forall₂_mem_left hhs (List.mem_filter.2 ⟨hp, by simp [hh]⟩)
        refine List.mem_append_right _ (List.mem_map.2 ⟨y, hy, ?_⟩)
        rw [k1, k2, hval p hp hh]
    · intro y hy
      rcases List.mem_append.1 hy with hy | hy
      · cases hfi : e.outputs.find? fun p => decide (JavaOutBody p) with
        | none =>
          rw [hb0 (find_none.1 hfi)] at hy
          simp at hy
        | some p =>
          have hf := firstOf_find.1 hfi
          have hp : p ∈ e.outputs := by obtain ⟨a, d, hl, _⟩ := hf; rw [hl]; simp
          obtain ⟨t, ht, hbt⟩ := hb p hf
          rw [if_neg (hdiff.type p hp t ht)] at hbt
          rw [hbt] at hy
          simp only [Option.toList_some, List.map_cons, List.map_nil, List.mem_singleton] at hy
          have hfirst : ∀ q, FirstOf JavaOutBody e.outputs q → q = p := by
            rintro q ⟨a, d, hl, hq, _⟩
            obtain ⟨_, _, _, hpp, _⟩ := hf
            exact filter_one hone (by rw [hl]; simp) hp (decide_eq_true hq) (decide_eq_true hpp)
          refine ⟨p, hp, ?_⟩
          rw [hy]
          have hent : r.entity.bind (fun n => f n.1) = f p.field.name := by
            generalize r.entity = ent at h5
            cases h5 with
            | some k1 _ _ _ => rw [hfirst _ k1]; rfl
            | void k1 k2 _ =>
              rw [hfirst _ k1] at k2
              rcases k2 with k2 | k2
              · exact absurd k2 (hdiff.name p hp)
              · exact absurd k2 (hname p hp)
            | none k1 =>
              obtain ⟨_, _, _, hpp, _⟩ := hf
              exact absurd hpp (k1 p hp)
          rw [hent]
      · obtain ⟨z, hz, rfl⟩ := List.mem_map.1 hy
        obtain ⟨p, hp, k1, k2, _⟩ := forall₂_mem_right hhs hz
        obtain ⟨hp1, hp2⟩ := List.mem_filter.1 hp
        refine ⟨p, hp1, ?_⟩
        rw [k1, k2, hval p hp1 (by simpa using hp2)]

theorem javaStatus_found (hst : JavaStatusesDiffer h e) {x : HttpExceptionSpec} (hx : x ∈ h.exceptions) (w : JavaSentResponse V)
    (hws : w.status = x.status) : JavaReceive c w = .throws x.type w.entity := by
  obtain ⟨e2, g1, g2, g3⟩ := hc.expected
  rw [he] at g1; cases g1
  obtain ⟨h1, h2⟩ := List.nodup_cons.1 hst
  have hne : w.status ≠ c.status := by
    rw [hws, g2]
    intro h0
    exact h1 (List.mem_map.2 ⟨x, hx, h0⟩)
  unfold JavaReceive
  rw [if_neg hne]
  have hfind : (c.exceptions.find? fun y => y.1 = w.status) = some (x.status, x.type) := by
    rw [hc.exceptions]
    cases hf : (h.exceptions.map fun y => (y.status, y.type)).find? fun y => decide (y.1 = w.status) with
    | none =>
      have := List.find?_eq_none.1 hf (x.status, x.type) (List.mem_map.2 ⟨x, hx, rfl⟩)
      simp [hws] at this
    | some y =>
      have k1 := List.find?_some hf
      obtain ⟨z, hz, rfl⟩ := List.mem_map.1 (List.mem_of_find?_eq_some hf)
      have : z = x := nodup_map_unique h2 hz hx (by simpa [hws] using k1)
      rw [this]
  rw [hfind]

include hw in
theorem javaException_arrives (hst : JavaStatusesDiffer h e) (hcl : JavaClassesDiffer s conf.instants h) {x : HttpExceptionSpec}
    (hx : x ∈ h.exceptions) {t : JTy} (ht : JavaBare s conf.instants x.type true t) (hse : conf.serviceException = true → t.text ≠ "ServiceException") (v : V) :
    JavaReceive c (JavaReply conf r (.throws t.text v)) =
      .throws x.type (if conf.serviceException = true ∧ (x.status = 204 ∨ x.status = 304) then none else some v) := by
  obtain ⟨y, hy, k1, u, k2, k3⟩ := forall₂_mem_left hr.exceptions hx
  have hut := javaBare_unique hw conf ht k2
  subst hut
  have hfind : ∀ (P : String × Int → Bool), P y = true → (r.exceptions.filter P).find? (fun z => z.1 = t.text) = some y := by
    intro P hP
    cases hf : (r.exceptions.filter P).find? (fun z => decide (z.1 = t.text)) with
    | none =>
      have := List.find?_eq_none.1 hf y (List.mem_filter.2 ⟨hy, hP⟩)
      simp [k3] at this
    | some z =>
      have l1 := List.find?_some hf
      have l2 := (List.mem_filter.1 (List.mem_of_find?_eq_some hf)).1
      obtain ⟨q, hq, m1, u2, m2, m3⟩ := forall₂_mem_right hr.exceptions l2
      have : q = x := hcl q hq x hx u2 t m2 ht (by rw [← m3]; simpa using l1)
      subst this
      have hz : z = y := Prod.ext (by rw [k3]; simpa using l1) (by rw [m1, k1])
      rw [hz]
  cases hb : conf.serviceException with
  | true =>
    have hf := hfind (fun z => decide (z.1 ≠ "ServiceException")) (by simp [k3, hse hb])
    have hrep : JavaReply conf r (.throws t.text v) = ⟨y.2, [], if y.2 = 204 ∨ y.2 = 304 then none else some v⟩ := by
      simp only [JavaReply, hb, if_true]
      rw [hf]
    rw [javaStatus_found hr hc he hst hx _ (by rw [hrep]; exact k1), hrep, k1]
    simp
  | false =>
    have hf := hfind (fun _ => true) rfl
    rw [List.filter_true] at hf
    have hrep : JavaReply conf r (.throws t.text v) = ⟨y.2, [], some v⟩ := by
      simp only [JavaReply, hb, if_false, Bool.false_eq_true]
      rw [hf]
    rw [javaStatus_found hr hc he hst hx _ (by rw [hrep]; exact k1), hrep]
    simp

theorem javaFailure_arrives (h1 : e.status ≠ 500) (h2 : ∀ x ∈ h.exceptions, x.status ≠ 500) :
    JavaReceive (V := V) c (JavaReply conf r .fails) = .fails := by
  obtain ⟨e2, g1, g2, g3⟩ := hc.expected
  rw [he] at g1; cases g1
  have hne : (JavaReply (V := V) conf r .fails).status ≠ c.status := by
    rw [g2]
    exact fun h => h1 h.symm
  unfold JavaReceive
  rw [if_neg hne]
  have : (c.exceptions.find? fun y => y.1 = 500) = none := by
    rw [hc.exceptions, List.find?_eq_none]
    intro y hy
    obtain ⟨z, hz, rfl⟩ := List.mem_map.1 hy
    simpa using h2 z hz
  show (match c.exceptions.find? fun y => y.1 = 500 with | some x => _ | none => _) = _
  rw [this]

end

/-! ### C96 -/

/-- The server and the client are generated from the model, and `r` and `c` are their methods for the action `h`. -/
structure JavaPair (m : Model) (conf : JavaConf) (h : HttpDef) (r : JResource) (c : JCall) : Prop where
  generated : ∃ (rs : List JResource) (ns : List JNote) (cs : List JCall) (i : Nat), javaResources m conf m.schema.http = .ok (rs, ns) ∧ javaCalls m conf m.schema.http = .ok cs ∧
    m.schema.http[i]? = some h ∧ rs[i]? = some r ∧ cs[i]? = some c

section
variable (lib : PLib) (m : Model) (ha : Accepted lib m) (hb : NoBoxes m.schema) (conf : JavaConf)
  (h : HttpDef) (r : JResource) (c : JCall) (hp : JavaPair m conf h r c)
include ha hb hp

theorem javaPair_for : h ∈ m.schema.http ∧ JavaResourceFor m.schema conf h r ∧ JavaCallFor m.schema conf h c ∧ JavaCallReady m.schema conf h := by
  obtain ⟨rs, ns, cs, i, h1, h2, h3, h4, h5⟩ := hp.generated
  have hm := List.mem_of_getElem? h3
  exact ⟨hm, forall₂_index (C94_mirrors lib m ha hb conf rs ns h1) h3 h4, forall₂_index (C95_mirrors lib m ha hb conf cs h2) h3 h5,
    (C95_generates_iff lib m ha hb conf).1 ⟨cs, h2⟩ h hm⟩

/-- C96: what the client sends goes to the method of the server for the same action, and the implementation gets the inputs that
the client was given, with the defaults for those that are null. -/
theorem C96_request (hdiff : JavaInputsDiffer h) (read : String → V) (obj : String → Option V)
    (hpath : ∀ p ∈ h.inputs, p.path = true → obj p.field.name ≠ none) :
    ∃ w, JavaSend c obj = some w ∧ w.verb = r.verb ∧ w.path = r.path ∧
      List.Forall₂ (fun p a => a.1 = p.field.name ∧ JavaGets conf.decText read p (obj p.field.name) a.2) h.inputs (JavaArgs read r w) := by
  obtain ⟨hm, hr, hc, hrd⟩ := javaPair_for lib m ha hb conf h r c hp
  have hok := (C53_accepted_valid lib m ha).http h hm
  refine javaRequest_arrives (read := read) (obj := obj) hr hc (accepted_http ha h hm).places hdiff hok.oneBody (fun p hp hbd => ?_) hpath
  have h1 := hok.bodyAllowed p hp hbd
  have h2 := hrd.method
  simp only [List.mem_cons, List.not_mem_nil, or_false] at h1 h2
  rcases h1 with h1 | h1 | h1
  · exact .inl h1
  · exact .inr h1
  · rw [h1] at h2; exact absurd h2 (by decide)

/-- C96: when a path variable is null, nothing is sent. -/
theorem C96_notSent (obj : String → Option V) (p : HttpParamSpec) (hm : p ∈ h.inputs) (hpp : p.path = true) (hn : obj p.field.name = none) :
    JavaSend c obj = none := by
  obtain ⟨_, _, hc, _⟩ := javaPair_for lib m ha hb conf h r c hp
  unfold JavaSend
  rw [if_neg]
  intro h1
  have := h1 p.field.name (by rw [hc.templates]; exact List.mem_map.2 ⟨p, List.mem_filter.2 ⟨hm, hpp⟩, rfl⟩)
  rw [hn] at this
  exact absurd this (by simp)

/-- C96: when the implementation returns a response, the client returns one with the same outputs. -/
theorem C96_response (e : HttpExpectedSpec) (he : h.expected = some e) (hne : e.outputs ≠ []) (hdiff : JavaOutputsDiffer m.schema conf.instants e)
    (f : String → Option V) (hinst : JavaInstantsSent m.schema conf.instants e f) :
    ∃ l, JavaReceive c (JavaReply conf r (.returns f)) = .returns l ∧ (∀ p ∈ e.outputs, (p.field.name, f p.field.name) ∈ l) ∧
      ∀ x ∈ l, ∃ p ∈ e.outputs, x = (p.field.name, f p.field.name) := by
  obtain ⟨hm, hr, hc, _⟩ := javaPair_for lib m ha hb conf h r c hp
  exact javaResponse_arrives hr hc he hne hdiff ((accepted_namedParams ha h hm).2 e he) (((C53_accepted_valid lib m ha).http h hm).oneOutputBody e he)
    f hinst

/-- C96: without outputs, the client returns null. -/
theorem C96_null (e : HttpExpectedSpec) (he : h.expected = some e) (hno : e.outputs = []) (f : String → Option V) :
    JavaReceive c (JavaReply conf r (.returns f)) = .null := by
  obtain ⟨_, hr, hc, _⟩ := javaPair_for lib m ha hb conf h r c hp
  exact javaResponse_null hr hc he hno f

/-- C96: when the implementation throws one of the exceptions of the action, the client throws the exception with the same
object, unless the setting `service-exception` is given and the status does not allow a body. -/
theorem C96_exception (e : HttpExpectedSpec) (he : h.expected = some e) (hst : JavaStatusesDiffer h e) (hcl : JavaClassesDiffer m.schema conf.instants h)
    (x : HttpExceptionSpec) (hx : x ∈ h.exceptions) (t : JTy) (ht : JavaBare m.schema conf.instants x.type true t)
    (hse : conf.serviceException = true → t.text ≠ "ServiceException") (v : V) :
    JavaReceive c (JavaReply conf r (.throws t.text v)) =
      .throws x.type (if conf.serviceException = true ∧ (x.status = 204 ∨ x.status = 304) then none else some v) := by
  obtain ⟨_, hr, hc, _⟩ := javaPair_for lib m ha hb conf h r c hp
  exact javaException_arrives (accepted_java ha hb) hr hc he hst hcl hx ht hse v

/-- C96: when the implementation fails otherwise, the client throws a RuntimeException, unless the action uses the status 500. -/
theorem C96_failure (e : HttpExpectedSpec) (he : h.expected = some e) (h1 : e.status ≠ 500) (h2 : ∀ x ∈ h.exceptions, x.status ≠ 500) :
    JavaReceive (V := V) c (JavaReply conf r .fails) = .fails := by
  obtain ⟨_, hr, hc, _⟩ := javaPair_for lib m ha hb conf h r c hp
  exact javaFailure_arrives hr hc he h1 h2

end

/-! ### Examples -/

/-- A condition on the only action and its methods. -/
def javaPairCheck (m : Model) (conf : JavaConf) (P : HttpDef → JResource → JCall → Bool) : Bool :=
  match m.schema.http, javaResources m conf m.schema.http, javaCalls m conf m.schema.http with
  | [h], .ok ([r], _), .ok [c] => P h r c
  | _, _, _ => false

theorem javaPair_of (toks : List Token) (conf : JavaConf) (P : Model → HttpDef → JResource → JCall → Bool)
    (h1 : toks.all (fun t => decide (t.type = .symbol → t.text ≠ "")) = true)
    (h2 : accepts noLib toks (fun m => decide (∀ td ∈ m.schema.types, td.name ∉ JavaBoxes) && javaPairCheck m conf (P m)) = true) :
    ∃ m h r c, Accepted noLib m ∧ NoBoxes m.schema ∧ JavaPair m conf h r c ∧ P m h r c = true := by
  obtain ⟨m, h3, h4⟩ := accepted_of noLib toks _ h1 h2
  rw [Bool.and_eq_true] at h4
  obtain ⟨h5, h6⟩ := h4
  unfold javaPairCheck at h6
  split at h6
  · rename_i h r ns c e1 e2 e3
    have h5' : ∀ td ∈ m.schema.types, td.name ∉ JavaBoxes := of_decide_eq_true h5
    exact ⟨m, h, r, c, h3, h5', ⟨⟨_, _, _, 0, e2, e3, by rw [e1]; rfl, rfl, rfl⟩⟩, h6⟩
  · exact absurd h6 (by simp)

/-- A struct type with a string as its field. -/
def errorSource (n : String) : List Token :=
  [sym "type", sym n, sym "Struct", punct .openBrace, nl, sym "message", sym "String", nl, punct .closeBrace, nl]

/-- The text of the Java type of a type. -/
def javaText? (m : Model) (conf : JavaConf) (n : String) : Option String :=
  match javaType m conf none n true with | .ok jt => some jt.type.text | _ => none

theorem javaText_eq {m : Model} (hw : JavaWf m.schema m) (conf : JavaConf) {n u : String} (h : javaText? m conf n = some u) {t : JTy}
    (ht : JavaBare m.schema conf.instants n true t) : t.text = u := by
  obtain ⟨jt, h1, rfl⟩ := (javaType_bare hw conf n true t).2 ht
  rw [javaText?, h1] at h
  exact Option.some.inj h

/-- The exceptions of an action, without their comments. -/
def exceptionsOf (h : HttpDef) : List (Int × String) := h.exceptions.map fun x => (x.status, x.type)

/-- The hypotheses of C96 can be met. -/
theorem C96_example : ∃ m h r c e, Accepted noLib m ∧ NoBoxes m.schema ∧ JavaPair m {} h r c ∧ h.expected = some e ∧ JavaInputsDiffer h ∧
    JavaOutputsDiffer m.schema true e ∧ e.outputs.length = 2 ∧ JavaStatusesDiffer h e ∧ JavaClassesDiffer m.schema true h ∧
    exceptionsOf h = [(404, "NotFound"), (410, "Gone")] ∧ e.status = 200 ∧ h.inputs.length = 3 := by
  obtain ⟨m, h, r, c, h1, h2, h3, h4⟩ := javaPair_of ([sym "name", sym "test", nl] ++ itemSource ++ errorSource "NotFound" ++ errorSource "Gone" ++
    actionSource "POST" "/items/{id}?verbose={v}" [[sym "id", sym "String"], [sym "v", sym "Bool"], [sym "data", sym "Item"],
      expectSource "200" [[sym "item", sym "Item"], headerSource "modified" "Timestamp" "Last-Modified"],
      [sym "except", num "404", sym "NotFound"], [sym "except", num "410", sym "Gone"]]) {}
    (fun m h _ _ => match h.expected with
      | none => false
      | some e => decide (((h.inputs.filter fun p => p.path).map fun p => p.field.name).Nodup ∧
          ((h.inputs.filter fun p => decide (p.query ≠ "")).map fun p => p.query).Nodup ∧
          ((h.inputs.filter fun p => decide (p.header ≠ "")).map fun p => lowerAscii p.header).Nodup ∧
          ((e.outputs.filter fun p => decide (p.header ≠ "")).map fun p => lowerAscii p.header).Nodup ∧
          (e.outputs.map fun p => (p.field.name, javaText? m {} p.field.ts.type)) = [("item", some "Item"), ("modified", some "Instant")] ∧
          exceptionsOf h = [(404, "NotFound"), (410, "Gone")] ∧ javaText? m {} "NotFound" = some "NotFound" ∧ javaText? m {} "Gone" = some "Gone" ∧
          (e.status :: h.exceptions.map (·.status)).Nodup ∧ e.status = 200 ∧ h.inputs.length = 3))
    (by decide +kernel) (by decide +kernel)
  have hw : JavaWf m.schema m := accepted_java h1 h2
  cases he : h.expected with
  | none => simp [he] at h4
  | some e =>
    simp only [he] at h4
    obtain ⟨k1, k2, k3, k4, k5, k6, k7, k8, k9, k10, k11⟩ := of_decide_eq_true h4
    have hout : ∀ p ∈ e.outputs, (p.field.name, javaText? m {} p.field.ts.type) ∈ [("item", some "Item"), ("modified", some "Instant")] := by
      intro p hp
      rw [← k5]
      exact List.mem_map.2 ⟨p, hp, rfl⟩
    refine ⟨m, h, r, c, e, h1, h2, h3, he, ⟨k1, k2, k3⟩, ⟨k4, ?_, ?_⟩, ?_, k9, ?_, k6, k10, k11⟩
    · intro p hp hv
      have := hout p hp
      rw [hv] at this
      simp at this
    · intro p hp t ht hv
      have := hout p hp
      simp only [List.mem_cons, List.not_mem_nil, or_false, Prod.mk.injEq] at this
      rcases this with ⟨_, h5⟩ | ⟨_, h5⟩
      · rw [javaText_eq hw {} h5 ht] at hv; exact absurd hv (by decide)
      · rw [javaText_eq hw {} h5 ht] at hv; exact absurd hv (by decide)
    · simpa using congrArg List.length k5
    · intro x hx y hy t u ht hu htu
      have hmem : ∀ z ∈ h.exceptions, (z.status, z.type) ∈ [((404 : Int), "NotFound"), (410, "Gone")] := by
        intro z hz
        rw [← k6]
        exact List.mem_map.2 ⟨z, hz, rfl⟩
      have hst : x.status = y.status := by
        have mx := hmem x hx
        have my := hmem y hy
        simp only [List.mem_cons, List.not_mem_nil, or_false, Prod.mk.injEq] at mx my
        rcases mx with ⟨a1, a2⟩ | ⟨a1, a2⟩ <;> rcases my with ⟨b1, b2⟩ | ⟨b1, b2⟩
        · rw [a1, b1]
        · rw [a2] at ht; rw [b2] at hu
          rw [javaText_eq hw {} k7 ht, javaText_eq hw {} k8 hu] at htu
          exact absurd htu (by decide)
        · rw [a2] at ht; rw [b2] at hu
          rw [javaText_eq hw {} k8 ht, javaText_eq hw {} k7 hu] at htu
          exact absurd htu (by decide)
        · rw [a1, b1]
      exact nodup_map_unique (List.nodup_cons.1 k9).2 hx hy hst

/-- C96: of two exceptions with the same status, the client throws the first when the implementation throws the second. -/
theorem C96_refuted_status : ∃ m h r c, Accepted noLib m ∧ NoBoxes m.schema ∧ JavaPair m {} h r c ∧
    exceptionsOf h = [(404, "NotFound"), (404, "Gone")] ∧
    ∀ (V : Type) (v : V), JavaReceive c (JavaReply {} r (.throws "Gone" v)) = .throws "NotFound" (some v) := by
  obtain ⟨m, h, r, c, h1, h2, h3, h4⟩ := javaPair_of ([sym "name", sym "test", nl] ++ itemSource ++ errorSource "NotFound" ++ errorSource "Gone" ++
    actionSource "GET" "/items" [expectSource "200" [[sym "item", sym "Item"]],
      [sym "except", num "404", sym "NotFound"], [sym "except", num "404", sym "Gone"]]) {}
    (fun _ h r c => decide (exceptionsOf h = [(404, "NotFound"), (404, "Gone")] ∧ r.exceptions = [("NotFound", 404), ("Gone", 404)] ∧
      c.exceptions = [(404, "NotFound"), (404, "Gone")] ∧ c.status = 200))
    (by decide +kernel) (by decide +kernel)
  obtain ⟨k1, k2, k3, k4⟩ := of_decide_eq_true h4
  refine ⟨m, h, r, c, h1, h2, h3, k1, fun V v => ?_⟩
  simp [JavaReply, JavaReceive, k2, k3, k4]

/-- C96: when the action has an exception with the status 500, the client throws it, without an object, when the implementation
fails in another way. -/
theorem C96_refuted_500 : ∃ m h r c, Accepted noLib m ∧ NoBoxes m.schema ∧ JavaPair m {} h r c ∧ exceptionsOf h = [(500, "NotFound")] ∧
    ∀ V : Type, JavaReceive (V := V) c (JavaReply {} r .fails) = .throws "NotFound" none := by
  obtain ⟨m, h, r, c, h1, h2, h3, h4⟩ := javaPair_of ([sym "name", sym "test", nl] ++ itemSource ++ errorSource "NotFound" ++
    actionSource "GET" "/items" [expectSource "200" [[sym "item", sym "Item"]], [sym "except", num "500", sym "NotFound"]]) {}
    (fun _ h _ c => decide (exceptionsOf h = [(500, "NotFound")] ∧ c.exceptions = [(500, "NotFound")] ∧ c.status = 200))
    (by decide +kernel) (by decide +kernel)
  obtain ⟨k1, k3, k4⟩ := of_decide_eq_true h4
  refine ⟨m, h, r, c, h1, h2, h3, k1, fun V => ?_⟩
  simp [JavaReply, JavaReceive, k3, k4]

/-- C96: when an instant that is to be sent in a header is null, the client fails, although the implementation returned. -/
theorem C96_refuted_instant : ∃ m h r c, Accepted noLib m ∧ NoBoxes m.schema ∧ JavaPair m {} h r c ∧
    ∀ (V : Type) (item : V), JavaReceive c (JavaReply {} r (.returns fun n => if n = "item" then some item else none)) = .fails := by
  obtain ⟨m, h, r, c, h1, h2, h3, h4⟩ := javaPair_of ([sym "name", sym "test", nl] ++ itemSource ++
    actionSource "GET" "/items" [expectSource "200" [[sym "item", sym "Item"], headerSource "modified" "Timestamp" "Last-Modified"]]) {}
    (fun _ _ r c => decide (r.status = 200 ∧ r.result = true ∧ r.headers = [("Last-Modified", "modified")] ∧ c.status = 200 ∧
      c.result = .value (some ("item", "Item")) [("Last-Modified", "modified", "Instant")]))
    (by decide +kernel) (by decide +kernel)
  obtain ⟨k1, k2, k3, k4, k5⟩ := of_decide_eq_true h4
  refine ⟨m, h, r, c, h1, h2, h3, fun V v => ?_⟩
  simp [JavaReply, JavaReceive, k1, k2, k3, k4, k5, NotNull, HeaderValue]

end Sadl.Props
