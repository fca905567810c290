import Verif.Lemmas.GoClientRules
/-
What the methods of a generated Go client send, and what they make of responses.
-/
namespace Sadl
open Sadl.Spec

section
variable {m : Model} (hm : newModel m.schema = .ok m) {conf : GoConf}
include hm

theorem argForm_iff (t z g : String) : ArgForm m.schema t z g ↔ z = goNotSet m t ∧ g = goTypeFormat m t := by
  have k := fun l hl => goBaseType_iff hm t l hl
  unfold goNotSet goTypeFormat
  constructor
  · intro h
    cases h with
    | text h =>
      have := (k _ (by decide)).2 h
      simp only [List.mem_cons, List.not_mem_nil, or_false] at this
      simp [this]
    | integer h =>
      have := (k _ (by decide)).2 h
      simp only [List.mem_cons, List.not_mem_nil, or_false] at this
      rcases this with h | h | h | h <;> simp [h]
    | float h =>
      have := (k _ (by decide)).2 h
      simp only [List.mem_cons, List.not_mem_nil, or_false] at this
      rcases this with h | h | h <;> simp [h]
    | bool h =>
      have := (k _ (by decide)).2 h
      simp only [List.mem_cons, List.not_mem_nil, or_false] at this
      simp [this]
    | other h =>
      have := mt (k _ (by decide)).1 h
      simp only [List.mem_cons, List.not_mem_nil, or_false, not_or] at this
      obtain ⟨h1, h2, h3, h4, h5, h6, h7, h8, h9⟩ := this
      simp [*]
  · rintro ⟨rfl, rfl⟩
    by_cases h1 : goBaseType m t = "String"
    · simp only [h1, if_true]
      exact .text ((k _ (by decide)).1 (by simp [h1]))
    by_cases h2 : goBaseType m t = "Int8" ∨ goBaseType m t = "Int16" ∨ goBaseType m t = "Int32" ∨ goBaseType m t = "Int64"
    · simp only [h1, h2, if_true, if_false]
      exact .integer ((k _ (by decide)).1 (by simpa using h2))
    by_cases h3 : goBaseType m t = "Float32" ∨ goBaseType m t = "Float64" ∨ goBaseType m t = "Decimal"
    · simp only [h1, h2, h3, if_true, if_false]
      exact .float ((k _ (by decide)).1 (by simpa using h3))
    by_cases h4 : goBaseType m t = "Bool"
    · simp only [h4, if_true, if_false]
      exact .bool ((k _ (by decide)).1 (by simp [h4]))
    · simp only [h1, h2, h3, h4, if_false]
      refine .other fun h => ?_
      have := (k _ (by decide)).2 h
      simp only [List.mem_cons, List.not_mem_nil, or_false] at this
      tauto

/-- The arguments of a call. -/
def argsOf (m : Model) (differs : String → String → Bool) (sprintf : String → String → String) (l : List HttpParamSpec) : List String :=
  ((((l.filter fun p => p.query ≠ "").map (argOf m)).filter fun a => differs a.field a.zero)).map fun a => a.name ++ "=" ++ sprintf a.format a.field

theorem argsSent_iff (differs : String → String → Bool) (sprintf : String → String → String) (l : List HttpParamSpec) (r : List String) :
    ArgsSent m.schema differs sprintf l r ↔ r = argsOf m differs sprintf l := by
  constructor
  · intro h
    induction h with
    | nil => rfl
    | sent h1 h2 h3 _ ih =>
      obtain ⟨rfl, rfl⟩ := (argForm_iff hm _ _ _).1 h2
      rw [ih]
      simp [argsOf, h1, argOf, h3]
    | zero h1 h2 h3 _ ih =>
      obtain ⟨rfl, rfl⟩ := (argForm_iff hm _ _ _).1 h2
      rw [ih]
      simp [argsOf, h1, argOf, h3]
    | skip h1 _ ih =>
      rw [ih]
      simp [argsOf, h1]
  · rintro rfl
    induction l with
    | nil => exact .nil
    | cons p l ih =>
      by_cases h1 : p.query = ""
      · have : argsOf m differs sprintf (p :: l) = argsOf m differs sprintf l := by simp [argsOf, h1]
        rw [this]
        exact .skip h1 ih
      · cases h2 : differs (capitalize p.field.name) (goNotSet m p.field.ts.type) with
        | true =>
          have : argsOf m differs sprintf (p :: l) =
              (p.field.name ++ "=" ++ sprintf (goTypeFormat m p.field.ts.type) (capitalize p.field.name)) :: argsOf m differs sprintf l := by
            simp [argsOf, h1, argOf, h2]
          rw [this]
          exact .sent h1 ((argForm_iff hm _ _ _).2 ⟨rfl, rfl⟩) h2 ih
        | false =>
          have : argsOf m differs sprintf (p :: l) = argsOf m differs sprintf l := by simp [argsOf, h1, argOf, h2]
          rw [this]
          exact .zero h1 ((argForm_iff hm _ _ _).2 ⟨rfl, rfl⟩) h2 ih

/-- What a method sends. -/
theorem call_sends (h : HttpDef) (target : String) (differs : String → String → Bool) (sprintf : String → String → String) (r : GoSent) :
    SentFor m.schema h target differs sprintf r ↔ r = RunCall target differs sprintf (callOf m conf h) := by
  have hargs : ((callOf m conf h).args.filter fun a => differs a.field a.zero).map (fun a => a.name ++ "=" ++ sprintf a.format a.field) =
      argsOf m differs sprintf h.inputs := rfl
  have hread : ∀ f, readerOf h = some f ↔ h.method ∈ ["PUT", "POST", "PATCH"] ∧ ∃ p, h.inputs.find? BodyInput = some p ∧ f = capitalize p.field.name := by
    intro f
    unfold readerOf
    by_cases hv : h.method ∈ goBodyVerbs
    · have hv' : h.method ∈ ["PUT", "POST", "PATCH"] := hv
      rw [if_pos hv, Option.map_eq_some_iff]
      simp only [hv', true_and, eq_comm (a := f)]
    · have hv' : h.method ∉ ["PUT", "POST", "PATCH"] := hv
      rw [if_neg hv]
      simp [hv']
  have hurl : (RunCall target differs sprintf (callOf m conf h)).url = target ++ String.ofList (pathPart h.path.toList) ++
      (if argsOf m differs sprintf h.inputs = [] then "" else "?" ++ "&".intercalate (argsOf m differs sprintf h.inputs)) := rfl
  constructor
  · intro hs
    obtain ⟨p, q, args, h1, h2, h3⟩ := hs.url
    obtain ⟨rfl, _⟩ := pathAndQuery_unique h1
    rw [(argsSent_iff hm _ _ _ _).1 h2, ← hurl] at h3
    have hb : r.body = readerOf h := Option.ext fun f => (hs.body f).trans (hread f).symm
    have hj : r.json = decide (h.method ∈ goBodyVerbs) := by
      rw [Bool.eq_iff_iff, hs.json, decide_eq_true_iff]; rfl
    obtain ⟨v, u, b, j⟩ := r
    have hv := hs.verb
    simp only at h3 hb hj hv
    rw [hv, h3, hb, hj]
    rfl
  · rintro rfl
    refine ⟨rfl, ⟨_, _, _, pathAndQuery _, (argsSent_iff hm _ _ _ _).2 rfl, hurl⟩, fun f => hread f, ?_⟩
    change decide (h.method ∈ goBodyVerbs) = true ↔ _
    rw [decide_eq_true_iff]; rfl

theorem native_leaf {n : String} (hk : Known m.schema n) (ha : n ≠ "Array") (hp : n ≠ "Map") (t : GoTy) :
    GoLeafOf m.schema conf.runtime n t ↔ t = (nativeOf m conf n).1 := by
  rw [leafOf_iff hm ⟨hk, ha, hp⟩]
  have : (m.findType n).isSome = true := by
    cases h : m.findType n with
    | none => exact absurd hk ((goFind_none_iff hm _).1 h)
    | some _ => rfl
  simp [nativeOf, this]

variable {ρ : Type}

/-- How an output is read. -/
def ReadsAs (s : Schema) (runtime : Bool) (rd : GoReadsBack ρ) (p : HttpParamSpec) (f : String × ρ) : Prop :=
  f.1 = capitalize p.field.name ∧
    ((p.header = "" ∧ ∃ t, GoLeafOf s runtime p.field.ts.type t ∧ rd.decode t = some f.2) ∨
     (p.header ≠ "" ∧ p.field.ts.type = "Timestamp" ∧ runtime = false ∧ f.2 = rd.time p.header) ∨
     (p.header ≠ "" ∧ ¬ (p.field.ts.type = "Timestamp" ∧ runtime = false) ∧ f.2 = rd.header p.header))

theorem outputs_read (hr : GoReady m.schema) (hid : ∀ td ∈ m.schema.types, GoIdent td.name) (rd : GoReadsBack ρ) (l : List HttpParamSpec)
    (hl : ∀ p ∈ l, Known m.schema p.field.ts.type ∧ p.field.ts.type ≠ "Array" ∧ p.field.ts.type ≠ "Map") :
    (∀ fs, ReadOutputs rd (l.map (outputOf m conf)) = some fs ↔ List.Forall₂ (ReadsAs m.schema conf.runtime rd) l fs) ∧
    (ReadOutputs rd (l.map (outputOf m conf)) = none ↔ ∃ p ∈ l, p.header = "" ∧ ∃ t, GoLeafOf m.schema conf.runtime p.field.ts.type t ∧ rd.decode t = none) := by
  induction l with
  | nil =>
    refine ⟨fun fs => ?_, by simp [ReadOutputs]⟩
    simp only [List.map_nil, ReadOutputs, Option.some.injEq, List.forall₂_nil_left_iff]
    exact eq_comm
  | cons p l ih =>
    obtain ⟨ih1, ih2⟩ := ih fun q hq => hl q (by simp [hq])
    obtain ⟨hk, ha, hmp⟩ := hl p (by simp)
    have hleaf := native_leaf hm (conf := conf) hk ha hmp
    have htime := native_time hm hr (conf := conf) hid hk ha hmp
    rw [List.map_cons]
    by_cases hh : p.header = ""
    · have e1 : outputOf m conf p = .body (capitalize p.field.name) (nativeOf m conf p.field.ts.type).1 := by simp [outputOf, hh]
      have has : ∀ f : String × ρ, ReadsAs m.schema conf.runtime rd p f ↔ f.1 = capitalize p.field.name ∧ rd.decode (nativeOf m conf p.field.ts.type).1 = some f.2 := by
        intro f
        simp only [ReadsAs, hh, hleaf, exists_eq_left, ne_eq, not_true_eq_false, false_and, or_false, true_and]
      rw [e1]
      unfold ReadOutputs
      cases hd : rd.decode (nativeOf m conf p.field.ts.type).1 with
      | none =>
        refine ⟨fun fs => ?_, ?_⟩
        · simp only [reduceCtorEq, false_iff, List.forall₂_cons_left_iff, has, hd]
          rintro ⟨_, _, ⟨_, h⟩, _⟩; cases h
        · simp only [true_iff]
          exact ⟨p, by simp, hh, _, (hleaf _).2 rfl, hd⟩
      | some v =>
        refine ⟨fun fs => ?_, ?_⟩
        · simp only [Option.map_eq_some_iff, ih1, List.forall₂_cons_left_iff, has, hd, Option.some.injEq]
          constructor
          · rintro ⟨r, h1, rfl⟩; exact ⟨_, r, ⟨rfl, rfl⟩, h1, rfl⟩
          · rintro ⟨⟨a, b⟩, r, ⟨rfl, rfl⟩, h1, rfl⟩; exact ⟨r, h1, rfl⟩
        · simp only [Option.map_eq_none_iff, ih2, List.mem_cons]
          constructor
          · rintro ⟨q, hq, h1⟩; exact ⟨q, .inr hq, h1⟩
          · rintro ⟨q, rfl | hq, h1, t, h2, h3⟩
            · rw [(hleaf _).1 h2, hd] at h3; cases h3
            · exact ⟨q, hq, h1, t, h2, h3⟩
    · have e1 : outputOf m conf p = .header (capitalize p.field.name) p.header (decide (p.field.ts.type = "Timestamp" ∧ conf.runtime = false)) := by
        simp only [outputOf, hh, if_false, htime]
      have has : ∀ f : String × ρ, ReadsAs m.schema conf.runtime rd p f ↔ f = (capitalize p.field.name,
          if decide (p.field.ts.type = "Timestamp" ∧ conf.runtime = false) = true then rd.time p.header else rd.header p.header) := by
        rintro ⟨a, b⟩
        simp only [ReadsAs, hh, false_and, false_or, ne_eq, not_false_eq_true, true_and, Prod.mk.injEq, decide_eq_true_eq]
        by_cases h1 : p.field.ts.type = "Timestamp" ∧ conf.runtime = false
        · rw [if_pos h1]
          simp [h1.1, h1.2]
        · rw [if_neg h1]
          have h2 : ∀ q : Prop, ¬ (p.field.ts.type = "Timestamp" ∧ conf.runtime = false ∧ q) := fun q h => h1 ⟨h.1, h.2.1⟩
          simp only [h2, h1, not_false_eq_true, true_and, false_or]
      rw [e1]
      unfold ReadOutputs
      refine ⟨fun fs => ?_, ?_⟩
      · simp only [Option.map_eq_some_iff, ih1, List.forall₂_cons_left_iff, has]
        constructor
        · rintro ⟨r, h1, rfl⟩; exact ⟨_, r, rfl, h1, rfl⟩
        · rintro ⟨_, r, rfl, h1, rfl⟩; exact ⟨r, h1, rfl⟩
      · simp only [Option.map_eq_none_iff, ih2, List.mem_cons]
        constructor
        · rintro ⟨q, hq, h1⟩; exact ⟨q, .inr hq, h1⟩
        · rintro ⟨q, rfl | hq, h1, h2⟩
          · exact absurd h1 hh
          · exact ⟨q, hq, h1, h2⟩

/-- What a method makes of a response. -/
theorem call_reads (hr : GoReady m.schema) (hid : ∀ td ∈ m.schema.types, GoIdent td.name) {h : HttpDef} {e : HttpExpectedSpec}
    (he : h.expected = some e) (hcall : GoCallable h) (hv : HttpOk m.schema h) (hst : (e.status :: h.exceptions.map (·.status)).Nodup)
    (rd : GoReadsBack ρ) (status : Int) (g : GoGiven ρ (GoTy × ρ)) :
    ReadFor m.schema conf.runtime h e rd status g ↔ g = ReadReply rd status (callOf m conf h) := by
  obtain ⟨e', he', houts⟩ := hcall.expected
  rw [he] at he'; cases he'
  have hout := outputs_read hm hr (conf := conf) hid rd e.outputs fun p hp => ⟨hv.outputTypes e he p hp, houts p hp⟩
  have hleaf : ∀ x ∈ h.exceptions, ∀ t, GoLeafOf m.schema conf.runtime x.type t ↔ t = (nativeOf m conf x.type).1 := fun x hx =>
    native_leaf hm (hv.exceptionTypes e he x hx) (hcall.exceptions x hx).1 (hcall.exceptions x hx).2
  have e1 : (callOf m conf h).outputs = e.outputs.map (outputOf m conf) := by simp [callOf, he]
  have e2 : (callOf m conf h).status = e.status := by simp [callOf, he]
  obtain ⟨hst1, hst2⟩ := List.nodup_cons.1 hst
  have hfind : ∀ x ∈ h.exceptions, (callOf m conf h).cases.find? (fun y => y.2 = x.status) = some ((nativeOf m conf x.type).1, x.status) := by
    intro x hx
    have hc : (callOf m conf h).cases = h.exceptions.map fun x => ((nativeOf m conf x.type).1, x.status) := rfl
    rw [hc, List.find?_map]
    have h1 : ∃ y, h.exceptions.find? ((fun y : GoTy × Int => decide (y.2 = x.status)) ∘ fun x => ((nativeOf m conf x.type).1, x.status)) = some y := by
      rw [← Option.isSome_iff_exists, List.find?_isSome]
      exact ⟨x, hx, by simp⟩
    obtain ⟨y, hy⟩ := h1
    have hy1 := List.mem_of_find?_eq_some hy
    have hy2 := List.find?_some hy
    simp only [Function.comp_apply, decide_eq_true_eq] at hy2
    have : y = x := List.inj_on_of_nodup_map hst2 hy1 hx hy2
    rw [hy, this]; rfl
  have hne : ∀ x ∈ h.exceptions, x.status ≠ e.status := fun x hx h1 => hst1 (h1 ▸ List.mem_map_of_mem (f := (·.status)) hx)
  have hreply : ∀ x ∈ h.exceptions, ReadReply rd x.status (callOf m conf h) =
      match rd.decode (nativeOf m conf x.type).1 with
      | some v => .exception ((nativeOf m conf x.type).1, v)
      | none => .unreadable := by
    intro x hx
    unfold ReadReply
    rw [e2, if_neg (hne x hx), hfind x hx]
    simp only
    cases rd.decode (nativeOf m conf x.type).1 <;> rfl
  have hok : ReadReply rd e.status (callOf m conf h) =
      match ReadOutputs rd (e.outputs.map (outputOf m conf)) with
      | some fs => .response fs
      | none => .unreadable := by
    unfold ReadReply
    rw [e2, if_pos rfl, e1]
    cases ReadOutputs rd (e.outputs.map (outputOf m conf)) <;> rfl
  constructor
  · intro hg
    cases hg with
    | response h1 => rw [hok, (hout.1 _).2 h1]
    | noResponse h1 h2 h3 h4 => rw [hok, hout.2.2 ⟨_, h1, h2, _, h3, h4⟩]
    | exception h1 h2 h3 =>
      rw [(hleaf _ h1 _).1 h2] at h3 ⊢
      rw [hreply _ h1, h3]
    | noException h1 h2 h3 =>
      rw [(hleaf _ h1 _).1 h2] at h3
      rw [hreply _ h1, h3]
    | unexpected h1 h2 =>
      unfold ReadReply
      rw [e2, if_neg h1]
      have : (callOf m conf h).cases.find? (fun y => y.2 = status) = none := by
        rw [List.find?_eq_none]
        intro y hy
        obtain ⟨x, hx, rfl⟩ := List.mem_map.1 hy
        simpa using h2 x hx
      rw [this]
  · rintro rfl
    by_cases h1 : status = e.status
    · subst h1
      rw [hok]
      cases hro : ReadOutputs rd (e.outputs.map (outputOf m conf)) with
      | some fs => exact .response ((hout.1 fs).1 hro)
      | none =>
        obtain ⟨p, hp, h2, t, h3, h4⟩ := hout.2.1 hro
        exact .noResponse hp h2 h3 h4
    · by_cases h2 : ∃ x ∈ h.exceptions, x.status = status
      · obtain ⟨x, hx, rfl⟩ := h2
        rw [hreply x hx]
        cases hd : rd.decode (nativeOf m conf x.type).1 with
        | some v => exact .exception hx ((hleaf x hx _).2 rfl) hd
        | none => exact .noException hx ((hleaf x hx _).2 rfl) hd
      · have h3 : ∀ x ∈ h.exceptions, x.status ≠ status := fun x hx hs => h2 ⟨x, hx, hs⟩
        have : ReadReply rd status (callOf m conf h) = .unexpected := by
          unfold ReadReply
          rw [e2, if_neg h1]
          have : (callOf m conf h).cases.find? (fun y => y.2 = status) = none := by
            rw [List.find?_eq_none]
            intro y hy
            obtain ⟨x, hx, rfl⟩ := List.mem_map.1 hy
            simpa using h3 x hx
          rw [this]
        rw [this]
        exact .unexpected h1 h3
end

end Sadl
