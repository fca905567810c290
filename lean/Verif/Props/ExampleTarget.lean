import Verif.Spec.ExampleTarget
import Verif.Model.ExampleTarget
import Verif.Props.Golang
import Verif.Lemmas.Path
/-
C109: the type of the target of an example.
-/
namespace Sadl.Props
open Sadl Sadl.Spec

theorem find_first {α : Type} {name : α → String} {l : List α} {x : String} {a : α} :
    l.find? (fun b => name b == x) = some a ↔ FirstNamed name l x a := by
  induction l with
  | nil => simp [FirstNamed]
  | cons b l ih =>
    rw [List.find?_cons]
    by_cases h : name b = x
    · rw [beq_iff_eq.2 h]
      constructor
      · intro e; cases e; exact ⟨[], l, rfl, h, by simp⟩
      · rintro ⟨l1, l2, e, ha, hb⟩
        cases l1 with
        | nil => cases e; rfl
        | cons c l1 => cases e; exact absurd h (hb _ (by simp))
    · rw [beq_eq_false_iff_ne.2 h]
      dsimp only
      rw [ih]
      constructor
      · rintro ⟨l1, l2, rfl, ha, hb⟩
        exact ⟨b :: l1, l2, rfl, ha, List.forall_mem_cons.2 ⟨h, hb⟩⟩
      · rintro ⟨l1, l2, e, ha, hb⟩
        cases l1 with
        | nil => cases e; exact absurd ha h
        | cons c l1 => cases e; exact ⟨l1, l2, rfl, ha, fun y hy => hb y (by simp [hy])⟩

theorem fieldsAlong_iff (path : List String) (ts t : TypeSpec) : fieldsAlong ts (path.map String.toList) = .ok t ↔ Along ts path t := by
  induction path generalizing ts with
  | nil =>
    constructor
    · intro h; cases h; exact .here
    · intro h; cases h; rfl
  | cons x path ih =>
    rw [List.map_cons, fieldsAlong, String.ofList_toList]
    by_cases hs : ts.type = "Struct"
    · rw [if_neg (by simp [hs])]
      cases hf : ts.fields.find? (fun f => f.name == x) with
      | none =>
        constructor
        · intro h; cases h
        · intro h
          cases h with
          | field _ h2 _ => rw [find_first.2 h2] at hf; cases hf
      | some f =>
        dsimp only
        rw [ih]
        constructor
        · exact fun h => .field hs (find_first.1 hf) h
        · intro h
          cases h with
          | field _ h2 h3 => rw [find_first.2 h2] at hf; cases hf; exact h3
    · rw [if_pos hs]
      constructor
      · intro h; cases h
      · intro h
        cases h with
        | field h1 _ _ => exact absurd h1 hs

theorem fieldsAlong_no_panic (ts : TypeSpec) (l : List (List Char)) (e : String) : fieldsAlong ts l ≠ .panic e := by
  induction l generalizing ts with
  | nil => intro h; cases h
  | cons x l ih =>
    rw [fieldsAlong]
    split
    · intro h; cases h
    · split
      · intro h; cases h
      · exact ih _

theorem along_some (ts : TypeSpec) (path : List String) (o : Option TypeSpec) :
    ((fieldsAlong ts (path.map String.toList)).bind fun t => .ok (some t)) = .ok o ↔ ∃ t, o = some t ∧ Along ts path t := by
  cases h : fieldsAlong ts (path.map String.toList) with
  | ok t =>
    constructor
    · intro e; cases e; exact ⟨t, rfl, (fieldsAlong_iff _ _ _).1 h⟩
    · rintro ⟨t', rfl, h'⟩
      rw [(fieldsAlong_iff _ _ _).2 h'] at h
      cases h
      rfl
  | err e =>
    constructor
    · intro e; cases e
    · rintro ⟨t', rfl, h'⟩
      rw [(fieldsAlong_iff _ _ _).2 h'] at h
      cases h
  | panic e => exact absurd h (fieldsAlong_no_panic _ _ _)

theorem along_bind_no_panic (ts : TypeSpec) (l : List (List Char)) (e : String) :
    ((fieldsAlong ts l).bind fun t => (.ok (some t) : Out (Option TypeSpec))) ≠ .panic e := by
  cases h : fieldsAlong ts l with
  | ok t => intro h; cases h
  | err e => intro h; cases h
  | panic e => exact absurd h (fieldsAlong_no_panic _ _ _)

theorem paramAlong_no_panic (ps : List HttpParamSpec) (l : List (List Char)) (e : String) : paramAlong ps l ≠ .panic e := by
  cases l with
  | nil => intro h; cases h
  | cons x l =>
    rw [paramAlong]
    split
    · intro h; cases h
    · exact along_bind_no_panic _ _ _

theorem paramAlong_iff (ps : List HttpParamSpec) (path : List String) (o : Option TypeSpec) :
    paramAlong ps (path.map String.toList) = .ok o ↔
      (path = [] ∧ o = none) ∨ ∃ x rest p t, path = x :: rest ∧ FirstNamed (·.field.name) ps x p ∧ Along p.field.ts rest t ∧ o = some t := by
  cases path with
  | nil =>
    constructor
    · intro h; cases h; exact .inl ⟨rfl, rfl⟩
    · rintro (⟨_, rfl⟩ | ⟨x, rest, p, t, h, _⟩)
      · rfl
      · cases h
  | cons x rest =>
    rw [List.map_cons, paramAlong, String.ofList_toList]
    cases hf : ps.find? (fun p => p.field.name == x) with
    | none =>
      constructor
      · intro h; cases h
      · rintro (⟨h, _⟩ | ⟨x', rest', p, t, h, hp, _⟩)
        · cases h
        · cases h
          rw [find_first.2 hp] at hf
          cases hf
    | some p =>
      dsimp only
      rw [along_some]
      constructor
      · rintro ⟨t, rfl, h⟩
        exact .inr ⟨x, rest, p, t, rfl, find_first.1 hf, h, rfl⟩
      · rintro (⟨h, _⟩ | ⟨x', rest', p', t, h, hp, ha, rfl⟩)
        · cases h
        · cases h
          rw [find_first.2 hp] at hf
          cases hf
          exact ⟨t, rfl, ha⟩

theorem cutSuffixS_iff (suffix s base : String) : cutSuffixS suffix s = some base ↔ s = base ++ suffix := by
  unfold cutSuffixS
  constructor
  · intro h
    split at h
    · next hs =>
      rw [List.isSuffixOf_iff_suffix] at hs
      obtain ⟨l, hl⟩ := hs
      cases h
      apply String.toList_inj.1
      rw [String.toList_append, String.toList_ofList, ← hl]
      simp
    · cases h
  · rintro rfl
    rw [if_pos (by rw [List.isSuffixOf_iff_suffix, String.toList_append]; exact ⟨_, rfl⟩)]
    simp

theorem request_not_response {a b : String} : a ++ "Request" ≠ b ++ "Response" := by
  intro h
  have := congrArg (fun s => s.toList.reverse.take 6) h
  simp at this

theorem suffix_inj {a b c : String} (h : a ++ c = b ++ c) : b = a := by
  have := congrArg String.toList h
  exact String.toList_inj.1 (by simpa using this.symm)

/-- A target: names separated by dots. -/
def dottedTarget (path : List String) : String := String.ofList (joinWith '.' (path.map String.toList))

theorem split_dotted {path : List String} (hne : path ≠ []) (hd : ∀ p ∈ path, '.' ∉ p.toList) :
    splitAll '.' (dottedTarget path).toList = path.map String.toList := by
  unfold dottedTarget
  rw [String.toList_ofList, splitAll_joinWith (by simp [hne])]
  intro w hw
  obtain ⟨p, hp, rfl⟩ := List.mem_map.1 hw
  exact hd p hp

section
variable {s : Schema} {m : Model} (hm : newModel s = .ok m)
include hm

/-- C109: the type found for a target is the one that its names lead to: from a type, or from an input or output of an action, along
the fields of structs that are written in place. -/
theorem C109_found_iff (path : List String) (hne : path ≠ []) (hd : ∀ p ∈ path, '.' ∉ p.toList) (o : Option TypeSpec) :
    findExampleType m (dottedTarget path) = .ok o ↔ ExampleType s path o := by
  unfold findExampleType
  rw [split_dotted hne hd]
  obtain ⟨n, rest, rfl⟩ := List.exists_cons_of_ne_nil hne
  rw [List.map_cons]
  dsimp only
  rw [String.ofList_toList]
  cases ht : m.findType n with
  | some td =>
    dsimp only
    rw [along_some]
    have hdef := findType_defines hm ht
    constructor
    · rintro ⟨t, rfl, h⟩
      exact .type hdef h
    · intro h
      cases h with
      | type h1 h2 => rw [defines_unique hm h1 hdef] at h2; exact ⟨_, rfl, h2⟩
      | request h => exact absurd ⟨_, hdef⟩ h
      | input h => exact absurd ⟨_, hdef⟩ h
      | response h => exact absurd ⟨_, hdef⟩ h
      | output h => exact absurd ⟨_, hdef⟩ h
  | none =>
    have hk := (findType_none hm).1 ht
    dsimp only
    cases hreq : cutSuffixS "Request" n with
    | some base =>
      rw [cutSuffixS_iff] at hreq
      subst hreq
      dsimp only
      cases hh : m.findHttp (uncapitalize base) with
      | none =>
        dsimp only
        constructor
        · intro h; cases h
        · intro h
          generalize hq : base ++ "Request" = q at h
          have same : ∀ {b : String}, base ++ "Request" = b ++ "Request" → b = base := fun e => suffix_inj e
          cases h with
          | type h1 _ => exact absurd ⟨_, hq ▸ h1⟩ hk
          | request _ h2 h3 => rw [same hq] at h3; rw [(findHttp_iff hm).2 ⟨h2, h3⟩] at hh; cases hh
          | input _ h2 h3 => rw [same hq] at h3; rw [(findHttp_iff hm).2 ⟨h2, h3⟩] at hh; cases hh
          | response => exact absurd hq request_not_response
          | output => exact absurd hq request_not_response
      | some h =>
        dsimp only
        rw [paramAlong_iff]
        obtain ⟨hmem, hname⟩ := (findHttp_iff hm).1 hh
        constructor
        · rintro (⟨rfl, rfl⟩ | ⟨x, r, p, t, rfl, hp, ha, rfl⟩)
          · exact .request hk hmem hname
          · exact .input hk hmem hname hp ha
        · intro he
          generalize hq : base ++ "Request" = q at he
          have same : ∀ {b : String}, base ++ "Request" = b ++ "Request" → b = base := fun e => suffix_inj e
          cases he with
          | type h1 _ => exact absurd ⟨_, hq ▸ h1⟩ hk
          | request _ h2 h3 => exact .inl ⟨rfl, rfl⟩
          | input _ h2 h3 hp ha =>
            rw [same hq] at h3
            rw [(findHttp_iff hm).2 ⟨h2, h3⟩] at hh
            cases hh
            exact .inr ⟨_, _, _, _, rfl, hp, ha, rfl⟩
          | response => exact absurd hq request_not_response
          | output => exact absurd hq request_not_response
    | none =>
      have noreq : ∀ b, n ≠ b ++ "Request" := fun b e => by rw [(cutSuffixS_iff _ _ b).2 e] at hreq; cases hreq
      dsimp only
      cases hres : cutSuffixS "Response" n with
      | none =>
        have nores : ∀ b, n ≠ b ++ "Response" := fun b e => by rw [(cutSuffixS_iff _ _ b).2 e] at hres; cases hres
        dsimp only
        constructor
        · intro h; cases h
        · intro h
          cases h with
          | type h1 _ => exact absurd ⟨_, h1⟩ hk
          | request => exact absurd rfl (noreq _)
          | input => exact absurd rfl (noreq _)
          | response => exact absurd rfl (nores _)
          | output => exact absurd rfl (nores _)
      | some base =>
        rw [cutSuffixS_iff] at hres
        subst hres
        dsimp only
        have same : ∀ {b : String}, base ++ "Response" = b ++ "Response" → b = base := fun e => suffix_inj e
        cases hh : m.findHttp (uncapitalize base) with
        | none =>
          dsimp only
          constructor
          · intro h; cases h
          · intro h
            generalize hq : base ++ "Response" = q at h
            cases h with
            | type h1 _ => exact absurd ⟨_, hq ▸ h1⟩ hk
            | response _ h2 h3 => rw [same hq] at h3; rw [(findHttp_iff hm).2 ⟨h2, h3⟩] at hh; cases hh
            | output _ h2 h3 => rw [same hq] at h3; rw [(findHttp_iff hm).2 ⟨h2, h3⟩] at hh; cases hh
            | request => exact absurd hq (noreq _)
            | input => exact absurd hq (noreq _)
        | some h =>
          obtain ⟨hmem, hname⟩ := (findHttp_iff hm).1 hh
          cases rest with
          | nil =>
            dsimp only [List.map_nil]
            constructor
            · intro e; cases e; exact .response hk hmem hname
            · intro he
              generalize hq : base ++ "Response" = q at he
              cases he with
              | type h1 _ => exact absurd ⟨_, hq ▸ h1⟩ hk
              | response => rfl
              | request => exact absurd hq (noreq _)
          | cons x rest =>
            dsimp only [List.map_cons]
            cases hexp : h.expected with
            | none =>
              constructor
              · intro e; cases e
              · intro he
                generalize hq : base ++ "Response" = q at he
                cases he with
                | type h1 _ => exact absurd ⟨_, hq ▸ h1⟩ hk
                | input => exact absurd hq (noreq _)
                | output _ h2 h3 h4 =>
                  rw [same hq] at h3
                  rw [(findHttp_iff hm).2 ⟨h2, h3⟩] at hh
                  cases hh
                  rw [hexp] at h4
                  cases h4
            | some e =>
              change paramAlong e.outputs ((x :: rest).map String.toList) = .ok o ↔ _
              rw [paramAlong_iff]
              constructor
              · rintro (⟨h, _⟩ | ⟨x', r, p, t, hxr, hp, ha, rfl⟩)
                · cases h
                · cases hxr
                  exact .output hk hmem hname hexp hp ha
              · intro he
                generalize hq : base ++ "Response" = q at he
                cases he with
                | type h1 _ => exact absurd ⟨_, hq ▸ h1⟩ hk
                | input => exact absurd hq (noreq _)
                | output _ h2 h3 h4 hp ha =>
                  rw [same hq] at h3
                  rw [(findHttp_iff hm).2 ⟨h2, h3⟩] at hh
                  cases hh
                  rw [hexp] at h4
                  cases h4
                  exact .inr ⟨_, _, _, _, rfl, hp, ha, rfl⟩

/-- C109: the search crashes exactly for a part of the response of an action that does not say what it responds. -/
theorem C109_crashes_iff (path : List String) (hne : path ≠ []) (hd : ∀ p ∈ path, '.' ∉ p.toList) :
    (∃ e, findExampleType m (dottedTarget path) = .panic e) ↔
      ∃ base h x rest, path = (base ++ "Response") :: x :: rest ∧ ¬ Known s (base ++ "Response") ∧ h ∈ s.http ∧ h.name = uncapitalize base ∧ h.expected = none := by
  unfold findExampleType
  rw [split_dotted hne hd]
  obtain ⟨n, rest, rfl⟩ := List.exists_cons_of_ne_nil hne
  rw [List.map_cons]
  dsimp only
  rw [String.ofList_toList]
  cases ht : m.findType n with
  | some td =>
    dsimp only
    constructor
    · rintro ⟨e, h⟩; exact absurd h (along_bind_no_panic _ _ _)
    · rintro ⟨base, h, x, r, hp, hk, _⟩
      cases hp
      exact absurd ⟨_, findType_defines hm ht⟩ hk
  | none =>
    have hk := (findType_none hm).1 ht
    dsimp only
    cases hreq : cutSuffixS "Request" n with
    | some base =>
      rw [cutSuffixS_iff] at hreq
      subst hreq
      dsimp only
      constructor
      · rintro ⟨e, h⟩
        split at h
        · exact absurd h (paramAlong_no_panic _ _ _)
        · cases h
      · rintro ⟨b, h, x, r, hp, _⟩
        exact absurd (List.cons.inj hp).1 request_not_response
    | none =>
      dsimp only
      cases hres : cutSuffixS "Response" n with
      | none =>
        dsimp only
        constructor
        · rintro ⟨e, h⟩; cases h
        · rintro ⟨b, h, x, r, hp, _⟩
          rw [(cutSuffixS_iff _ _ b).2 (List.cons.inj hp).1] at hres
          cases hres
      | some base =>
        rw [cutSuffixS_iff] at hres
        subst hres
        have same : ∀ {b : String}, base ++ "Response" = b ++ "Response" → b = base := fun e => suffix_inj e
        dsimp only
        cases hh : m.findHttp (uncapitalize base) with
        | none =>
          dsimp only
          constructor
          · rintro ⟨e, h⟩; cases h
          · rintro ⟨b, h, x, r, hp, _, h2, h3, _⟩
            rw [same (List.cons.inj hp).1] at h3
            rw [(findHttp_iff hm).2 ⟨h2, h3⟩] at hh
            cases hh
        | some h =>
          obtain ⟨hmem, hname⟩ := (findHttp_iff hm).1 hh
          cases rest with
          | nil =>
            constructor
            · rintro ⟨e, h⟩; cases h
            · rintro ⟨b, h, x, r, hp, _⟩; cases (List.cons.inj hp).2
          | cons x rest =>
            dsimp only [List.map_cons]
            cases hexp : h.expected with
            | none => exact ⟨fun _ => ⟨base, h, x, rest, rfl, hk, hmem, hname, hexp⟩, fun _ => ⟨_, rfl⟩⟩
            | some e =>
              constructor
              · rintro ⟨e', h'⟩; exact absurd h' (paramAlong_no_panic _ _ _)
              · rintro ⟨b, h', x', r, hp, _, h2, h3, h4⟩
                rw [same (List.cons.inj hp).1] at h3
                rw [(findHttp_iff hm).2 ⟨h2, h3⟩] at hh
                cases hh
                rw [hexp] at h4
                cases h4

end

/-- No dots in the names of the types, of their fields and of the actions: names are symbols of the source. -/
structure NoDots (s : Schema) : Prop where
  types : ∀ td ∈ s.types, '.' ∉ td.name.toList
  fields : ∀ td ∈ s.types, ∀ f ∈ td.ts.fields, '.' ∉ f.name.toList
  actions : ∀ h ∈ s.http, '.' ∉ h.name.toList

theorem dot_uncapitalize {b : String} (h : '.' ∈ b.toList) : '.' ∈ (uncapitalize b).toList := by
  unfold uncapitalize
  rw [String.toList_ofList]
  cases hb : b.toList with
  | nil => rw [hb] at h; cases h
  | cons c r =>
    rw [hb] at h
    rw [uncapitalizeL]
    rcases List.mem_cons.1 h with rfl | h
    · exact List.mem_cons.2 (.inl (by decide))
    · simp [h]

theorem dot_base (n : String) (h : n ∈ BaseTypes) : '.' ∉ n.toList := by
  have : ∀ n ∈ BaseTypes, '.' ∉ n.toList := by decide +kernel
  exact this n h

theorem defines_dot {s : Schema} (hd : NoDots s) {n : String} {ts : TypeSpec} (h : Defines s n ts) : '.' ∉ n.toList := by
  rcases h with ⟨td, htd, rfl, _⟩ | ⟨hb, _⟩
  · exact hd.types td htd
  · exact dot_base n hb

/-- C109: for an example of an accepted source, the type found is the one that the example was checked against (`none` for the request or
response of an action), if the fields of each struct have different names. -/
theorem C109_checked_partial (lib : PLib) (m : Model) (h : Accepted lib m) (hd : NoDots m.schema)
    (hn : ∀ td ∈ m.schema.types, (td.ts.fields.map (·.name)).Nodup) (ex : ExampleDef) (hex : ex ∈ m.schema.examples) :
    (∃ ts, Target m.schema ex.target ts ∧ Conforms lib.toLib (Defines m.schema) ts ex.example ∧ findExampleType m ex.target = .ok (some ts)) ∨
    ((∀ ts, ¬ Target m.schema ex.target ts) ∧ findExampleType m ex.target = .ok none) := by
  have hm : newModel m.schema = .ok m := accepted_newModel h
  have hv := (C53_accepted_valid lib m h).examples ex hex
  have one : ∀ n : String, dottedTarget [n] = n := fun n => by simp [dottedTarget, joinWith]
  cases hv with
  | @type ts ht hc =>
    refine .inl ⟨ts, ht, hc, ?_⟩
    cases ht with
    | type hdef =>
      have := (C109_found_iff hm [ex.target] (by simp) (by simpa using defines_dot hd hdef) (some ts)).2 (.type hdef .here)
      rwa [one] at this
    | @field tname mname t f before after hk he h1 h2 hdef hst hf hfn hlast =>
      rcases hdef with ⟨td, htd, hname, hts⟩ | ⟨_, hts⟩
      · have hfm : f ∈ td.ts.fields := by rw [hts, hf]; simp
        have e : dottedTarget [tname, mname] = ex.target := by
          rw [he]
          apply String.toList_inj.1
          simp [dottedTarget, joinWith, String.toList_append]
        have hfirst : FirstNamed (·.name) t.fields mname f := by
          refine ⟨before, after, hf, hfn, fun g hg hgn => ?_⟩
          have hnd := hn td htd
          rw [hts, hf, List.map_append, List.map_cons, List.nodup_append] at hnd
          exact hnd.2.2 _ (List.mem_map_of_mem hg) _ (List.mem_cons_self ..) (hgn.trans hfn.symm)
        have := (C109_found_iff hm [tname, mname] (by simp) (by
          intro p hp
          simp only [List.mem_cons, List.not_mem_nil, or_false] at hp
          rcases hp with rfl | rfl
          · exact h1
          · rw [← hfn]; exact hd.fields td htd f hfm) (some f.ts)).2 (.type (.inl ⟨td, htd, hname, hts⟩) (.field hst hfirst .here))
        rwa [e] at this
      · rw [hts] at hf
        exact absurd hf (by simp)
  | @request hdef base hno he hmem hname =>
    refine .inr ⟨hno, ?_⟩
    have hk : ¬ Known m.schema (base ++ "Request") := fun ⟨ts, hts⟩ => hno ts (he ▸ .type hts)
    have := (C109_found_iff hm [base ++ "Request"] (by simp) (by
      intro p hp
      simp only [List.mem_cons, List.not_mem_nil, or_false] at hp
      subst hp
      rw [String.toList_append, List.mem_append]
      rintro (hb | hb)
      · exact hd.actions hdef hmem (hname ▸ dot_uncapitalize hb)
      · exact absurd hb (by decide)) none).2 (.request hk hmem hname)
    rwa [one, ← he] at this
  | @response hdef e base hno he hmem hname =>
    refine .inr ⟨hno, ?_⟩
    have hk : ¬ Known m.schema (base ++ "Response") := fun ⟨ts, hts⟩ => hno ts (he ▸ .type hts)
    have := (C109_found_iff hm [base ++ "Response"] (by simp) (by
      intro p hp
      simp only [List.mem_cons, List.not_mem_nil, or_false] at hp
      subst hp
      rw [String.toList_append, List.mem_append]
      rintro (hb | hb)
      · exact hd.actions hdef hmem (hname ▸ dot_uncapitalize hb)
      · exact absurd hb (by decide)) none).2 (.response hk hmem hname)
    rwa [one, ← he] at this

/-- `type S Struct { a String; b Struct { c Int32 } }`, `example S.a "x"` and an action with an example of its request. -/
def targetSource : List Token :=
  [sym "type", sym "S", sym "Struct", punct .openBrace, nl, sym "a", sym "String", nl,
   sym "b", sym "Struct", punct .openBrace, nl, sym "c", sym "Int32", nl, punct .closeBrace, nl, punct .closeBrace, nl,
   sym "example", sym "S", punct .dot, sym "a", str "x", nl,
   sym "http", sym "GET", str "/s", punct .openParen, sym "action", punct .equals, sym "getS", punct .closeParen, punct .openBrace, nl,
   sym "expect", num "200", nl, punct .closeBrace, nl,
   sym "example", sym "GetSRequest", punct .openBrace, punct .closeBrace, nl]

/-- The kind of the type found for a target: `none` if there is none, `some none` for a request or a response as a whole. -/
def foundKind (m : Model) (target : String) : Option (Option String) :=
  match findExampleType m target with
  | .ok o => some (o.map (·.type))
  | _ => none

/-- Its hypotheses hold of an accepted source; a struct written in place is followed. -/
theorem C109_example : ∃ m, Accepted noLib m ∧ NoDots m.schema ∧ (∀ td ∈ m.schema.types, (td.ts.fields.map (·.name)).Nodup) ∧
    m.schema.examples.map (·.target) = ["S.a", "GetSRequest"] ∧ foundKind m "S.a" = some (some "String") ∧
    foundKind m "S.b.c" = some (some "Int32") ∧ foundKind m "GetSRequest" = some none := by
  obtain ⟨m, hm, h⟩ := accepted_of noLib targetSource (fun m =>
    m.schema.types.all (fun td => !td.name.toList.contains '.' && td.ts.fields.all (fun f => !f.name.toList.contains '.') && decide ((td.ts.fields.map (fun f : StructFieldDef => f.name)).Nodup)) &&
    m.schema.http.all (fun h => !h.name.toList.contains '.') &&
    decide (m.schema.examples.map (·.target) = ["S.a", "GetSRequest"]) && decide (foundKind m "S.a" = some (some "String")) &&
    decide (foundKind m "S.b.c" = some (some "Int32")) && decide (foundKind m "GetSRequest" = some none)) (by decide) (by decide +kernel)
  simp only [Bool.and_eq_true, List.all_eq_true, decide_eq_true_eq, Bool.not_eq_true', List.contains_eq_mem, decide_eq_false_iff_not] at h
  obtain ⟨⟨⟨⟨⟨h1, h2⟩, h3⟩, h4⟩, h5⟩, h6⟩ := h
  exact ⟨m, hm, ⟨fun td htd => (h1 td htd).1.1, fun td htd => (h1 td htd).1.2, h2⟩, fun td htd => (h1 td htd).2, h3, h4, h5, h6⟩

/-- `type T Struct { c Int32 }` and `type S Struct { b T }`. -/
def namedTarget : List Token :=
  [sym "type", sym "T", sym "Struct", punct .openBrace, nl, sym "c", sym "Int32", nl, punct .closeBrace, nl,
   sym "type", sym "S", sym "Struct", punct .openBrace, nl, sym "b", sym "T", nl, punct .closeBrace, nl]

/-- C109 refuted: a field of a struct type that is referred to by its name is not found, although the same struct written in place is
followed (`C109_example`). -/
theorem C109_refuted_named : ∃ m, Accepted noLib m ∧ foundKind m "S.b" = some (some "T") ∧ foundKind m "T.c" = some (some "Int32") ∧
    foundKind m "S.b.c" = none := by
  obtain ⟨m, hm, h⟩ := accepted_of noLib namedTarget (fun m => decide (foundKind m "S.b" = some (some "T")) &&
    decide (foundKind m "T.c" = some (some "Int32")) && decide (foundKind m "S.b.c" = none)) (by decide) (by decide +kernel)
  simp only [Bool.and_eq_true, decide_eq_true_eq] at h
  exact ⟨m, hm, h.1.1, h.1.2, h.2⟩

/-- `type S Struct { a String; a Bool }` and `example S.a true`. -/
def twiceTarget : List Token :=
  [sym "type", sym "S", sym "Struct", punct .openBrace, nl, sym "a", sym "String", nl, sym "a", sym "Bool", nl, punct .closeBrace, nl,
   sym "example", sym "S", punct .dot, sym "a", sym "true", nl]

/-- C109 refuted: if a struct has two fields of the same name, the example was checked against the last one, and the type found is that
of the first one. -/
theorem C109_refuted_twice : ∃ m, Accepted noLib m ∧ m.schema.examples.map (·.target) = ["S.a"] ∧
    (exampleSpec m "S.a").map (·.type) = some "Bool" ∧ foundKind m "S.a" = some (some "String") := by
  obtain ⟨m, hm, h⟩ := accepted_of noLib twiceTarget (fun m => decide (m.schema.examples.map (·.target) = ["S.a"]) &&
    decide ((exampleSpec m "S.a").map (·.type) = some "Bool") && decide (foundKind m "S.a" = some (some "String"))) (by decide) (by decide +kernel)
  simp only [Bool.and_eq_true, decide_eq_true_eq] at h
  exact ⟨m, hm, h.1.1, h.1.2, h.2⟩

/-- An action that does not say what it responds. -/
def silentAction : List Token :=
  [sym "http", sym "GET", str "/s", punct .openParen, sym "action", punct .equals, sym "getS", punct .closeParen, punct .openBrace, nl, punct .closeBrace, nl]

/-- C109 refuted: looking for a part of the response of such an action crashes. -/
theorem C109_refuted_crash : ∃ m, Accepted noLib m ∧ ∃ e, findExampleType m "GetSResponse.body" = .panic e := by
  obtain ⟨m, hm, h⟩ := accepted_of noLib silentAction (fun m => match findExampleType m "GetSResponse.body" with | .panic _ => true | _ => false)
    (by decide) (by decide +kernel)
  refine ⟨m, hm, ?_⟩
  split at h
  · next e he => exact ⟨e, he⟩
  · cases h

end Sadl.Props
