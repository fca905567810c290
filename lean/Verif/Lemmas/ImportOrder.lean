import Verif.Spec.ImportOrder
import Verif.Lemmas.SwaggerActions
/-
The OpenAPI import on a document with reordered maps.
-/
namespace Sadl
open Sadl.Spec

theorem mget_perm {α : Type} {m m' : GoMap α} (hd : m.Distinct) (hp : m'.Perm m) (k : String) : mget m' k = mget m k := by
  have hd' : m'.Distinct := by
    unfold GoMap.Distinct at *
    exact ((hp.map _).nodup_iff).2 hd
  cases h : mget m k with
  | none =>
    cases h' : mget m' k with
    | none => rfl
    | some v =>
      have := mget_of_mem hd (hp.mem_iff.1 (mget_mem h'))
      rw [h] at this; cases this
  | some v => exact mget_of_mem hd' (hp.mem_iff.2 (mget_mem h))

/-! ### Loops that collect -/

/-- The loop of `f` over a list, collecting two lists. -/
def collect {α β γ : Type} (f : α → Out (List β × List γ)) : List α → Out (List β × List γ)
  | [] => .ok ([], [])
  | a :: l => (f a).bind fun (bs, cs) => (collect f l).bind fun (bs', cs') => .ok (bs ++ bs', cs ++ cs')

theorem collect_ok {α β γ : Type} {f : α → Out (List β × List γ)} : ∀ {l : List α} {bs : List β} {cs : List γ},
    collect f l = .ok (bs, cs) ↔ ∃ ps : List (List β × List γ), List.Forall₂ (fun a p => f a = .ok p) l ps ∧
      bs = (ps.map Prod.fst).flatten ∧ cs = (ps.map Prod.snd).flatten
  | [], bs, cs => by
    simp only [collect, Out.ok.injEq, Prod.mk.injEq]
    constructor
    · rintro ⟨rfl, rfl⟩; exact ⟨[], .nil, rfl, rfl⟩
    · rintro ⟨ps, h, rfl, rfl⟩; cases h; exact ⟨rfl, rfl⟩
  | a :: l, bs, cs => by
    rw [collect]
    constructor
    · intro h
      obtain ⟨⟨b, c⟩, h1, h⟩ := Out.bind_eq_ok.1 h
      obtain ⟨⟨b', c'⟩, h2, h⟩ := Out.bind_eq_ok.1 h
      simp only [Out.ok.injEq, Prod.mk.injEq] at h
      obtain ⟨rfl, rfl⟩ := h
      obtain ⟨ps, h3, rfl, rfl⟩ := collect_ok.1 h2
      exact ⟨(b, c) :: ps, .cons h1 h3, rfl, rfl⟩
    · rintro ⟨ps, h, rfl, rfl⟩
      cases h with
      | @cons _ p _ ps h1 h2 =>
        rw [h1, collect_ok.2 ⟨ps, h2, rfl, rfl⟩]
        rfl

theorem forall₂_perm {α β : Type} {R : α → β → Prop} {l l' : List α} (hp : l'.Perm l) : ∀ {ps : List β}, List.Forall₂ R l ps →
    ∃ ps', List.Forall₂ R l' ps' ∧ ps'.Perm ps := by
  induction hp with
  | nil => intro ps h; exact ⟨ps, h, .refl _⟩
  | @cons a l1 l2 _ ih =>
    intro ps h
    cases h with
    | cons h1 h2 =>
      obtain ⟨ps', h3, h4⟩ := ih h2
      exact ⟨_ :: ps', .cons h1 h3, h4.cons _⟩
  | swap a b l =>
    intro ps h
    cases h with
    | cons h1 h2 =>
      cases h2 with
      | cons h2 h3 => exact ⟨_, .cons h2 (.cons h1 h3), .swap _ _ _⟩
  | trans _ _ ih1 ih2 =>
    intro ps h
    obtain ⟨ps', h3, h4⟩ := ih2 h
    obtain ⟨ps'', h5, h6⟩ := ih1 h3
    exact ⟨ps'', h5, h6.trans h4⟩

theorem collect_perm {α β γ : Type} {f : α → Out (List β × List γ)} {l l' : List α} (hp : l'.Perm l) {bs : List β} {cs : List γ}
    (h : collect f l = .ok (bs, cs)) : ∃ bs' cs', collect f l' = .ok (bs', cs') ∧ bs'.Perm bs ∧ cs'.Perm cs := by
  obtain ⟨ps, h1, rfl, rfl⟩ := collect_ok.1 h
  obtain ⟨ps', h2, h3⟩ := forall₂_perm hp h1
  exact ⟨_, _, collect_ok.2 ⟨ps', h2, rfl, rfl⟩, (h3.map _).flatten, (h3.map _).flatten⟩

/-! ### Types -/

theorem importTypes_collect (all : GoMap OSchema) : ∀ l : GoMap OSchema, importTypes all l = collect (fun ks => importTypes all [ks]) l
  | [] => rfl
  | (n, s) :: rest => by
    rw [collect, ← importTypes_collect all rest, importTypes, importTypes]
    dsimp only
    split
    · simp only [importTypes, Out.bind]
      cases importTypes all rest <;> rfl
    · generalize (if oasTypeRef s ≠ "" then
          match mget all (oasTypeRef s) with
          | some d => (convertOas (oasTypeRef s) d).bind fun c => .ok (c, "")
          | none => .panic "hmm"
        else (convertOas (validSadlName n s) s).bind fun c => .ok (c, s.description) : Out (Converted × String)) = conv
      cases conv with
      | ok p =>
        obtain ⟨c, comment⟩ := p
        simp only [Out.bind]
        cases c.err with
        | some e => rfl
        | none =>
          simp only [importTypes]
          cases importTypes all rest <;> simp
      | err e => rfl
      | panic e => rfl

theorem importTypes_all {all all' : GoMap OSchema} (h : ∀ k, mget all' k = mget all k) : ∀ l, importTypes all' l = importTypes all l
  | [] => rfl
  | (n, s) :: rest => by
    rw [importTypes, importTypes, importTypes_all h rest, h]

/-! ### Actions -/

theorem forall₂_option_rel {α β : Type} {R : α → β → Prop} {a : Option α} {b : Option β} (h : Option.Rel R a b) :
    (a = none ∧ b = none) ∨ ∃ x y, a = some x ∧ b = some y ∧ R x y := by
  cases h with
  | none => exact .inl ⟨rfl, rfl⟩
  | some h => exact .inr ⟨_, _, rfl, rfl, h⟩

theorem expectedStatus_iff (rs : GoMap OResponse) (h1 : ∀ a ∈ rs, ∀ b ∈ rs, Success a.1 → Success b.1 → a.1 = b.1) (st : String) :
    expectedStatus rs = st ↔ (Success st ∧ st ∈ rs.map Prod.fst) ∨ (st = "default" ∧ ∀ x ∈ rs, ¬ Success x.1) := by
  have hs : ∀ s : String, (hasPrefix s "2" = true ∨ hasPrefix s "3" = true) ↔ Success s := by
    intro s
    unfold hasPrefix Success
    rw [List.isPrefixOf_iff_prefix, List.isPrefixOf_iff_prefix]
    constructor
    · rintro (⟨r, hr⟩ | ⟨r, hr⟩)
      · exact ⟨r, .inl (by rw [← hr]; rfl)⟩
      · exact ⟨r, .inr (by rw [← hr]; rfl)⟩
    · rintro ⟨r, hr | hr⟩
      · exact .inl ⟨r, by rw [hr]; rfl⟩
      · exact .inr ⟨r, by rw [hr]; rfl⟩
  have hdef : ¬ Success "default" := by
    rintro ⟨r, h | h⟩ <;> · have := congrArg List.head? h; simp at this
  induction rs with
  | nil =>
    simp only [expectedStatus, List.map_nil, List.not_mem_nil, and_false, false_or, IsEmpty.forall_iff, implies_true, and_true]
    exact eq_comm
  | cons a rest ih =>
    obtain ⟨s, r⟩ := a
    have ih := ih fun a ha b hb => h1 a (List.mem_cons_of_mem _ ha) b (List.mem_cons_of_mem _ hb)
    rw [expectedStatus]
    by_cases hx : Success s
    · rw [if_pos ((hs s).2 hx)]
      constructor
      · rintro rfl; exact .inl ⟨hx, by simp⟩
      · rintro (⟨h2, h3⟩ | ⟨rfl, h3⟩)
        · obtain ⟨b, hb, rfl⟩ := List.mem_map.1 h3
          exact h1 _ (List.mem_cons_self ..) b hb hx h2
        · exact absurd hx (h3 _ (List.mem_cons_self ..))
    · rw [if_neg (fun h => hx ((hs s).1 h))]
      refine Iff.trans ih ?_
      constructor
      · rintro (⟨h2, h3⟩ | ⟨rfl, h3⟩)
        · exact .inl ⟨h2, by simp; exact .inr (by simpa using h3)⟩
        · exact .inr ⟨rfl, by rintro x hm; rcases List.mem_cons.1 hm with rfl | hm; exact hx; exact h3 x hm⟩
      · rintro (⟨h2, h3⟩ | ⟨rfl, h3⟩)
        · simp only [List.map_cons, List.mem_cons] at h3
          rcases h3 with rfl | h3
          · exact absurd h2 hx
          · exact .inl ⟨h2, h3⟩
        · exact .inr ⟨rfl, fun x hm => h3 x (List.mem_cons_of_mem _ hm)⟩

theorem expectedStatus_perm {rs rs' : GoMap OResponse} (hp : rs'.Perm rs)
    (h1 : ∀ a ∈ rs, ∀ b ∈ rs, Success a.1 → Success b.1 → a.1 = b.1) : expectedStatus rs' = expectedStatus rs := by
  rw [expectedStatus_iff rs' fun a ha b hb => h1 a (hp.mem_iff.1 ha) b (hp.mem_iff.1 hb)]
  have := (expectedStatus_iff rs h1 _).1 rfl
  rcases this with ⟨h2, h3⟩ | ⟨h2, h3⟩
  · exact .inl ⟨h2, ((hp.map _).mem_iff).2 h3⟩
  · exact .inr ⟨h2, fun x hx => h3 x (hp.mem_iff.1 hx)⟩

theorem importExceptions_cons (st : String) (kr : String × OResponse) (rest : GoMap OResponse) :
    importExceptions st (kr :: rest) = (importExceptions st [kr]).bind fun a => (importExceptions st rest).bind fun b => .ok (a ++ b) := by
  obtain ⟨k, r⟩ := kr
  rw [importExceptions, importExceptions]
  generalize importExceptions st rest = c
  by_cases hk : k = st
  · simp only [hk, if_true, importExceptions, Out.bind]
    cases c <;> rfl
  · simp only [hk, if_false]
    generalize (if k = "default" then "0" else k) = k'
    split
    · rfl
    · cases parseInt 64 k' with
      | none => rfl
      | some code =>
        dsimp only
        cases (mget r.content "application/json").bind (·.schema) with
        | none =>
          simp only [Out.bind, importExceptions]
          cases c <;> rfl
        | some sc =>
          dsimp only
          by_cases hr : sc.ref ≠ ""
          · simp only [if_pos hr, Out.bind, importExceptions]
            cases c <;> rfl
          · simp only [if_neg hr]; rfl

theorem importExceptions_collect (st : String) : ∀ l : GoMap OResponse,
    importExceptions st l = (collect (γ := Unit) (fun kr => (importExceptions st [kr]).bind fun xs => .ok (xs, [])) l).bind fun (xs, _) => .ok xs
  | [] => rfl
  | kr :: rest => by
    rw [importExceptions_cons, importExceptions_collect st rest, collect]
    generalize importExceptions st [kr] = a
    generalize collect (γ := Unit) _ rest = c
    cases a <;> cases c <;> rfl

theorem importExceptions_perm {st : String} {rs rs' : GoMap OResponse} (hp : rs'.Perm rs) {xs : List HttpExceptionSpec}
    (h : importExceptions st rs = .ok xs) : ∃ xs', importExceptions st rs' = .ok xs' ∧ xs'.Perm xs := by
  rw [importExceptions_collect] at h
  obtain ⟨⟨ys, cs⟩, h1, h2⟩ := Out.bind_eq_ok.1 h
  cases h2
  obtain ⟨ys', cs', h3, h4, -⟩ := collect_perm hp h1
  exact ⟨ys', by rw [importExceptions_collect, h3]; rfl, h4⟩

theorem convertOasPath_perm {path verb : String} {op op' : OOperation} (hr : ReorderedOp op op') (h1 : OneSuccess op)
    {h : HttpDef} {exs : List ExampleDef} (hc : convertOasPath path op verb = .ok (h, exs)) :
    ∃ h', convertOasPath path op' verb = .ok (h', exs) ∧ ReorderedAction h h' := by
  obtain ⟨hd, rs, hp, rfl⟩ := hr
  unfold convertOasPath at hc ⊢
  dsimp only at hc ⊢
  rw [expectedStatus_perm hp h1, mget_perm hd hp]
  obtain ⟨ins, h2, hc⟩ := Out.bind_eq_ok.1 hc
  rw [h2]
  simp only [Out.bind]
  cases hg : mget op.responses (expectedStatus op.responses) with
  | none => rw [hg] at hc; cases hc
  | some er =>
    rw [hg] at hc
    dsimp only at hc ⊢
    obtain ⟨code, h3, hc⟩ := Out.bind_eq_ok.1 hc
    obtain ⟨⟨hs, e1⟩, h4, hc⟩ := Out.bind_eq_ok.1 hc
    obtain ⟨⟨os, e2⟩, h5, hc⟩ := Out.bind_eq_ok.1 hc
    obtain ⟨xs, h6, hc⟩ := Out.bind_eq_ok.1 hc
    simp only [Out.ok.injEq, Prod.mk.injEq] at hc
    obtain ⟨rfl, rfl⟩ := hc
    obtain ⟨xs', h7, h8⟩ := importExceptions_perm hp h6
    rw [h3, h4, h5, h7]
    exact ⟨_, rfl, xs', h8, rfl⟩

theorem importPath_perm {path : String} {pi pi' : OPathItem} (hr : ∀ k, Option.Rel ReorderedOp (pi.op k) (pi'.op k))
    (h1 : ∀ k op, pi.op k = some op → OneSuccess op) : ∀ {ms : List (String × OMethod)} {hs : List HttpDef} {exs : List ExampleDef},
    importPath path pi ms = .ok (hs, exs) → ∃ hs', importPath path pi' ms = .ok (hs', exs) ∧ List.Forall₂ ReorderedAction hs hs'
  | [], hs, exs, h => by
    simp only [importPath, Out.ok.injEq, Prod.mk.injEq] at h
    obtain ⟨rfl, rfl⟩ := h
    exact ⟨[], rfl, .nil⟩
  | (method, k) :: rest, hs, exs, h => by
    rw [importPath] at h ⊢
    rcases forall₂_option_rel (hr k) with ⟨ha, hb⟩ | ⟨op, op', ha, hb, hop⟩
    · rw [ha] at h
      rw [hb]
      exact importPath_perm hr h1 h
    · rw [ha] at h
      rw [hb]
      dsimp only at h ⊢
      split at h
      · rename_i hx
        rw [if_pos hx]
        exact importPath_perm hr h1 h
      · rename_i hx
        rw [if_neg hx]
        obtain ⟨⟨a, e⟩, h2, h⟩ := Out.bind_eq_ok.1 h
        obtain ⟨⟨as, es⟩, h3, h⟩ := Out.bind_eq_ok.1 h
        simp only [Out.ok.injEq, Prod.mk.injEq] at h
        obtain ⟨rfl, rfl⟩ := h
        obtain ⟨a', h4, h5⟩ := convertOasPath_perm hop (h1 k op ha) h2
        obtain ⟨as', h6, h7⟩ := importPath_perm hr h1 h3
        rw [h4, h6]
        exact ⟨a' :: as', rfl, .cons h5 h7⟩

theorem importPaths_collect : ∀ l : GoMap OPathItem, importPaths l = collect (fun kp => importPaths [kp]) l
  | [] => rfl
  | (p, pi) :: rest => by
    rw [collect, ← importPaths_collect rest, importPaths, importPaths]
    cases importPath p pi importMethods with
    | ok x =>
      obtain ⟨hs, exs⟩ := x
      simp [Out.bind, importPaths]
    | err e => rfl
    | panic e => rfl

theorem importPaths_same {l l' : GoMap OPathItem}
    (hl : List.Forall₂ (fun a b => b.1 = a.1 ∧ ∀ k, Option.Rel ReorderedOp (a.2.op k) (b.2.op k)) l l') :
    (∀ a ∈ l, ∀ k op, a.2.op k = some op → OneSuccess op) → ∀ {hs : List HttpDef} {exs : List ExampleDef},
    importPaths l = .ok (hs, exs) → ∃ hs', importPaths l' = .ok (hs', exs) ∧ List.Forall₂ ReorderedAction hs hs' := by
  induction hl with
  | nil =>
    intro _ hs exs h
    simp only [importPaths, Out.ok.injEq, Prod.mk.injEq] at h
    obtain ⟨rfl, rfl⟩ := h
    exact ⟨[], rfl, .nil⟩
  | @cons a b l l' hab _ ih =>
    intro h1 hs exs h
    obtain ⟨p, pi⟩ := a
    obtain ⟨p', pi'⟩ := b
    obtain ⟨rfl, hr⟩ := hab
    rw [importPaths] at h ⊢
    obtain ⟨⟨a, e⟩, h2, h⟩ := Out.bind_eq_ok.1 h
    obtain ⟨⟨as, es⟩, h3, h⟩ := Out.bind_eq_ok.1 h
    simp only [Out.ok.injEq, Prod.mk.injEq] at h
    obtain ⟨rfl, rfl⟩ := h
    obtain ⟨a', h4, h5⟩ := importPath_perm hr (h1 _ (List.mem_cons_self ..)) h2
    obtain ⟨as', h6, h7⟩ := ih (fun a ha => h1 a (List.mem_cons_of_mem _ ha)) h3
    rw [h4, h6]
    exact ⟨a' ++ as', rfl, List.rel_append h5 h7⟩

end Sadl
