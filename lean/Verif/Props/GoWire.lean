import Verif.Props.GoServer
import Verif.Props.GoClient
import Verif.Props.JavaWire
import Verif.Lemmas.UnparseOpts
import Verif.Spec.GoWire
/-
C98: what a generated Go client sends is what the implementation behind the generated Go server gets, and back.
-/
namespace Sadl.Props
open Sadl Sadl.Spec

/-! ### Numbers -/

theorem digit_plain {d : Nat} (hd : d < 10) : MeansItself (digitChar d) := by
  have : d = 0 ∨ d = 1 ∨ d = 2 ∨ d = 3 ∨ d = 4 ∨ d = 5 ∨ d = 6 ∨ d = 7 ∨ d = 8 ∨ d = 9 := by omega
  rcases this with rfl | rfl | rfl | rfl | rfl | rfl | rfl | rfl | rfl | rfl <;> exact .inl (by decide)

theorem decAux_plain : ∀ (fuel n : Nat), ∀ c ∈ decAux fuel n, MeansItself c
  | 0, n, c, h => by simp [decAux] at h
  | fuel + 1, n, c, h => by
    unfold decAux at h
    by_cases hn : n < 10
    · rw [if_pos hn, List.mem_singleton] at h
      subst h
      exact digit_plain hn
    · rw [if_neg hn, List.mem_append, List.mem_singleton] at h
      rcases h with h | rfl
      · exact decAux_plain fuel _ c h
      · exact digit_plain (Nat.mod_lt _ (by omega))

theorem sprintInt_plain (n : Int) : TextMeansItself (sprintInt n) := by
  intro c hc
  unfold sprintInt showInt showNat at hc
  rw [String.toList_ofList] at hc
  split at hc
  · rcases List.mem_cons.1 hc with rfl | hc
    · exact .inr (by decide)
    · exact decAux_plain _ _ c hc
  · exact decAux_plain _ _ c hc

theorem sprintInt_ne (n : Int) : sprintInt n ≠ "" := by
  intro h
  have := congrArg String.toList h
  unfold sprintInt showInt showNat at this
  rw [String.toList_ofList] at this
  obtain ⟨d, r, _, e⟩ := decAux_head (n.natAbs + 1) n.natAbs (by omega)
  rw [e] at this
  split at this <;> simp at this

theorem parseInt_sprintInt {n : Int} (h1 : -2 ^ 63 ≤ n) (h2 : n < 2 ^ 63) : parseInt 64 (sprintInt n) = some n := by
  by_cases hn : n < 0
  · have hv : decDigits 0 (decAux (n.natAbs + 1) n.natAbs) = some n.natAbs := decDigits_decAux _ _ (by omega)
    obtain ⟨d, r, _, e⟩ := decAux_head (n.natAbs + 1) n.natAbs (by omega)
    unfold parseInt sprintInt showInt showNat
    rw [String.toList_ofList, if_pos hn]
    simp only
    rw [e] at hv ⊢
    simp only [hv, if_true]
    rw [if_pos (by constructor <;> omega)]
    congr 1
    omega
  · have e : sprintInt n = intText n.toNat := by
      unfold sprintInt showInt intText
      rw [if_neg hn, show n.natAbs = n.toNat by omega]
    rw [e]
    exact parseInt_size ⟨by omega, h2⟩

/-! ### Queries -/

theorem itself_query {c : Char} (h : MeansItself c) : c ≠ '&' ∧ c ≠ '=' ∧ c ≠ '?' := by
  rcases h with h | h
  · refine ⟨?_, ?_, ?_⟩ <;> rintro rfl <;> revert h <;> decide
  · refine ⟨?_, ?_, ?_⟩ <;> rintro rfl <;> revert h <;> decide

section
variable {τ β : Type} {net : GoNet τ β} (hnet : net.Decodes)
include hnet

theorem queryPart_plain {k v : String} (hk : TextMeansItself k) (hv : TextMeansItself v) : QueryPart net (k ++ "=" ++ v).toList = some (k, v) := by
  have e : (k ++ "=" ++ v).toList = k.toList ++ '=' :: v.toList := by simp
  unfold QueryPart
  have hk' : ∀ c ∈ k.toList, (decide (c ≠ '=')) = true := fun c hc => by simpa using (itself_query (hk c hc)).2.1
  rw [e, List.takeWhile_append_of_pos hk', List.dropWhile_append_of_pos hk']
  simp only [ne_eq, decide_not, List.takeWhile_cons, decide_true, Bool.not_true, Bool.false_eq_true, if_false, List.append_nil,
    List.dropWhile_cons, List.drop_succ_cons, List.drop_zero]
  rw [hnet _ hk, hnet _ hv]
  simp

omit hnet in
/-- The parts of the query of a URL that a client sends. -/
theorem queryParts_sent (base : String) (hb : '?' ∉ base.toList) (args : List (String × String))
    (h : ∀ a ∈ args, TextMeansItself a.1 ∧ TextMeansItself a.2) :
    QueryParts (base ++ (if args.map (fun a => a.1 ++ "=" ++ a.2) = [] then "" else "?" ++ "&".intercalate (args.map fun a => a.1 ++ "=" ++ a.2))) =
      args.map fun a => (a.1 ++ "=" ++ a.2).toList := by
  unfold QueryParts
  have hb' : ∀ c ∈ base.toList, (decide (c ≠ '?')) = true := fun c hc => by simpa using fun h : c = '?' => hb (h ▸ hc)
  cases args with
  | nil =>
    simp only [List.map_nil, if_true]
    have e : base.toList.dropWhile (· ≠ '?') = [] := by
      rw [← List.append_nil base.toList, List.dropWhile_append_of_pos hb']; rfl
    rw [String.append_empty, e]
    simp [splitAll]
  | cons a r =>
    rw [if_neg (by simp)]
    have e : (base ++ ("?" ++ "&".intercalate ((a :: r).map fun a => a.1 ++ "=" ++ a.2))).toList =
        base.toList ++ '?' :: joinWith '&' ((a :: r).map fun a => (a.1 ++ "=" ++ a.2).toList) := by
      rw [joinWith_eq]
      rw [String.toList_append, String.toList_append, String.toList_intercalate, List.map_map]
      rfl
    rw [e, List.dropWhile_append_of_pos hb']
    simp only [ne_eq, decide_not, List.dropWhile_cons, decide_true, Bool.not_true, Bool.false_eq_true, if_false, List.drop_succ_cons, List.drop_zero]
    rw [splitAll_joinWith (by simp)]
    · rw [List.filter_eq_self]
      intro w hw
      obtain ⟨x, _, rfl⟩ := List.mem_map.1 hw
      simp
    · intro w hw
      obtain ⟨x, hx, rfl⟩ := List.mem_map.1 hw
      have hx := h x hx
      simp only [String.toList_append, List.mem_append, not_or]
      exact ⟨⟨fun hc => (itself_query (hx.1 _ hc)).1 rfl, by decide⟩, fun hc => (itself_query (hx.2 _ hc)).1 rfl⟩

theorem queryValue_sent (base : String) (hb : '?' ∉ base.toList) (args : List (String × String))
    (h : ∀ a ∈ args, TextMeansItself a.1 ∧ TextMeansItself a.2) (k : String) :
    QueryValue net (base ++ (if args.map (fun a => a.1 ++ "=" ++ a.2) = [] then "" else "?" ++ "&".intercalate (args.map fun a => a.1 ++ "=" ++ a.2))) k =
      (args.lookup k).getD "" := by
  unfold QueryValue
  rw [queryParts_sent base hb args h, List.filterMap_map]
  congr 2
  have : ∀ l : List (String × String), (∀ a ∈ l, TextMeansItself a.1 ∧ TextMeansItself a.2) → l.filterMap (QueryPart net ∘ fun a => (a.1 ++ "=" ++ a.2).toList) = l := by
    intro l hl
    induction l with
    | nil => rfl
    | cons a r ih =>
      have ha := hl a (by simp)
      rw [List.filterMap_cons, Function.comp, queryPart_plain hnet ha.1 ha.2]
      rw [ih fun b hb => hl b (by simp [hb])]
  exact this args h
end

/-! ### What is sent and delivered -/

section
variable {τ β : Type} {m : Model} (hm : newModel m.schema = .ok m)
include hm

theorem ofKind_clash {n : String} {k1 k2 : List String} (h1 : OfKind m.schema n k1) (h2 : OfKind m.schema n k2) (hd : ∀ t ∈ k1, t ∉ k2) : False := by
  obtain ⟨a, ha, h1⟩ := h1
  obtain ⟨b, hb, h2⟩ := h2
  rw [defines_unique hm ha hb] at h1
  exact hd _ h1 h2

omit hm in
theorem ofKind_base {s : Schema} {n : String} (h : n ∈ BaseTypes) : OfKind s n [n] := ⟨_, .inr ⟨h, rfl⟩, by simp⟩

/-- The text that is sent for a value. -/
def sentText (net : GoNet τ β) : GoVal τ β → String
  | .text t => t
  | .int n => if n = 0 then "" else sprintInt n
  | .time (some t) => net.stamp t
  | _ => ""

variable {lib : GoLib} {rd : GoReads τ β} {net : GoNet τ β} {vals : String → GoVal τ β}

theorem argForm_of {p : HttpParamSpec} {v : GoVal τ β} {z g : String} (hs : Sendable lib rd net m.schema p v) (hq : p.query ≠ "")
    (ha : ArgForm m.schema p.field.ts.type z g) {f : String} (hv : vals f = v) :
    (FieldDiffers vals f z = true → FieldText net vals g f = sentText net v ∧ TextMeansItself (sentText net v)) ∧
    (FieldDiffers vals f z = false → sentText net v = "") := by
  cases hs with
  | text _ hk ht _ =>
    cases ha with
    | text => simp [FieldDiffers, FieldText, hv, sentText, ht]
    | integer h => exact (ofKind_clash hm hk h (by decide)).elim
    | float h => exact (ofKind_clash hm hk h (by decide)).elim
    | bool h => exact (ofKind_clash hm hk h (by decide)).elim
    | other h => exact absurd (by obtain ⟨a, h1, h2⟩ := hk; exact ⟨a, h1, by simp_all⟩) h
  | @int n bits _ hk _ _ _ =>
    have hk' : OfKind m.schema p.field.ts.type ["Int8", "Int16", "Int32", "Int64"] := by
      have : ∀ e ∈ IntKinds, e.1 ∈ BaseTypes ∧ e.1 ∈ ["Int8", "Int16", "Int32", "Int64"] := by decide
      obtain ⟨a, h1, h2⟩ := ofKind_base (s := m.schema) (this _ hk).1
      exact ⟨a, h1, by rw [List.mem_singleton.1 h2]; exact (this _ hk).2⟩
    cases ha with
    | text h => exact (ofKind_clash hm hk' h (by decide)).elim
    | integer h =>
      by_cases hn : n = 0
      · simp [FieldDiffers, hv, sentText, hn]
      · simp [FieldDiffers, FieldText, hv, sentText, hn, sprintInt_plain]
    | float h => exact (ofKind_clash hm hk' h (by decide)).elim
    | bool h => exact (ofKind_clash hm hk' h (by decide)).elim
    | other h => exact absurd (by obtain ⟨a, h1, h2⟩ := hk'; exact ⟨a, h1, by simp_all; tauto⟩) h
  | time _ hk ht _ _ =>
    have hk' : OfKind m.schema p.field.ts.type ["Timestamp"] := by rw [hk]; exact ofKind_base (by decide)
    cases ha with
    | text h => exact (ofKind_clash hm hk' h (by decide)).elim
    | integer h => exact (ofKind_clash hm hk' h (by decide)).elim
    | float h => exact (ofKind_clash hm hk' h (by decide)).elim
    | bool h => exact (ofKind_clash hm hk' h (by decide)).elim
    | other h => simp [FieldDiffers, FieldText, hv, sentText, ht]
  | noTime _ hk =>
    have hk' : OfKind m.schema p.field.ts.type ["Timestamp"] := by rw [hk]; exact ofKind_base (by decide)
    cases ha with
    | text h => exact (ofKind_clash hm hk' h (by decide)).elim
    | integer h => exact (ofKind_clash hm hk' h (by decide)).elim
    | float h => exact (ofKind_clash hm hk' h (by decide)).elim
    | bool h => exact (ofKind_clash hm hk' h (by decide)).elim
    | other h => simp [FieldDiffers, hv, sentText]
  | body hb _ => simp [BodyInput, hq] at hb

/-- The arguments as pairs. -/
theorem args_pairs {l : List HttpParamSpec} {args : List String} (h : ArgsSent m.schema (FieldDiffers vals) (FieldText net vals) l args)
    (hs : ∀ p ∈ l, Sendable lib rd net m.schema p (vals (capitalize p.field.name))) (hp : ∀ p ∈ l, p.query ≠ "" → TextMeansItself p.field.name)
    (hn : ((l.filter fun p => p.query ≠ "").map (·.field.name)).Nodup) :
    ∃ pairs : List (String × String), args = pairs.map (fun a => a.1 ++ "=" ++ a.2) ∧ (∀ a ∈ pairs, TextMeansItself a.1 ∧ TextMeansItself a.2) ∧
      (∀ a ∈ pairs, ∃ p ∈ l, p.query ≠ "" ∧ p.field.name = a.1) ∧
      ∀ p ∈ l, p.query ≠ "" → (pairs.lookup p.field.name).getD "" = sentText net (vals (capitalize p.field.name)) := by
  induction h with
  | nil => exact ⟨[], rfl, by simp, by simp, by simp⟩
  | @sent p l r z g hq ha hd _ ih =>
    rw [List.filter_cons, if_pos (by simpa using hq), List.map_cons, List.nodup_cons] at hn
    obtain ⟨pairs, h1, h2, h3, h4⟩ := ih (fun p h => hs p (by simp [h])) (fun p h => hp p (by simp [h])) hn.2
    obtain ⟨k1, _⟩ := argForm_of hm (hs p (by simp)) hq ha (vals := vals) rfl
    obtain ⟨k2, k3⟩ := k1 hd
    refine ⟨(p.field.name, sentText net (vals (capitalize p.field.name))) :: pairs, by rw [h1, k2]; rfl, ?_, ?_, ?_⟩
    · intro a ha
      rcases List.mem_cons.1 ha with rfl | ha
      · exact ⟨hp p (by simp) hq, k3⟩
      · exact h2 a ha
    · intro a ha
      rcases List.mem_cons.1 ha with rfl | ha
      · exact ⟨p, by simp, hq, rfl⟩
      · obtain ⟨p', h5, h6⟩ := h3 a ha
        exact ⟨p', by simp [h5], h6⟩
    · intro p' hp' hq'
      rcases List.mem_cons.1 hp' with rfl | hp'
      · simp
      · have hne : p'.field.name ≠ p.field.name := fun e => hn.1 (List.mem_map.2 ⟨p', by simp [hp', hq'], e⟩)
        rw [List.lookup_cons, beq_eq_false_iff_ne.2 hne]
        exact h4 p' hp' hq'
  | @zero p l r z g hq ha hd _ ih =>
    rw [List.filter_cons, if_pos (by simpa using hq), List.map_cons, List.nodup_cons] at hn
    obtain ⟨pairs, h1, h2, h3, h4⟩ := ih (fun p h => hs p (by simp [h])) (fun p h => hp p (by simp [h])) hn.2
    obtain ⟨_, k1⟩ := argForm_of hm (hs p (by simp)) hq ha (vals := vals) rfl
    refine ⟨pairs, h1, h2, fun a ha => ?_, ?_⟩
    · obtain ⟨p', h5, h6⟩ := h3 a ha
      exact ⟨p', by simp [h5], h6⟩
    · intro p' hp' hq'
      rcases List.mem_cons.1 hp' with rfl | hp'
      · rw [k1 hd, List.lookup_eq_none_iff.2]
        · rfl
        · intro a ha
          obtain ⟨p', h5, h6, h7⟩ := h3 a ha
          simp only [bne_iff_ne, ne_eq]
          exact fun e => hn.1 (List.mem_map.2 ⟨p', by simp [h5, h6], by rw [h7, e]⟩)
      · exact h4 p' hp' hq'
  | @skip p l r hq _ ih =>
    rw [List.filter_cons, if_neg (by simpa using hq)] at hn
    obtain ⟨pairs, h1, h2, h3, h4⟩ := ih (fun p h => hs p (by simp [h])) (fun p h => hp p (by simp [h])) hn
    refine ⟨pairs, h1, h2, fun a ha => ?_, ?_⟩
    · obtain ⟨p', h5, h6⟩ := h3 a ha
      exact ⟨p', by simp [h5], h6⟩
    · intro p' hp' hq'
      rcases List.mem_cons.1 hp' with rfl | hp'
      · exact absurd hq hq'
      · exact h4 p' hp' hq'

omit hm in
theorem goWrap_range {bits : Nat} (hb : bits ∈ [8, 16, 32, 64]) {n : Int} (h1 : -2 ^ (bits - 1) ≤ n) (h2 : n < 2 ^ (bits - 1)) : GoWrap bits n = n := by
  unfold GoWrap
  simp only [List.mem_cons, List.not_mem_nil, or_false] at hb
  rcases hb with rfl | rfl | rfl | rfl <;> norm_num at h1 h2 ⊢ <;> omega

/-- What is delivered is what was sent. -/
theorem delivered_sent {p : HttpParamSpec} {v w : GoVal τ β} {rq : GoRequest} (hs : Sendable lib rd net m.schema p v)
    (hform : p.query ≠ "" → rq.form p.query = sentText net v) (hbody : ∀ b, BodyInput p = true → v = .body b → rq.body = net.json b)
    (hd : Delivered lib rd m.schema rq p w) : w = v := by
  have hsent : p.query ≠ "" → ∀ t, SentAs rq p t → t = sentText net v := by
    intro hq t ht
    cases ht with
    | query _ => exact hform hq
    | header h _ => exact absurd h hq
    | path h _ _ => exact absurd h hq
  have hb : p.query ≠ "" → BodyInput p ≠ true := fun hq hb => by simp [BodyInput, hq] at hb
  have hbk : ∀ {b : Nat}, (p.field.ts.type, b) ∈ IntKinds → OfKind m.schema p.field.ts.type ["Int8", "Int16", "Int32", "Int64"] := by
    intro b hk
    have : ∀ e ∈ IntKinds, e.1 ∈ BaseTypes ∧ e.1 ∈ ["Int8", "Int16", "Int32", "Int64"] := by decide
    obtain ⟨a, h1, h2⟩ := ofKind_base (s := m.schema) (this _ hk).1
    exact ⟨a, h1, by rw [List.mem_singleton.1 h2]; exact (this _ hk).2⟩
  have hts : p.field.ts.type = "Timestamp" → OfKind m.schema p.field.ts.type ["Timestamp"] := fun h => by
    rw [h]; exact ofKind_base (by decide)
  cases hs with
  | @text t hq hk ht hdef =>
    cases hd with
    | text _ h _ => rw [hsent hq _ h]; rfl
    | noText _ h hd =>
      have e : t = "" := (hsent hq _ h).symm
      rw [hdef e _ hd, e]
    | time h _ _ => exact (ofKind_clash hm hk (hts h) (by decide)).elim
    | noTime h _ => exact (ofKind_clash hm hk (hts h) (by decide)).elim
    | int h _ _ _ => exact (ofKind_clash hm hk (hbk h) (by decide)).elim
    | noInt h _ _ _ => exact (ofKind_clash hm hk (hbk h) (by decide)).elim
    | body h _ => exact absurd h (hb hq)
  | @int n bits hq hk h1 h2 hdef =>
    have hone : ∀ {b}, (p.field.ts.type, b) ∈ IntKinds → b = bits := by
      intro b hb'
      have : ∀ e ∈ IntKinds, ∀ e' ∈ IntKinds, e.1 = e'.1 → e.2 = e'.2 := by decide
      exact this _ hb' _ hk rfl
    have hbits : bits ∈ [8, 16, 32, 64] := by
      have : ∀ e ∈ IntKinds, e.2 ∈ [8, 16, 32, 64] := by decide
      exact this _ hk
    have hpow : (2 : Int) ^ (bits - 1) ≤ 2 ^ 63 := by
      simp only [List.mem_cons, List.not_mem_nil, or_false] at hbits
      rcases hbits with rfl | rfl | rfl | rfl <;> norm_num
    have hparse : parseInt 64 (sprintInt n) = some n := parseInt_sprintInt (by omega) (by omega)
    cases hd with
    | text h _ _ => exact (ofKind_clash hm (hbk hk) h (by decide)).elim
    | noText h _ _ => exact (ofKind_clash hm (hbk hk) h (by decide)).elim
    | time h _ _ => exact (ofKind_clash hm (hbk hk) (hts h) (by decide)).elim
    | noTime h _ => exact (ofKind_clash hm (hbk hk) (hts h) (by decide)).elim
    | int h hst hne hp =>
      rw [hone h]
      have e := hsent hq _ hst
      unfold sentText at e
      simp only at e
      by_cases hn : n = 0
      · rw [if_pos hn] at e; exact absurd e hne
      · rw [if_neg hn] at e
        rw [e, hparse] at hp
        cases hp
        rw [goWrap_range hbits h1 h2]
    | noInt h hst ht hd =>
      rw [hone h]
      have e := hsent hq _ hst
      have hn : n = 0 := by
        by_contra hn
        unfold sentText at e
        simp only at e
        rw [if_neg hn] at e
        rcases ht with ht | ht
        · exact sprintInt_ne n (e ▸ ht)
        · rw [e, hparse] at ht; cases ht
      have hpos : (0 : Int) < 2 ^ (bits - 1) := by positivity
      rw [hdef hn _ hd, hn, goWrap_range hbits (by omega) hpos]
    | body h _ => exact absurd h (hb hq)
  | @time t hq hk ht hne hback =>
    have hk' := hts hk
    cases hd with
    | text h _ _ => exact (ofKind_clash hm hk' h (by decide)).elim
    | noText h _ _ => exact (ofKind_clash hm hk' h (by decide)).elim
    | time _ h _ =>
      rw [hsent hq _ h]
      show GoVal.time (rd.time (net.stamp t)) = _
      rw [hback]
    | noTime _ h => exact absurd (hsent hq _ h).symm hne
    | int h _ _ _ => exact (ofKind_clash hm hk' (hbk h) (by decide)).elim
    | noInt h _ _ _ => exact (ofKind_clash hm hk' (hbk h) (by decide)).elim
    | body h _ => exact absurd h (hb hq)
  | noTime hq hk =>
    have hk' := hts hk
    cases hd with
    | text h _ _ => exact (ofKind_clash hm hk' h (by decide)).elim
    | noText h _ _ => exact (ofKind_clash hm hk' h (by decide)).elim
    | time _ h hne => exact absurd (hsent hq _ h) hne
    | noTime _ h => rfl
    | int h _ _ _ => exact (ofKind_clash hm hk' (hbk h) (by decide)).elim
    | noInt h _ _ _ => exact (ofKind_clash hm hk' (hbk h) (by decide)).elim
    | body h _ => exact absurd h (hb hq)
  | @body b hbd hback =>
    have hno : ∀ t, ¬ SentAs rq p t := by
      intro t ht
      simp only [BodyInput, decide_eq_true_eq] at hbd
      cases ht with
      | query h => exact h hbd.2.1
      | header _ h => exact h hbd.2.2
      | path _ _ h => rw [hbd.1] at h; cases h
    cases hd with
    | text _ h _ => exact absurd h (hno _)
    | noText _ h _ => exact absurd h (hno _)
    | time _ h _ => exact absurd h (hno _)
    | noTime _ h => exact absurd h (hno _)
    | int _ h _ _ => exact absurd h (hno _)
    | noInt _ h _ _ => exact absurd h (hno _)
    | body _ h =>
      rw [hbody b hbd rfl, hback] at h
      cases h
      rfl
end

/-! ### The exchange -/

section
variable (lib : PLib) (m : Model) (h : Accepted lib m) (conf : GoConf) (gl : GoLib) (hc : conf.name ∉ BaseTypes) (hcap : capitalize conf.name = conf.name)
  (f : GoFile) (hf : goModel m conf = .ok f) (sv : GoServer) (hsv : goServer m conf gl = .ok sv) (cl : GoClient) (hcl : goClient m conf = .ok cl)
  (server : Bool) (h1 : GoCompiles f) (h2 : GoServerCompiles f sv) (h3 : GoClientCompiles f server cl)
  (i : Nat) (hd : HttpDef) (hi : m.schema.http[i]? = some hd) (g : GoHandler) (hg : sv.handlers[i]? = some g) (c : GoCall) (hcc : cl.calls[i]? = some c)
  (e : HttpExpectedSpec) (he : hd.expected = some e) {τ β ρ : Type} (rd : GoReads τ β) (net : GoNet τ β) (hnet : net.Decodes)
  (target : String) (ht : '?' ∉ target.toList) (header var : String → String) (vals : String → GoVal τ β)
include h hc hcap hf hsv hcl h1 h2 h3 hi hg hcc he hnet ht

omit hcap h1 h2 h3 he hnet ht hc hf in
/-- C98: the client sends the request to where the server has the handler: with its method, to its path. -/
theorem C98_route : ∃ r q, sv.routes[i]? = some r ∧ r.handler = g.method ∧ r.method = (SendCall net target vals c).verb ∧
    (SendCall net target vals c).url = target ++ r.path ++ q ∧ (q = "" ∨ ∃ a, q = "?" ++ a) := by
  obtain ⟨_, hmir⟩ := C83_mirrors lib m h conf gl sv hsv
  obtain ⟨_, _, hcalls⟩ := C86_mirrors lib m h conf cl hcl
  have hlen : i < sv.routes.length := by
    rw [← hmir.routes.length_eq]
    exact (List.getElem?_eq_some_iff.1 hi).1
  obtain ⟨r1, r2, q, r3⟩ := forall₂_index hmir.routes hi (List.getElem?_eq_getElem hlen)
  have hh := forall₂_index hmir.handlers hi hg
  obtain ⟨_, c2, q', c3⟩ := forall₂_index hcalls hi hcc
  have hpath : sv.routes[i].path = c.path := String.toList_inj.1 (pathAndQuery_path_unique r3 c3)
  refine ⟨_, _, List.getElem?_eq_getElem hlen, r1.trans hh.symm, r2.trans c2.symm, by rw [hpath]; rfl, ?_⟩
  split_ifs
  · exact .inl rfl
  · exact .inr ⟨_, rfl⟩

/-- C98: the implementation behind the server is called with the values that the client was called with. -/
theorem C98_request (hp : GoSendable hd) (hv : ∀ p ∈ hd.inputs, Sendable gl rd net m.schema p (vals (capitalize p.field.name)))
    (impl : List (String × GoVal τ β) → GoAnswer ρ ρ) :
    Answered hd e (impl (hd.inputs.map fun p => (capitalize p.field.name, vals (capitalize p.field.name))))
      (RunHandler rd impl g (ArrivesAs net vals (SendCall net target vals c) header var)) := by
  have hm := accepted_newModel h
  have hhd : hd ∈ m.schema.http := List.mem_of_getElem? hi
  obtain ⟨_, hgo⟩ := forall₂_index (C85_handlers lib m h conf gl hc hcap f hf sv hsv h1 h2) hi hg
  obtain ⟨_, hsend, _⟩ := forall₂_index (C88_calls lib m h conf server hc hcap f hf cl hcl h1 h3) hi hcc
  have hok := (C53_accepted_valid lib m h).http hd hhd
  have hsf := (hsend target (FieldDiffers vals) (FieldText net vals) (SendCall net target vals c)).2 rfl
  obtain ⟨pp, q, args, hpq, hargs, hurl⟩ := hsf.url
  obtain ⟨pairs, rfl, hplain, _, hlook⟩ := args_pairs hm hargs hv hp.plain hp.once
  have hbase : '?' ∉ (target ++ String.ofList pp).toList := by
    simp only [String.toList_append, String.toList_ofList, List.mem_append, not_or]
    exact ⟨ht, hpq.1⟩
  have hvalue := fun k => queryValue_sent hnet (target ++ String.ofList pp) hbase pairs hplain k
  have hparts := queryParts_sent (target ++ String.ofList pp) hbase pairs hplain
  rw [← hurl] at hvalue hparts
  have hform : (ArrivesAs net vals (SendCall net target vals c) header var).formOk = true := by
    show ((QueryParts (SendCall net target vals c).url).all fun part => (QueryPart net part).isSome) = true
    rw [hparts, List.all_eq_true]
    intro part hpart
    obtain ⟨a, ha, rfl⟩ := List.mem_map.1 hpart
    rw [queryPart_plain hnet (hplain a ha).1 (hplain a ha).2]
    rfl
  have hbody : ∀ p ∈ hd.inputs, BodyInput p = true → ∀ b, vals (capitalize p.field.name) = .body b →
      (ArrivesAs net vals (SendCall net target vals c) header var).body = net.json b := by
    intro p hp hb b hvb
    have hfind : hd.inputs.find? BodyInput = some p := by
      rw [← List.head?_filter]
      have hmem : p ∈ hd.inputs.filter BodyInput := List.mem_filter.2 ⟨hp, hb⟩
      have hlen := hok.oneBody
      match hl : hd.inputs.filter BodyInput with
      | [] => rw [hl] at hmem; cases hmem
      | [x] => rw [hl, List.mem_singleton] at hmem; rw [hmem]; rfl
      | _ :: _ :: _ => rw [hl] at hlen; simp at hlen
    have hsb := (hsf.body (capitalize p.field.name)).2 ⟨by
      have := hok.bodyAllowed p hp hb
      simp only [List.mem_cons, List.not_mem_nil, or_false] at this ⊢
      tauto, p, hfind, rfl⟩
    unfold ArrivesAs
    simp only [hsb, Option.map_some, hvb]
  rcases hgo e he τ β ρ ρ rd impl (ArrivesAs net vals (SendCall net target vals c) header var) with ⟨hr, _⟩ | ⟨_, fields, hfs, hans⟩
  · exfalso
    rcases hr with ⟨_, hr⟩ | ⟨p, hpm, hb, hdec⟩
    · rw [hform] at hr; cases hr
    · have hs := hv p hpm
      cases hval : vals (capitalize p.field.name) with
      | body b =>
        rw [hval] at hs
        cases hs with
        | body _ hback =>
          rw [hbody p hpm hb b hval, hback] at hdec
          cases hdec
      | _ =>
        rw [hval] at hs
        have hq : p.query = "" := by simp only [BodyInput, decide_eq_true_eq] at hb; exact hb.2.1
        cases hs <;> contradiction
  · have hfields : fields = hd.inputs.map fun p => (capitalize p.field.name, vals (capitalize p.field.name)) := by
      have key : ∀ (l : List HttpParamSpec) (fs : List (String × GoVal τ β)), (∀ p ∈ l, p ∈ hd.inputs) →
          List.Forall₂ (fun p f => f.1 = capitalize p.field.name ∧
            Delivered gl rd m.schema (ArrivesAs net vals (SendCall net target vals c) header var) p f.2) l fs →
          fs = l.map fun p => (capitalize p.field.name, vals (capitalize p.field.name)) := by
        intro l fs hl hfs
        induction hfs with
        | nil => rfl
        | @cons p f' l fs hpf _ ih =>
          have hpm := hl p (by simp)
          rw [List.map_cons, ← ih fun p hp => hl p (by simp [hp])]
          congr 1
          refine Prod.ext hpf.1 (delivered_sent hm (hv p hpm) ?_ (fun b hb hvb => hbody p hpm hb b hvb) hpf.2)
          intro hq
          have hname : p.query = p.field.name := by
            rcases hp.places p hpm with hb | hb
            · simp [BodyInput, hq] at hb
            · exact hb
          rw [← hlook p hpm hq, hname]
          exact hvalue _
      exact key _ _ (fun _ h => h) hfs
    rw [← hfields]
    exact hans

/-- C98: the client gives back what the implementation returns: the response with the same outputs, and an exception of the action as the same
exception; any other error is reported as unexpected. -/
theorem C98_exchange (hp : GoSendable hd) (hv : ∀ p ∈ hd.inputs, Sendable gl rd net m.schema p (vals (capitalize p.field.name)))
    (impl : List (String × GoVal τ β) → GoAnswer ρ ρ) (back : GoNetBack ρ) (answer : GoAnswer ρ ρ)
    (ha : impl (hd.inputs.map fun p => (capitalize p.field.name, vals (capitalize p.field.name))) = answer) :
    (∀ res, answer = .ok res → HeadersDiffer e → (∀ p ∈ e.outputs, Returnable m.schema conf.runtime back p (res (capitalize p.field.name))) →
      ExchangeGives rd net back impl target header var c g vals = .response (e.outputs.map fun p => (capitalize p.field.name, res (capitalize p.field.name)))) ∧
    (∀ x ∈ hd.exceptions, ∀ v, answer = .error (.ptr (.ident x.type)) v → back.decoded (.ptr (.ident x.type)) v = some v →
      ExchangeGives rd net back impl target header var c g vals = .exception (.ptr (.ident x.type), v)) ∧
    (∀ t v, answer = .error t v → (∀ x ∈ hd.exceptions, t ≠ .ptr (.ident x.type)) → e.status ≠ 500 → (∀ x ∈ hd.exceptions, x.status ≠ 500) →
      ExchangeGives rd net back impl target header var c g vals = .unexpected) := by
  have hm := accepted_newModel h
  have hhd : hd ∈ m.schema.http := List.mem_of_getElem? hi
  have hok := (C53_accepted_valid lib m h).http hd hhd
  have hreq := C98_request lib m h conf gl hc hcap f hf sv hsv cl hcl server h1 h2 h3 i hd hi g hg c hcc e he rd net hnet target ht header var vals hp hv impl
  obtain ⟨_, _, hread⟩ := forall₂_index (C88_calls lib m h conf server hc hcap f hf cl hcl h1 h3) hi hcc
  have hread := hread e he ρ
  have hcall := (C86_generates_iff lib m h conf).1 ⟨cl, hcl⟩ hd hhd
  have hserved := ((C84_compiles_iff lib m h conf gl hc hcap f hf sv hsv).1 ⟨h1, h2⟩).2.served hd hhd e he
  have hexc := (accepted_http h hd hhd).exceptions
  rw [ha] at hreq
  unfold ExchangeGives
  dsimp only
  generalize RunHandler rd impl g (ArrivesAs net vals (SendCall net target vals c) header var) = reply at hreq ⊢
  refine ⟨fun res hres hhd' hret => ?_, fun x hx v hres hdec => ?_, fun t v hres hx h5 h6 => ?_⟩
  · subst hres
    cases hreq
    refine ((hread _ _ _).1 (.response (List.forall₂_map_right_iff.2 (List.forall₂_same.2 fun p hpm => ⟨rfl, ?_⟩)))).symm
    have hret := hret p hpm
    unfold Returnable at hret
    by_cases hh : p.header = ""
    · rw [if_pos hh] at hret
      obtain ⟨e', he', houts⟩ := hcall.expected
      rw [he] at he'; cases he'
      have hleaf := (native_leaf hm (conf := conf) (hok.outputTypes e he p hpm) (houts p hpm).1 (houts p hpm).2 _).2 rfl
      refine .inl ⟨hh, _, hleaf, ?_⟩
      have hb : BodyOutput p = true := by simp [BodyOutput, hh]
      have hfind : e.outputs.find? BodyOutput = some p := by
        rw [← List.head?_filter]
        have hmem : p ∈ e.outputs.filter BodyOutput := List.mem_filter.2 ⟨hpm, hb⟩
        have hlen := hok.oneOutputBody e he
        match hl : e.outputs.filter BodyOutput with
        | [] => rw [hl] at hmem; cases hmem
        | [x] => rw [hl, List.mem_singleton] at hmem; rw [hmem]; rfl
        | _ :: _ :: _ => rw [hl] at hlen; simp at hlen
      simp only [ReadsFrom, hfind, Option.map_some, Option.bind_some]
      exact hret _ hleaf
    · rw [if_neg hh] at hret
      have hval : HeaderValue ((e.outputs.filter fun p => p.header ≠ "").map fun p => (p.header, res (capitalize p.field.name))) p.header =
          some (res (capitalize p.field.name)) := by
        unfold HeadersDiffer at hhd'
        have hmem : p ∈ e.outputs.filter fun p => p.header ≠ "" := List.mem_filter.2 ⟨hpm, by simpa using hh⟩
        generalize (e.outputs.filter fun p => p.header ≠ "") = l at hhd' hmem ⊢
        induction l with
        | nil => cases hmem
        | cons a r ih =>
          rw [List.pairwise_cons] at hhd'
          unfold HeaderValue
          rw [List.map_cons, List.find?_cons]
          rcases List.mem_cons.1 hmem with rfl | hmem
          · simp [SameHeader]
          · rw [decide_eq_false (hhd'.1 p hmem)]
            exact ih hhd'.2 hmem
      by_cases ht : p.field.ts.type = "Timestamp" ∧ conf.runtime = false
      · rw [if_pos ht] at hret
        refine .inr (.inl ⟨hh, ht.1, ht.2, ?_⟩)
        simp only [ReadsFrom, hval, Option.map_some, Option.getD_some]
        exact hret.symm
      · rw [if_neg ht] at hret
        refine .inr (.inr ⟨hh, ht, ?_⟩)
        simp only [ReadsFrom, hval, Option.map_some, Option.getD_some]
        exact hret.symm
  · subst hres
    generalize hty : (GoTy.ptr (.ident x.type)) = ty at hreq hdec
    cases hreq with
    | @known x' _ hx' =>
      injection hty with hty
      injection hty with hty
      have : x' = x := List.inj_on_of_nodup_map hexc hx' hx hty.symm
      subst this
      obtain ⟨td, htd, hn, hst⟩ := hserved.exceptions x' hx
      have hleaf : GoLeafOf m.schema conf.runtime x'.type (.ptr (.ident x'.type)) := by rw [← hn]; exact .struct htd hst
      exact ((hread _ _ _).1 (.exception hx hleaf hdec)).symm
    | unknown hu => exact absurd hty.symm (hu x hx)
  · subst hres
    generalize hty : t = ty at hreq
    cases hreq with
    | @known x' _ hx' => exact absurd hty (hx x' hx')
    | unknown hu => exact ((hread _ _ _).1 (.unexpected (Ne.symm h5) h6)).symm
end

/-! ### An example -/

/-- A source with an action that has two parameters in its query, an entity, a header and an exception. -/
def wireSource : List Token :=
  itemSource ++ [sym "type", sym "NotFound", sym "Struct", punct .openBrace, nl, sym "message", sym "String", nl, punct .closeBrace, nl] ++
  actionSource "GET" "/items?limit={limit}&name={name}"
    [defaultSource "limit" "Int32" (num "10"), [sym "name", sym "String"],
     expectSource "200" [[sym "item", sym "Item"], headerSource "tag" "String" "ETag"], [sym "except", num "404", sym "NotFound"]]

def wireFile : GoFile :=
  crudlFile [⟨"Limit", .ident "int32", "limit", true⟩, ⟨"Name", .ident "string", "name", true⟩] [itemField, ⟨"Tag", .ident "string", "tag", true⟩]
    [.heading "NotFound", .struct "NotFound" [⟨"Message", .ident "string", "message", true⟩], .errorMethod "NotFound"]

def wireHandler : GoHandler :=
  { method := "DoIt", form := true
    steps := [.assign "Limit" (.conv "int32" (.int (.form "limit") 10)), .assign "Name" (.conv "string" (.str (.form "name") ""))]
    result := "res", cases := [(.ptr (.ident "NotFound"), 404)], headers := [("ETag", "Tag")], status := 200, entity := some "Item" }

def wireServer : GoServer := ⟨"", goServerImports, "Crudl", "crudlAdaptor", [wireHandler], [⟨"/items", "DoIt", "GET"⟩]⟩

def wireCall : GoCall :=
  { method := "DoIt", path := "/items", args := [⟨"Limit", "0", "limit", "%d"⟩, ⟨"Name", "\"\"", "name", "%s"⟩], verb := "GET", body := none,
    json := false, status := 200, outputs := [.body "Item" (.ptr (.ident "Item")), .header "Tag" "ETag" false],
    cases := [(.ptr (.ident "NotFound"), 404)] }

/-- The inputs and the headers of the outputs of the actions. -/
def wireShape (m : Model) : List (List (String × String × Bool × String × String) × Option (Int × List String)) :=
  m.schema.http.map fun h => (h.inputs.map fun p => (p.field.name, p.field.ts.type, p.path, p.query, p.header),
    h.expected.map fun e => (e.status, e.outputs.map (·.header)))

theorem wireSource_ok : ∃ m, Accepted tens m ∧ goModel m { name := "Crudl" } = .ok wireFile ∧
    goServer m { name := "Crudl" } someGoLib = .ok wireServer ∧ goClient m { name := "Crudl" } = .ok (oneClient "CrudlClient" wireCall) ∧
    wireShape m = [([("limit", "Int32", false, "limit", ""), ("name", "String", false, "name", "")], some (200, ["", "ETag"]))] := by
  obtain ⟨m, h1, h2, h3, h4⟩ := client_of tens wireSource { name := "Crudl" } wireFile (oneClient "CrudlClient" wireCall)
    (fun m => goServer? m { name := "Crudl" } someGoLib == some wireServer &&
      wireShape m == [([("limit", "Int32", false, "limit", ""), ("name", "String", false, "name", "")], some (200, ["", "ETag"]))])
    (by decide +kernel) (by decide +kernel)
  rw [Bool.and_eq_true, beq_iff_eq, beq_iff_eq] at h4
  obtain ⟨h4, h5⟩ := h4
  unfold goServer? at h4
  split at h4
  · next e he => injection h4 with h4; exact ⟨m, h1, h2, by rw [he, h4], h3, h5⟩
  · cases h4

theorem wireFile_compiles : GoCompiles wireFile :=
  GoChecked.compiles (rank := fun n => if n = "string" ∨ n = "int32" then 0 else 1) (by decide +kernel)

theorem wireHandler_compiles : GoHandlerCompiles wireFile "Crudl" wireHandler := by
  have hd : ∀ d ∈ wireFile.decls, d ∈ wireFile.decls := fun _ h => h
  refine ⟨⟨["DoIt"], by decide +kernel, by decide +kernel⟩, ⟨_, hd (.struct "DoItRequest" _) (.tail _ (.head _)), ?_⟩,
    ⟨_, hd (.struct "DoItResponse" _) (.tail _ (.tail _ (.head _))), by decide +kernel, by decide +kernel⟩, ?_, ?_, ?_, by decide +kernel, ?_⟩
  · intro s hs
    simp only [wireHandler, List.mem_cons, List.not_mem_nil, or_false] at hs
    rcases hs with rfl | rfl
    · exact ⟨_, .head _, rfl, .number .int (.inl (by decide)) (by decide)⟩
    · exact ⟨_, .tail _ (.head _), rfl, .text .str (.inl (by decide)) (by decide)⟩
  · simp [HandlerUses, GoScoped, StepUses, wireHandler]
  · intro xs hxs x hx hne
    simp only [HandlerUses, StepUses, wireHandler, if_true, List.flatMap_cons, List.flatMap_nil, List.cons_append, List.nil_append,
      List.append_nil, List.mem_cons, GoUse.declare.injEq, reduceCtorEq, false_or, or_false, List.not_mem_nil, Option.isSome_some] at hxs
    rcases hxs with rfl | rfl | rfl <;> simp only [List.mem_cons, List.not_mem_nil, or_false] at hx
    · subst hx; simp [HandlerUses, StepUses, wireHandler]
    · subst hx; simp [HandlerUses, StepUses, wireHandler]
    · rcases hx with rfl | rfl <;> simp [HandlerUses, StepUses, wireHandler]
  · intro c hc
    simp only [wireHandler, List.mem_cons, List.not_mem_nil, or_false] at hc
    subst hc
    exact .pointer (by decide +kernel) (by decide)
  · have : ∀ e ∈ wireHandler.headers, ∀ c ∈ e.1.toList, c ≠ '"' ∧ c ≠ '\\' ∧ c ≠ '\n' := by decide +kernel
    exact this

theorem wireServer_compiles : GoServerCompiles wireFile wireServer := by
  refine ⟨by decide +kernel, by decide +kernel, by decide +kernel, by decide +kernel, fun p => Iff.rfl, by decide +kernel, ?_, by decide +kernel,
    by decide +kernel, ?_⟩
  · intro h hh
    rw [List.mem_singleton.1 hh]
    exact wireHandler_compiles
  · have : ∀ r ∈ wireServer.routes, (∀ c ∈ r.path.toList, c ≠ '"' ∧ c ≠ '\\' ∧ c ≠ '\n') ∧
      (∀ c ∈ r.method.toList, c ≠ '"' ∧ c ≠ '\\' ∧ c ≠ '\n') ∧ ∃ h ∈ wireServer.handlers, h.method = r.handler := by
      decide +kernel
    exact this

theorem wireClient_compiles : GoClientCompiles wireFile true (oneClient "CrudlClient" wireCall) := by
  have hd : ∀ d ∈ wireFile.decls, d ∈ wireFile.decls := fun _ h => h
  refine ⟨?_, by decide +kernel, by decide +kernel, by decide +kernel, ?_, .inl rfl, ?_, by decide +kernel, by decide +kernel⟩
  · exact client_ident (n := "Crudl") (by decide +kernel)
  · intro p
    have e1 : (oneClient "CrudlClient" wireCall).imports = ["encoding/json", "fmt", "net/http", "strings"] := rfl
    have e2 : CallPackages wireCall = ["fmt", "net/http", "strings", "encoding/json", "encoding/json"] := rfl
    constructor
    · intro h
      refine ⟨wireCall, List.mem_singleton.2 rfl, ?_⟩
      rw [e1] at h; rw [e2]
      simp only [List.mem_cons, List.not_mem_nil, or_false] at h ⊢
      tauto
    · rintro ⟨c, hc, h⟩
      rw [List.mem_singleton.1 hc, e2] at h
      rw [e1]
      simp only [List.mem_cons, List.not_mem_nil, or_false] at h ⊢
      tauto
  · intro c hc
    rw [List.mem_singleton.1 hc]
    refine ⟨⟨_, hd (.struct "DoItRequest" _) (.tail _ (.head _)), ?_, by simp [wireCall]⟩,
      ⟨_, hd (.struct "DoItResponse" _) (.tail _ (.tail _ (.head _))), ?_⟩, by decide, ?_, by decide, ?_⟩
    · intro a ha
      simp only [wireCall, List.mem_cons, List.not_mem_nil, or_false] at ha
      rcases ha with rfl | rfl
      · exact ⟨_, .head _, rfl, .integer (.inl (by decide))⟩
      · exact ⟨_, .tail _ (.head _), rfl, .text (.inl (by decide))⟩
    · intro o ho
      simp only [wireCall, List.mem_cons, List.not_mem_nil, or_false] at ho
      rcases ho with rfl | rfl
      · exact ⟨⟨_, .head _, rfl, rfl⟩, by decide +kernel⟩
      · exact ⟨_, .tail _ (.head _), rfl, rfl⟩
    · intro x hx
      simp only [wireCall, List.mem_cons, List.not_mem_nil, or_false] at hx
      subst hx
      exact .pointer (by decide +kernel) (by decide)
    · have : (∀ c ∈ wireCall.path.toList, c ≠ '"' ∧ c ≠ '\\' ∧ c ≠ '\n') ∧ (∀ c ∈ wireCall.verb.toList, c ≠ '"' ∧ c ≠ '\\' ∧ c ≠ '\n') ∧
        ∀ a ∈ wireCall.args, ∀ c ∈ a.name.toList, c ≠ '"' ∧ c ≠ '\\' ∧ c ≠ '\n' := by decide +kernel
      exact this

/-- The fields of a request for the example. -/
def wireVals (limit : Int) : String → GoVal Unit Unit := fun f => if f = "Limit" then .int limit else .text "ab"

/-- The hypotheses of C98 are met: there is an accepted source whose types, server and client are generated and respect the rules of Go, with an
action whose inputs can be sent and whose outputs have different headers, and values that can be sent. -/
theorem C98_example : ∃ m, Accepted tens m ∧ ∃ f sv cl, goModel m { name := "Crudl" } = .ok f ∧ goServer m { name := "Crudl" } someGoLib = .ok sv ∧
    goClient m { name := "Crudl" } = .ok cl ∧ GoCompiles f ∧ GoServerCompiles f sv ∧ GoClientCompiles f true cl ∧
    ∃ hd g c e, m.schema.http[0]? = some hd ∧ sv.handlers[0]? = some g ∧ cl.calls[0]? = some c ∧ hd.expected = some e ∧ GoSendable hd ∧ HeadersDiffer e ∧
      hd.inputs.length = 2 ∧ ∀ rd net, ∀ p ∈ hd.inputs, Sendable someGoLib rd net m.schema p (wireVals 5 (capitalize p.field.name)) := by
  obtain ⟨m, h1, h2, h3, h4, h5⟩ := wireSource_ok
  refine ⟨m, h1, _, _, _, h2, h3, h4, wireFile_compiles, wireServer_compiles, wireClient_compiles, ?_⟩
  unfold wireShape at h5
  match hh : m.schema.http with
  | [] => rw [hh] at h5; simp at h5
  | _ :: _ :: _ => rw [hh] at h5; simp at h5
  | [hd] =>
    rw [hh] at h5
    simp only [List.map_cons, List.map_nil, List.cons.injEq, Prod.mk.injEq, and_true] at h5
    obtain ⟨h6, h7⟩ := h5
    cases he : hd.expected with
    | none => rw [he] at h7; simp at h7
    | some e =>
      rw [he] at h7
      simp only [Option.map_some, Option.some.injEq, Prod.mk.injEq] at h7
      match hi : hd.inputs with
      | [] => rw [hi] at h6; simp at h6
      | [_] => rw [hi] at h6; simp at h6
      | _ :: _ :: _ :: _ => rw [hi] at h6; simp at h6
      | [p1, p2] =>
        rw [hi] at h6
        simp only [List.map_cons, List.map_nil, List.cons.injEq, Prod.mk.injEq, and_true] at h6
        obtain ⟨⟨a1, a2, a3, a4, a5⟩, b1, b2, b3, b4, b5⟩ := h6
        refine ⟨hd, wireHandler, wireCall, e, rfl, rfl, rfl, he, ⟨?_, ?_, ?_⟩, ?_, by simp [hi], ?_⟩
        · rw [hi]; simp [a4, a1, b4, b1]
        · rw [hi]
          simp only [List.mem_cons, List.not_mem_nil, or_false, forall_eq_or_imp, forall_eq, a1, b1]
          exact ⟨fun _ c hc => .inl (by revert c; decide), fun _ c hc => .inl (by revert c; decide)⟩
        · rw [hi]; simp [a4, a1, b4, b1]
        · obtain ⟨_, h8⟩ := h7
          unfold HeadersDiffer
          match ho : e.outputs with
          | [] => rw [ho] at h8; simp at h8
          | [_] => rw [ho] at h8; simp at h8
          | _ :: _ :: _ :: _ => rw [ho] at h8; simp at h8
          | [o1, o2] =>
            rw [ho] at h8
            simp only [List.map_cons, List.map_nil, List.cons.injEq, and_true] at h8
            simp [h8.1, h8.2]
        · intro rd net p hp
          rw [hi] at hp
          simp only [List.mem_cons, List.not_mem_nil, or_false] at hp
          rcases hp with rfl | rfl
          · have e1 : wireVals 5 (capitalize p.field.name) = .int 5 := by
              rw [a1]; unfold wireVals; rw [if_pos (by decide +kernel : capitalize "limit" = "Limit")]
            rw [e1]
            exact .int (bits := 32) (by rw [a4]; decide) (by rw [a2]; decide) (by decide) (by decide) (fun h => absurd h (by decide))
          · have e1 : wireVals 5 (capitalize p.field.name) = .text "ab" := by
              rw [b1]; unfold wireVals; rw [if_neg (by decide +kernel : ¬ capitalize "name" = "Limit")]
            rw [e1]
            exact .text (by rw [b4]; decide) (by rw [b2]; exact ofKind_base (by decide)) (fun c hc => .inl (by revert c; decide)) (fun h => absurd h (by decide))

/-- What a user would expect is false: zero is not sent, so the implementation, which here answers with an error that holds what it is given,
gets the default of the parameter instead. -/
theorem C98_refuted_zero : ∃ m, Accepted tens m ∧ ∃ f sv cl, goModel m { name := "Crudl" } = .ok f ∧ goServer m { name := "Crudl" } someGoLib = .ok sv ∧
    goClient m { name := "Crudl" } = .ok cl ∧ ∃ g c, sv.handlers = [g] ∧ cl.calls = [c] ∧ wireVals 0 "Limit" = .int 0 ∧
    ∀ (rd : GoReads Unit Unit) (net : GoNet Unit Unit) header var, net.Decodes →
      RunHandler rd (fun fields => GoAnswer.error (.ident "Error") fields) g
        (ArrivesAs net (wireVals 0) (SendCall net "http://host" (wireVals 0) c) header var) =
      (GoReply.exception 500 [("Limit", .int 10), ("Name", .text "ab")] : GoReply Unit _) := by
  obtain ⟨m, h1, h2, h3, h4, h5⟩ := wireSource_ok
  refine ⟨m, h1, _, _, _, h2, h3, h4, wireHandler, wireCall, rfl, rfl, rfl, fun rd net header var hnet => ?_⟩
  have e1 : SendCall net "http://host" (wireVals 0) wireCall = ⟨"GET", "http://host/items?name=ab", none, false⟩ := rfl
  have e2 : QueryParts "http://host/items?name=ab" = ["name=ab".toList] := by decide +kernel
  have e3 : QueryPart net "name=ab".toList = some ("name", "ab") := by
    unfold QueryPart
    have d1 : List.takeWhile (fun x => decide (x ≠ '=')) "name=ab".toList = "name".toList := by decide +kernel
    have d2 : (List.dropWhile (fun x => decide (x ≠ '=')) "name=ab".toList).drop 1 = "ab".toList := by decide +kernel
    rw [d1, d2, hnet "name".toList (fun c hc => .inl (by revert c; decide)), hnet "ab".toList (fun c hc => .inl (by revert c; decide))]
    simp
  rw [e1]
  unfold RunHandler ArrivesAs
  have f1 : QueryValue net "http://host/items?name=ab" "limit" = "" := by
    unfold QueryValue; rw [e2, List.filterMap_cons, e3]; rfl
  have f2 : QueryValue net "http://host/items?name=ab" "name" = "ab" := by
    unfold QueryValue; rw [e2, List.filterMap_cons, e3]; rfl
  have f3 : (QueryParts "http://host/items?name=ab").all (fun part => (QueryPart net part).isSome) = true := by
    rw [e2, List.all_cons, e3]; rfl
  simp only [f3, wireHandler, GoFill, ExprValue, SourceText, f1, f2]
  rfl

end Sadl.Props
