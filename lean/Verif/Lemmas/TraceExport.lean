import Verif.Lemmas.Trace
import Verif.Spec.Paths
import Mathlib.Data.List.Forall2
/-
The printed text of a trace: its sections.
-/
namespace Sadl
open Spec

theorem occurs_refl (s : List Char) : Occurs s s := ⟨[], [], by simp⟩

theorem occurs_trans {a b c : List Char} (h1 : Occurs a b) (h2 : Occurs b c) : Occurs a c := by
  obtain ⟨p, q, rfl⟩ := h1
  obtain ⟨r, s, rfl⟩ := h2
  exact ⟨r ++ p, q ++ s, by simp⟩

theorem occurs_flatten {s : List Char} {l : List (List Char)} (h : s ∈ l) : Occurs s l.flatten := by
  obtain ⟨a, b, rfl⟩ := List.append_of_mem h
  exact ⟨a.flatten, b.flatten, by simp⟩

theorem traceSections_ok {L : TLib} {h : HttpDef} {l : List (String × TraceEx)} {text : List Char}
    (ht : traceSections L h l = .ok text) :
    ∃ secs : List (List Char), List.Forall₂ (fun p s => traceSection L h p.1 p.2 = .ok s) l secs ∧ text = secs.flatten := by
  induction l generalizing text with
  | nil =>
    simp only [traceSections, Out.ok.injEq] at ht
    exact ⟨[], .nil, by simp [← ht]⟩
  | cons p r ih =>
    obtain ⟨n, d⟩ := p
    unfold traceSections at ht
    cases h1 : traceSection L h n d with
    | err e => simp [h1] at ht
    | panic e => simp [h1] at ht
    | ok s =>
      cases h2 : traceSections L h r with
      | err e => simp [h1, h2] at ht
      | panic e => simp [h1, h2] at ht
      | ok t =>
        simp only [h1, h2, Out.bind_ok, Out.ok.injEq] at ht
        obtain ⟨secs, i1, i2⟩ := ih h2
        exact ⟨s :: secs, .cons h1 i1, by simp [← ht, i2]⟩

theorem traceActions_ok {L : TLib} {order : GoMap TraceEx → GoMap TraceEx} {m : Model} {l : List HttpDef} {text : List Char}
    (ht : traceActions L order m l = .ok text) :
    ∃ parts : List (List Char), List.Forall₂ (fun h s => generateHttpTrace L order m h = .ok s) l parts ∧
      text = parts.flatMap (· ++ ['\n']) := by
  induction l generalizing text with
  | nil =>
    simp only [traceActions, Out.ok.injEq] at ht
    exact ⟨[], .nil, by simp [← ht]⟩
  | cons h r ih =>
    unfold traceActions at ht
    cases h1 : generateHttpTrace L order m h with
    | err e => simp [h1] at ht
    | panic e => simp [h1] at ht
    | ok s =>
      cases h2 : traceActions L order m r with
      | err e => simp [h1, h2] at ht
      | panic e => simp [h1, h2] at ht
      | ok t =>
        simp only [h1, h2, Out.bind_ok, Out.ok.injEq] at ht
        obtain ⟨parts, i1, i2⟩ := ih h2
        exact ⟨s :: parts, .cons h1 i1, by simp [← ht, i2]⟩

theorem request_ne_response (a : String) : a ++ "Request" ≠ a ++ "Response" := by
  intro h
  have := congrArg String.toList h
  simp [String.toList_append] at this

theorem traceAnswer_iff (h : HttpDef) (e : ExampleDef) :
    traceAnswer (capitalize h.name ++ "Request") (capitalize h.name ++ "Response") h.exceptions e ↔
      IsExpected h e ∨ IsRefusal h e := by
  unfold traceAnswer IsRefusal IsExpected IsRequest
  constructor
  · rintro ⟨h1, h2 | h2⟩
    · exact .inl h2
    · by_cases h3 : e.target = capitalize h.name ++ "Response"
      · exact .inl h3
      · exact .inr ⟨h1, h3, h2⟩
  · rintro (h1 | ⟨h1, h2, h3⟩)
    · exact ⟨fun h2 => request_ne_response _ (h2.symm.trans h1), .inl h1⟩
    · exact ⟨h1, .inr h3⟩

theorem traceException_iff (h : HttpDef) (e : ExampleDef) (n : String) :
    (traceAnswer (capitalize h.name ++ "Request") (capitalize h.name ++ "Response") h.exceptions e ∧
      e.target ≠ capitalize h.name ++ "Response" ∧ e.name = n) ↔ (IsRefusal h e ∧ e.name = n) := by
  rw [traceAnswer_iff]
  constructor
  · rintro ⟨h1 | h1, h2, h3⟩
    · exact absurd h1 h2
    · exact ⟨h1, h3⟩
  · rintro ⟨h1, h2⟩
    exact ⟨.inr h1, h1.2.1, h2⟩

/-- What the section of an example is made from. -/
structure Entry (s : Schema) (h : HttpDef) (n : String) (d : TraceEx) : Prop where
  req : ∃ ex, LastWith (fun e => IsRequest h e ∧ e.name = n) s.examples ex ∧ ex.example = .obj d.req
  none : (∀ e ∈ s.examples, ¬ ((IsExpected h e ∨ IsRefusal h e) ∧ e.name = n)) → d.res = none
  some : ∀ e, LastWith (fun e => (IsExpected h e ∨ IsRefusal h e) ∧ e.name = n) s.examples e →
    ∃ kvs, e.example = .obj kvs ∧ d.res = some kvs
  noExc : (∀ e ∈ s.examples, ¬ (IsRefusal h e ∧ e.name = n)) → d.exc = Option.none
  exc : ∀ e x, LastWith (fun e => IsRefusal h e ∧ e.name = n) s.examples e →
    LastWith (fun x => x.type = e.target) h.exceptions x → d.exc = Option.some x

/-- The sections of an action: one for each name of a request example. -/
theorem generate_ok {L : TLib} {order : GoMap TraceEx → GoMap TraceEx} {m : Model} {h : HttpDef} {text : List Char}
    (ht : generateHttpTrace L order m h = .ok text) :
    ∃ (named : GoMap TraceEx) (secs : List (List Char)), named.Distinct ∧
      (∀ n, n ∈ named.map Prod.fst ↔ ∃ ex ∈ m.schema.examples, IsRequest h ex ∧ ex.name = n) ∧
      (∀ n d, (n, d) ∈ named → Entry m.schema h n d) ∧
      List.Forall₂ (fun p s => traceSection L h p.1 p.2 = .ok s) (order named) secs ∧ text = secs.flatten := by
  unfold generateHttpTrace at ht
  cases h1 : traceRequests (capitalize h.name ++ "Request") m.schema.examples [] with
  | err e => simp [h1] at ht
  | panic e => simp [h1] at ht
  | ok a =>
    cases h2 : traceResponses (capitalize h.name ++ "Request") (capitalize h.name ++ "Response") h.exceptions m.schema.examples a with
    | err e => simp [h1, h2] at ht
    | panic e => simp [h1, h2] at ht
    | ok b =>
      simp only [h1, h2, Out.bind_ok] at ht
      obtain ⟨secs, s1, s2⟩ := traceSections_ok ht
      obtain ⟨r1, r2, r3, r4⟩ := traceRequests_ok h1
      obtain ⟨q1, q2, q3⟩ := traceResponses_ok h2
      have hda : a.Distinct := r2 (by simp [GoMap.Distinct])
      have hdb : b.Distinct := by unfold GoMap.Distinct at *; rw [q1]; exact hda
      have keys : ∀ n, n ∈ a.map Prod.fst ↔ ∃ ex ∈ m.schema.examples, IsRequest h ex ∧ ex.name = n := by
        intro n
        constructor
        · intro hn
          by_contra hc
          have := r3 n (fun e he hh => hc ⟨e, he, hh.1, hh.2⟩)
          rw [mget] at this
          exact (mget_none_iff _ _).1 this hn
        · rintro ⟨ex, he, ht, hn⟩
          obtain ⟨x, hx⟩ := lastWith_exists (p := fun e : ExampleDef => e.target = capitalize h.name ++ "Request" ∧ e.name = n)
            ⟨ex, he, ht, hn⟩
          obtain ⟨kvs, hk⟩ := r1 x (lastWith_mem hx).1 (lastWith_mem hx).2.1
          by_contra hc
          have h3 := r4 n x kvs hx hk
          rw [(mget_none_iff _ _).2 hc] at h3
          cases h3
      refine ⟨b, secs, hdb, fun n => by rw [q1]; exact keys n, ?_, s1, s2⟩
      intro n d hmem
      have hna : n ∈ a.map Prod.fst := by rw [← q1]; exact List.mem_map.2 ⟨_, hmem, rfl⟩
      obtain ⟨ex, he, ht', hn⟩ := (keys n).1 hna
      obtain ⟨x, hx⟩ := lastWith_exists (p := fun e : ExampleDef => e.target = capitalize h.name ++ "Request" ∧ e.name = n)
        ⟨ex, he, ht', hn⟩
      obtain ⟨kvs, hk⟩ := r1 x (lastWith_mem hx).1 (lastWith_mem hx).2.1
      have ha := r4 n x kvs hx hk
      obtain ⟨d', j1, j2, j3, j4, j5, j6⟩ := q3 n _ ha
      have : d' = d := by
        have := mget_of_mem hdb hmem
        rw [j1] at this
        exact Option.some.inj this
      subst this
      have ean : (fun e : ExampleDef => traceAnswer (capitalize h.name ++ "Request") (capitalize h.name ++ "Response") h.exceptions e ∧ e.name = n) =
          fun e => (IsExpected h e ∨ IsRefusal h e) ∧ e.name = n := by
        funext e; rw [traceAnswer_iff]
      have eex : (fun e : ExampleDef => traceAnswer (capitalize h.name ++ "Request") (capitalize h.name ++ "Response") h.exceptions e ∧
          e.target ≠ capitalize h.name ++ "Response" ∧ e.name = n) = fun e => IsRefusal h e ∧ e.name = n := by
        funext e; rw [traceException_iff]
      rw [ean] at j4
      rw [eex] at j6
      refine ⟨⟨x, hx, by rw [hk, j2]⟩, ?_, ?_, ?_, j6⟩
      · intro hno
        rw [j3 (fun e he hh => hno e he ⟨(traceAnswer_iff h e).1 hh.1, hh.2⟩)]
      · intro e hl
        obtain ⟨hm, hp, hn'⟩ := lastWith_mem hl
        obtain ⟨kv, hkv⟩ := q2 e hm ((traceAnswer_iff h e).2 hp) (by rw [hn', ha]; rfl)
        exact ⟨kv, hkv, j4 e kv hl hkv⟩
      · intro hno
        rw [j5 (fun e he hh => hno e he ((traceException_iff h e n).1 hh))]

end Sadl
