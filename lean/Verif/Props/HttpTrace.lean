import Verif.Lemmas.TraceMessage
import Verif.Props.Accepted
/-
C75–C78: traces of HTTP exchanges made from the examples of a schema.
-/
namespace Sadl.Props
open Sadl Sadl.Spec

/-! ### C75: the export does not crash -/

/-- The value is a JSON object. -/
def IsObject (v : Value) : Prop := ∃ kvs, v = .obj kvs

/-- The examples of the action make the export crash. -/
def TraceCrash (s : Schema) (h : HttpDef) : Prop :=
  (∃ ex ∈ s.examples, IsRequest h ex ∧ ¬ IsObject ex.example) ∨
  ∃ rq ∈ s.examples, IsRequest h rq ∧ ∃ ex ∈ s.examples, ex.name = rq.name ∧ (IsExpected h ex ∨ IsRefusal h ex) ∧
    (¬ IsObject ex.example ∨ h.expected = none)

theorem traceSection_cases (L : TLib) (h : HttpDef) (n : String) (d : TraceEx) :
    (∃ s, traceSection L h n d = .ok s) ∧ (d.res = none ∨ ∃ e, h.expected = some e) ∨
    (∃ msg, traceSection L h n d = .panic msg) ∧ d.res ≠ none ∧ h.expected = none := by
  unfold traceSection
  cases hr : d.res with
  | none => exact .inl ⟨⟨_, rfl⟩, .inl rfl⟩
  | some res =>
    cases he : h.expected with
    | none => exact .inr ⟨⟨_, by simp [traceResponse, he]; rfl⟩, by simp, rfl⟩
    | some e =>
      refine .inl ⟨?_, .inr ⟨e, rfl⟩⟩
      simp only [traceResponse, he]
      exact ⟨_, rfl⟩

theorem traceSections_cases (L : TLib) (h : HttpDef) (l : List (String × TraceEx)) :
    (∃ s, traceSections L h l = .ok s) ∧ (∀ p ∈ l, p.2.res = none ∨ ∃ e, h.expected = some e) ∨
    (∃ msg, traceSections L h l = .panic msg) ∧ ∃ p ∈ l, p.2.res ≠ none ∧ h.expected = none := by
  induction l with
  | nil => exact .inl ⟨⟨_, rfl⟩, by simp⟩
  | cons p r ih =>
    obtain ⟨n, d⟩ := p
    unfold traceSections
    rcases traceSection_cases L h n d with ⟨⟨s, hs⟩, h1⟩ | ⟨⟨msg, hs⟩, h1⟩
    · rw [hs]
      rcases ih with ⟨⟨t, ht⟩, h2⟩ | ⟨⟨msg, ht⟩, p, hp, h2⟩
      · rw [ht]
        refine .inl ⟨⟨_, rfl⟩, ?_⟩
        intro p hp
        rcases List.mem_cons.1 hp with rfl | hp
        · exact h1
        · exact h2 p hp
      · rw [ht]
        exact .inr ⟨⟨_, rfl⟩, p, List.mem_cons_of_mem _ hp, h2⟩
    · rw [hs]
      exact .inr ⟨⟨_, rfl⟩, (n, d), List.mem_cons_self, h1⟩

theorem generate_cases (L : TLib) (order : GoMap TraceEx → GoMap TraceEx) (ho : ∀ g, (order g).Perm g) (m : Model) (h : HttpDef) :
    (∃ s, generateHttpTrace L order m h = .ok s) ∧ ¬ TraceCrash m.schema h ∨
    (∃ msg, generateHttpTrace L order m h = .panic msg) ∧ TraceCrash m.schema h := by
  unfold generateHttpTrace
  rcases traceRequests_fails (rt := capitalize h.name ++ "Request") (l := m.schema.examples) (acc := []) with
    ⟨a, ha⟩ | ⟨⟨msg, ha⟩, e, he, ht, hk⟩
  swap
  · rw [ha]
    exact .inr ⟨⟨msg, rfl⟩, .inl ⟨e, he, ht, fun ⟨kvs, hc⟩ => hk kvs hc⟩⟩
  obtain ⟨r1, r2, r3, r4⟩ := traceRequests_ok ha
  have keys : ∀ n, n ∈ a.map Prod.fst ↔ ∃ ex ∈ m.schema.examples, IsRequest h ex ∧ ex.name = n := by
    intro n
    constructor
    · intro hn
      by_contra hc
      have := r3 n (fun e he hh => hc ⟨e, he, hh.1, hh.2⟩)
      rw [mget] at this
      exact (mget_none_iff _ _).1 this hn
    · rintro ⟨ex, he, ht, hn⟩
      obtain ⟨x, hx⟩ := lastWith_exists (p := fun e : ExampleDef => e.target = capitalize h.name ++ "Request" ∧ e.name = n)
        ⟨ex, he, ht, hn⟩
      obtain ⟨kvs, hk⟩ := r1 x (lastWith_mem hx).1 (lastWith_mem hx).2.1
      by_contra hc
      have h3 := r4 n x kvs hx hk
      rw [(mget_none_iff _ _).2 hc] at h3
      cases h3
  rw [ha, Out.bind_ok]
  rcases traceResponses_fails (rt := capitalize h.name ++ "Request") (st := capitalize h.name ++ "Response")
    (xs := h.exceptions) (l := m.schema.examples) (acc := a) with ⟨b, hb⟩ | ⟨⟨msg, hb⟩, e, he, ht, hn, hk⟩
  swap
  · rw [hb]
    obtain ⟨rq, hrq, h1, h2⟩ := (keys e.name).1 hn
    exact .inr ⟨⟨msg, rfl⟩, .inr ⟨rq, hrq, h1, e, he, h2.symm, (traceAnswer_iff h e).1 ht, .inl fun ⟨kvs, hc⟩ => hk kvs hc⟩⟩
  rw [hb, Out.bind_ok]
  obtain ⟨q1, q2, q3⟩ := traceResponses_ok hb
  have hdb : b.Distinct := by
    have : a.Distinct := r2 (by simp [GoMap.Distinct])
    unfold GoMap.Distinct at *; rw [q1]; exact this
  -- an entry with a response
  have hres : (∃ p ∈ order b, p.2.res ≠ none) ↔
      ∃ rq ∈ m.schema.examples, IsRequest h rq ∧ ∃ ex ∈ m.schema.examples, ex.name = rq.name ∧ (IsExpected h ex ∨ IsRefusal h ex) := by
    constructor
    · rintro ⟨⟨n, d⟩, hp, hd⟩
      have hp := (ho b).mem_iff.1 hp
      have hna : n ∈ a.map Prod.fst := by rw [← q1]; exact List.mem_map.2 ⟨_, hp, rfl⟩
      obtain ⟨rq, hrq, h1, h2⟩ := (keys n).1 hna
      refine ⟨rq, hrq, h1, ?_⟩
      by_contra hc
      obtain ⟨x, hx⟩ := lastWith_exists (p := fun e : ExampleDef => e.target = capitalize h.name ++ "Request" ∧ e.name = n)
        ⟨rq, hrq, h1, h2⟩
      obtain ⟨kvs, hk⟩ := r1 x (lastWith_mem hx).1 (lastWith_mem hx).2.1
      obtain ⟨d', j1, j2, j3, _⟩ := q3 n _ (r4 n x kvs hx hk)
      have : d' = d := by
        have := mget_of_mem hdb hp
        rw [j1] at this
        exact Option.some.inj this
      subst this
      apply hd
      rw [j3 (fun e he hh => hc ⟨e, he, by rw [hh.2, h2], (traceAnswer_iff h e).1 hh.1⟩)]
    · rintro ⟨rq, hrq, h1, ex, hex, h2, h3⟩
      obtain ⟨x, hx⟩ := lastWith_exists (p := fun e : ExampleDef => e.target = capitalize h.name ++ "Request" ∧ e.name = rq.name)
        ⟨rq, hrq, h1, rfl⟩
      obtain ⟨kvs, hk⟩ := r1 x (lastWith_mem hx).1 (lastWith_mem hx).2.1
      have hxa := r4 rq.name x kvs hx hk
      obtain ⟨d', j1, _, _, j4, _⟩ := q3 rq.name _ hxa
      obtain ⟨y, hy⟩ := lastWith_exists (p := fun e : ExampleDef => traceAnswer (capitalize h.name ++ "Request")
        (capitalize h.name ++ "Response") h.exceptions e ∧ e.name = rq.name) ⟨ex, hex, (traceAnswer_iff h ex).2 h3, h2⟩
      obtain ⟨hy1, hy2, hy3⟩ := lastWith_mem hy
      obtain ⟨kv, hkv⟩ := q2 y hy1 hy2 (by rw [hy3, hxa]; rfl)
      exact ⟨(rq.name, d'), (ho b).mem_iff.2 (mget_mem j1), by rw [j4 y kv hy hkv]; simp⟩
  rcases traceSections_cases L h (order b) with ⟨hs, h1⟩ | ⟨hs, p, hp, h1, h2⟩
  · refine .inl ⟨hs, ?_⟩
    rintro (⟨ex, hex, h2, h3⟩ | ⟨rq, hrq, h2, ex, hex, h3, h4, h5⟩)
    · exact h3 (r1 ex hex h2)
    · rcases h5 with h5 | h5
      · refine h5 (q2 ex hex ((traceAnswer_iff h ex).2 h4) ?_)
        rw [Option.isSome_iff_ne_none]
        intro hc
        exact (mget_none_iff _ _).1 hc ((keys ex.name).2 ⟨rq, hrq, h2, h3.symm⟩)
      · obtain ⟨p, hp, hpr⟩ := hres.2 ⟨rq, hrq, h2, ex, hex, h3, h4⟩
        rcases h1 p hp with h6 | ⟨e, h6⟩
        · exact hpr h6
        · rw [h5] at h6; cases h6
  · refine .inr ⟨hs, .inr ?_⟩
    obtain ⟨rq, hrq, h3, ex, hex, h4, h5⟩ := hres.1 ⟨p, hp, h1⟩
    exact ⟨rq, hrq, h3, ex, hex, h4, h5, .inr h2⟩

/-- C75, exactly: for every model and every order in which Go enumerates maps, printing the
traces succeeds unless the examples of an action make it crash: a request example, or a response
example with the name of a request example, is not an object, or there is such a response although
the action has no `expect`.  It never reports an error. -/
theorem C75_crash_iff (L : TLib) (order : GoMap TraceEx → GoMap TraceEx) (ho : ∀ g, (order g).Perm g) (m : Model) :
    ((∃ text, traceExport L order m = .ok text) ↔ ∀ h ∈ m.schema.http, ¬ TraceCrash m.schema h) ∧
    ((∃ msg, traceExport L order m = .panic msg) ↔ ∃ h ∈ m.schema.http, TraceCrash m.schema h) := by
  have key : ∀ l : List HttpDef, (∃ text, traceActions L order m l = .ok text) ∧ (∀ h ∈ l, ¬ TraceCrash m.schema h) ∨
      (∃ msg, traceActions L order m l = .panic msg) ∧ ∃ h ∈ l, TraceCrash m.schema h := by
    intro l
    induction l with
    | nil => exact .inl ⟨⟨_, rfl⟩, by simp⟩
    | cons h r ih =>
      unfold traceActions
      rcases generate_cases L order ho m h with ⟨⟨s, hs⟩, h1⟩ | ⟨⟨msg, hs⟩, h1⟩
      · rw [hs]
        rcases ih with ⟨⟨t, ht⟩, h2⟩ | ⟨⟨msg, ht⟩, p, hp, h2⟩
        · rw [ht]
          refine .inl ⟨⟨_, rfl⟩, ?_⟩
          intro p hp
          rcases List.mem_cons.1 hp with rfl | hp
          · exact h1
          · exact h2 p hp
        · rw [ht]
          exact .inr ⟨⟨_, rfl⟩, p, List.mem_cons_of_mem _ hp, h2⟩
      · rw [hs]
        exact .inr ⟨⟨_, rfl⟩, h, List.mem_cons_self, h1⟩
  unfold traceExport
  rcases key m.schema.http with ⟨⟨t, ht⟩, h1⟩ | ⟨⟨msg, ht⟩, h, hh, h1⟩
  · refine ⟨⟨fun _ => h1, fun _ => ⟨t, ht⟩⟩, ⟨?_, fun ⟨h, hh, hc⟩ => absurd hc (h1 h hh)⟩⟩
    rintro ⟨msg, hm⟩
    rw [ht] at hm; cases hm
  · refine ⟨⟨?_, fun hc => absurd h1 (hc h hh)⟩, ⟨fun _ => ⟨h, hh, h1⟩, fun _ => ⟨msg, ht⟩⟩⟩
    rintro ⟨t, hm⟩
    rw [ht] at hm; cases hm

/-- C75: the traces of an accepted model are printed, if every action has an `expect`, exceptions are struct types, and no type or field has the name of the request or the
response of an action.  For other models, see the refutations. -/
theorem C75_accepted (lib : PLib) (m : Model) (hacc : Accepted lib m) (L : TLib)
    (order : GoMap TraceEx → GoMap TraceEx) (ho : ∀ g, (order g).Perm g)
    (h1 : ∀ h ∈ m.schema.http, h.expected ≠ none)
    (h2 : ∀ h ∈ m.schema.http, ∀ x ∈ h.exceptions, ∀ ts, Defines m.schema x.type ts → ts.type = "Struct")
    (h3 : ∀ h ∈ m.schema.http, ∀ ts, ¬ Target m.schema (capitalize h.name ++ "Request") ts ∧
      ¬ Target m.schema (capitalize h.name ++ "Response") ts) :
    ∃ text, traceExport L order m = .ok text := by
  have hv := C53_accepted_valid lib m hacc
  rw [(C75_crash_iff L order ho m).1]
  intro h hh
  have hreq : ∀ ex ∈ m.schema.examples, IsRequest h ex → IsObject ex.example := by
    intro ex hex hr
    cases hv.examples ex hex with
    | type ht _ => rw [hr] at ht; exact absurd ht (h3 h hh _).1
    | request _ _ _ _ hp => obtain ⟨kvs, hk, _⟩ := hp; exact ⟨kvs, hk⟩
    | response _ _ _ _ _ hp => obtain ⟨kvs, hk, _⟩ := hp; exact ⟨kvs, hk⟩
  rintro (⟨ex, hex, hr, hk⟩ | ⟨rq, hrq, hr, ex, hex, hn, he, hk⟩)
  · exact hk (hreq ex hex hr)
  · rcases he with he | ⟨_, _, x, hx, ht⟩
    · cases hv.examples ex hex with
      | type ht _ => rw [he] at ht; exact absurd ht (h3 h hh _).2
      | request _ htg _ _ _ =>
        -- a target cannot end in both
        exfalso
        have := htg.symm.trans he
        have e1 := congrArg (fun s : String => s.toList.reverse.take 7) this
        simp [String.toList_append] at e1
      | response _ _ _ _ _ hp =>
        obtain ⟨kvs, hk', _⟩ := hp
        rcases hk with hk | hk
        · exact hk ⟨kvs, hk'⟩
        · exact h1 h hh hk
    · have hexp := h1 h hh
      rcases hk with hk | hk
      · obtain ⟨e, he'⟩ := Option.ne_none_iff_exists'.1 hexp
        obtain ⟨ts, hd⟩ := (hv.http h hh).exceptionTypes e he' x hx
        have hst := h2 h hh x hx
        apply hk
        cases hv.examples ex hex with
        | type htg hc =>
          cases htg with
          | type hd' =>
            rw [← ht] at hd'
            have hs := hst _ hd'
            cases hc <;> simp_all [IsObject, NumericNames, MeaningfulNames]
          | field hnk _ _ _ _ _ _ _ _ => exact absurd ⟨ts, ht ▸ hd⟩ hnk
        | request hno _ _ _ _ => exact absurd (.type (ht ▸ hd)) (hno ts)
        | response hno _ _ _ _ _ => exact absurd (.type (ht ▸ hd)) (hno ts)
      · exact hexp hk

/-- A library for examples. -/
def noTrace : TLib :=
  { json := { showFloat := fun _ => [], parseFloat := fun _ => none, showDecimal := fun _ => "7",
              encodeOther := fun _ => none, sprint := fun _ => "" }
    statusText := fun s => if s = 200 then "OK" else "Not Found"
    date := fun _ => "now" }

/-- Does the export succeed and print what satisfies the test? -/
def traced (m : Model) (p : List Char → Bool) : Bool :=
  match traceExport noTrace id m with
  | .ok t => p t
  | _ => false

/-- Does the export crash? -/
def traceCrashes (m : Model) : Bool :=
  match traceExport noTrace id m with
  | .panic _ => true
  | _ => false

theorem crash_of {m : Model} (h : traceCrashes m = true) : ∃ h ∈ m.schema.http, TraceCrash m.schema h := by
  refine (C75_crash_iff noTrace id (fun _ => List.Perm.refl _) m).2.1 ?_
  unfold traceCrashes at h
  split at h
  · next msg hm => exact ⟨msg, hm⟩
  · cases h

/-- `http GET "/x/{id}" (action=getX) { id String  expect 200 { s S }  except 404 S }`,
`type S Struct { a String }` and an exchange. -/
def exchangeSource (id : String) : List Token :=
  [sym "type", sym "S", sym "Struct", punct .openBrace, nl, sym "a", sym "String", nl, punct .closeBrace, nl,
   sym "http", sym "GET", str "/x/{id}", punct .openParen, sym "action", punct .equals, sym "getX", punct .closeParen,
   punct .openBrace, nl, sym "id", sym "String", nl,
   sym "expect", num "200", punct .openBrace, nl, sym "s", sym "S", nl, punct .closeBrace, nl,
   sym "except", num "404", sym "S", nl,
   punct .closeBrace, nl,
   sym "example", sym "GetXRequest", punct .openBrace, str "id", punct .colon, str id, punct .closeBrace, nl,
   sym "example", sym "GetXResponse", punct .openBrace, str "s", punct .colon, punct .openBrace, str "a", punct .colon, str "y",
   punct .closeBrace, punct .closeBrace, nl]

/-- No type or field has a name without a dot that no type has. -/
theorem not_target {s : Schema} {n : String} (h1 : ∀ td ∈ s.types, td.name ≠ n) (h2 : n ∉ BaseTypes) (h3 : '.' ∉ n.toList) (ts : TypeSpec) :
    ¬ Target s n ts := by
  intro h
  cases h with
  | type hd => exact not_known h1 h2 ⟨ts, hd⟩
  | field _ e _ _ _ _ _ _ _ => exact h3 (by rw [e]; simp [String.toList_append])

/-- The hypotheses of `C75_accepted` are met. -/
theorem exchange_accepted (id : String) (p : Model → Bool)
    (h : accepts noLib (exchangeSource id) (fun m => p m && (m.schema.http.map (·.name) == ["getX"] &&
      m.schema.types.map (fun t => (t.name, t.ts.type)) == [("S", "Struct")] &&
      m.schema.http.all fun h => h.expected.isSome && h.exceptions.map (·.type) == ["S"])) = true) :
    ∃ m, Accepted noLib m ∧ p m = true ∧ (∀ h ∈ m.schema.http, h.expected ≠ none) ∧
      (∀ h ∈ m.schema.http, ∀ x ∈ h.exceptions, ∀ ts, Defines m.schema x.type ts → ts.type = "Struct") ∧
      (∀ h ∈ m.schema.http, ∀ ts, ¬ Target m.schema (capitalize h.name ++ "Request") ts ∧
        ¬ Target m.schema (capitalize h.name ++ "Response") ts) := by
  obtain ⟨m, h1, h2⟩ := accepted_of noLib (exchangeSource id) _ (by simp [exchangeSource, sym, str, num, nl, punct]) h
  simp only [Bool.and_eq_true, List.all_eq_true, beq_iff_eq, Option.isSome_iff_ne_none] at h2
  obtain ⟨hp, ⟨hn, ht⟩, hx⟩ := h2
  have hname : ∀ h ∈ m.schema.http, h.name = "getX" := by
    intro h hh
    have : h.name ∈ m.schema.http.map (·.name) := List.mem_map.2 ⟨h, hh, rfl⟩
    rw [hn] at this
    simpa using this
  have htype : ∀ td ∈ m.schema.types, td.name = "S" ∧ td.ts.type = "Struct" := by
    intro td htd
    have : (td.name, td.ts.type) ∈ m.schema.types.map (fun t => (t.name, t.ts.type)) := List.mem_map.2 ⟨td, htd, rfl⟩
    rw [ht] at this
    simpa using this
  refine ⟨m, h1, hp, fun h hh => (hx h hh).1, ?_, ?_⟩
  · intro h hh x hxm ts hd
    have : x.type ∈ h.exceptions.map (·.type) := List.mem_map.2 ⟨x, hxm, rfl⟩
    rw [(hx h hh).2] at this
    have hS : x.type = "S" := by simpa using this
    rcases hd with ⟨td, htd, _, rfl⟩ | ⟨hb, _⟩
    · exact (htype td htd).2
    · rw [hS] at hb; exact absurd hb (by decide)
  · intro h hh ts
    rw [hname h hh]
    constructor
    · exact not_target (fun td htd => by rw [(htype td htd).1]; decide) (by decide) (by decide) ts
    · exact not_target (fun td htd => by rw [(htype td htd).1]; decide) (by decide) (by decide) ts

example : ∃ m, Accepted noLib m ∧ m.schema.examples.length = 2 ∧ ∃ text, traceExport noTrace id m = .ok text := by
  obtain ⟨m, h1, h2, h3, h4, h5⟩ := exchange_accepted "1" (fun m => m.schema.examples.length == 2) (by decide +kernel)
  exact ⟨m, h1, by simpa using h2, C75_accepted noLib m h1 noTrace id (fun _ => List.Perm.refl _) h3 h4 h5⟩

/-- C75 refuted: `http GET "/x" (action=getX) { except 404 S }` with examples for a request and
for the exception is accepted, and makes the export crash. -/
theorem C75_refuted_no_expect : ∃ m, Accepted noLib m ∧ ∀ L order, (∀ g, (order g).Perm g) → ∃ msg, traceExport L order m = .panic msg := by
  obtain ⟨m, h1, h2⟩ := accepted_of noLib
    [sym "type", sym "S", sym "Struct", punct .openBrace, nl, sym "a", sym "String", nl, punct .closeBrace, nl,
     sym "http", sym "GET", str "/x", punct .openParen, sym "action", punct .equals, sym "getX", punct .closeParen,
     punct .openBrace, nl, sym "except", num "404", sym "S", nl, punct .closeBrace, nl,
     sym "example", sym "GetXRequest", punct .openBrace, punct .closeBrace, nl,
     sym "example", sym "S", punct .openBrace, str "a", punct .colon, str "y", punct .closeBrace, nl]
    traceCrashes (by decide +kernel) (by decide +kernel)
  exact ⟨m, h1, fun L order ho => (C75_crash_iff L order ho m).2.2 (crash_of h2)⟩

/-- C75 refuted: an exception may be a string, and examples of it make the export crash. -/
theorem C75_refuted_not_an_object : ∃ m, Accepted noLib m ∧ (∀ h ∈ m.schema.http, h.expected ≠ none) ∧
    ∀ L order, (∀ g, (order g).Perm g) → ∃ msg, traceExport L order m = .panic msg := by
  obtain ⟨m, h1, h2⟩ := accepted_of noLib
    [sym "type", sym "S", sym "String", nl,
     sym "http", sym "GET", str "/x", punct .openParen, sym "action", punct .equals, sym "getX", punct .closeParen,
     punct .openBrace, nl, sym "expect", num "204", nl, sym "except", num "404", sym "S", nl, punct .closeBrace, nl,
     sym "example", sym "GetXRequest", punct .openBrace, punct .closeBrace, nl,
     sym "example", sym "S", str "gone", nl]
    (fun m => traceCrashes m && m.schema.http.all fun h => h.expected.isSome) (by decide +kernel) (by decide +kernel)
  simp only [Bool.and_eq_true, List.all_eq_true, Option.isSome_iff_ne_none] at h2
  exact ⟨m, h1, h2.2, fun L order ho => (C75_crash_iff L order ho m).2.2 (crash_of h2.1)⟩

/-! ### C76: requests -/

/-- What precedes the request of an example. -/
def traceHead (n : String) (h : HttpDef) : List Char :=
  "#\n# ".toList ++ n.toList ++ " (action=".toList ++ h.name.toList ++ ")\n#\n#   Request:\n".toList

/-- The text of a parameter in the example: a string or a number, or nothing if it is missing. -/
def ParamText (L : JLib) (ex : GoMap Value) (n : String) (t : List Char) : Prop :=
  (∃ v, mget ex n = some v ∧ Says L v t) ∨ (mget ex n = none ∧ t = [])

theorem stringExample_says {L : TLib} {ex : GoMap Value} {n : String} {t : List Char} (h : ParamText L.json ex n t) :
    (stringExample L (mget ex n)).toList = t := by
  rcases h with ⟨v, h1, h2⟩ | ⟨h1, h2⟩
  · rw [h1]
    cases h2 <;> rfl
  · rw [h1, h2]; rfl

/-- The section of an example starts with its request. -/
theorem section_request {L : TLib} {h : HttpDef} {n : String} {d : TraceEx} {s : List Char} (hs : traceSection L h n d = .ok s) :
    Occurs (traceHead n h ++ traceRequest L h d.req ++ ['\n']) s := by
  unfold traceSection at hs
  cases hr : d.res with
  | none =>
    simp only [hr, Out.ok.injEq] at hs
    exact ⟨[], [], by rw [← hs]; simp [traceHead]⟩
  | some res =>
    simp only [hr] at hs
    cases hq : traceResponse L h n d res with
    | err e => simp [hq] at hs
    | panic e => simp [hq] at hs
    | ok r =>
      simp only [hq, Out.bind_ok, Out.ok.injEq] at hs
      exact ⟨[], "#   Response:".toList ++ '\n' :: r ++ ['\n'], by rw [← hs]; simp [traceHead]⟩

theorem forall₂_mem {α β : Type} {R : α → β → Prop} {l : List α} {k : List β} (h : List.Forall₂ R l k) {a : α} (ha : a ∈ l) :
    ∃ b ∈ k, R a b := by
  induction h with
  | nil => simp at ha
  | cons h1 _ ih =>
    rcases List.mem_cons.1 ha with rfl | ha
    · exact ⟨_, List.mem_cons_self, h1⟩
    · obtain ⟨b, hb, hr⟩ := ih ha
      exact ⟨b, List.mem_cons_of_mem _ hb, hr⟩

/-- The section of the last request example of a name occurs in what is printed. -/
theorem section_occurs {L : TLib} {order : GoMap TraceEx → GoMap TraceEx} (ho : ∀ g, (order g).Perm g) {m : Model} {text : List Char}
    (ht : traceExport L order m = .ok text) {h : HttpDef} (hh : h ∈ m.schema.http) {ex : ExampleDef} {kvs : GoMap Value}
    (hex : LastWith (fun e => IsRequest h e ∧ e.name = ex.name) m.schema.examples ex) (hk : ex.example = .obj kvs) :
    ∃ d s, d.req = kvs ∧ Entry m.schema h ex.name d ∧ traceSection L h ex.name d = .ok s ∧ Occurs s text := by
  obtain ⟨parts, p1, p2⟩ := traceActions_ok ht
  obtain ⟨part, hp, hg⟩ := forall₂_mem p1 hh
  obtain ⟨named, secs, g1, g2, g3, g4, g5⟩ := generate_ok hg
  have hn : ex.name ∈ named.map Prod.fst := (g2 ex.name).2 ⟨ex, (lastWith_mem hex).1, (lastWith_mem hex).2.1, rfl⟩
  obtain ⟨⟨n, d⟩, hd, hn'⟩ := List.mem_map.1 hn
  simp only at hn'
  subst hn'
  have hE := g3 ex.name d hd
  obtain ⟨s, hs, hsec⟩ := forall₂_mem g4 ((ho named).mem_iff.2 hd)
  refine ⟨d, s, ?_, hE, hsec, ?_⟩
  · obtain ⟨x, hx, hxk⟩ := hE.req
    rw [lastWith_unique hx hex, hk] at hxk
    cases hxk
    rfl
  · refine occurs_trans (occurs_flatten hs) (g5 ▸ ?_)
    rw [p2]
    refine occurs_trans ?_ (by
      rw [List.flatMap_def]
      exact occurs_flatten (List.mem_map.2 ⟨part, hp, rfl⟩))
    exact ⟨[], ['\n'], by simp⟩

/-- C76, for values made of unreserved characters: the trace of a request example (the last one of
its name) shows an HTTP request with the method of the action; the path of the action with the
values of the example in place of its variables, followed by the query parameters that have a
value; the headers of the action with the values of the example; and the example of the body.
Missing: values that are neither strings nor numbers, values with other characters, and request
examples followed by another one of the same name: see the refutations, and C78. -/
theorem C76_request_partial (L : TLib) (order : GoMap TraceEx → GoMap TraceEx) (ho : ∀ g, (order g).Perm g) (m : Model)
    (text : List Char) (htext : traceExport L order m = .ok text)
    (h : HttpDef) (hh : h ∈ m.schema.http) (ex : ExampleDef) (kvs : GoMap Value)
    (hex : LastWith (fun e => IsRequest h e ∧ e.name = ex.name) m.schema.examples ex) (hk : ex.example = .obj kvs)
    (ps : List Piece) (qs : List (List Char × String)) (htempl : IsTemplate h.path.toList ps qs)
    -- the variables of the path are inputs, with a value in the example
    (hin : ∀ n, Piece.var n ∈ ps ∨ (∃ k, (k, n) ∈ qs) → ∃ p ∈ h.inputs, InUri p ∧ p.field.name = n)
    (value : String → List Char)
    (hval : ∀ p ∈ h.inputs, InUri p ∨ InHeader p → ParamText L.json kvs p.field.name (value p.field.name))
    (hunres : ∀ p ∈ h.inputs, InUri p → ∀ c ∈ value p.field.name, Unreserved c)
    -- nothing of the action contains a newline or other punctuation where that has a meaning
    (hnames : ∀ p ∈ h.inputs, InUri p → '}' ∉ p.field.name.toList)
    (hheader : ∀ p ∈ h.inputs, InHeader p → ':' ∉ p.header.toList ∧ '\n' ∉ p.header.toList ∧ '\n' ∉ value p.field.name)
    (hmethod : '\n' ∉ h.method.toList) (hlits : ∀ s, Piece.lit s ∈ ps → '\n' ∉ s) (hkeys : ∀ q ∈ qs, '\n' ∉ q.1)
    (hbody : (h.inputs.filter BodyInput).length ≤ 1) :
    Occurs (traceHead ex.name h ++ traceRequest L h kvs ++ ['\n']) text ∧
      IsHttp (traceRequest L h kvs)
        { start := h.method.toList ++ " ".toList ++ targetOf value ps qs ++ " HTTP/1.1".toList
          fields := (h.inputs.filter (fun p => decide (InHeader p))).map (fun p => (p.header.toList, value p.field.name)) ++
            [("Accept".toList, "application/json".toList)]
          body := match h.inputs.find? BodyInput with
            | none => []
            | some p => (prettyText L.json ((mget kvs p.field.name).getD .null)).toList } := by
  obtain ⟨d, s, h1, h2, h3, h4⟩ := section_occurs ho htext hh hex hk
  subst h1
  refine ⟨occurs_trans (section_request h3) h4, ?_⟩
  have hv : ∀ n, Piece.var n ∈ ps ∨ (∃ k, (k, n) ∈ qs) → (stringExample L (mget d.req n)).toList = value n := by
    intro n hn
    obtain ⟨p, hp, hu, rfl⟩ := hin n hn
    exact stringExample_says (hval p hp (.inl hu))
  have hu : ∀ n, Piece.var n ∈ ps ∨ (∃ k, (k, n) ∈ qs) → ∀ c ∈ value n, Unreserved c := by
    intro n hn
    obtain ⟨p, hp, hu, rfl⟩ := hin n hn
    exact hunres p hp hu
  have hpath := request_path htempl hin hnames hv (fun n hn hc => (unreserved_not (hu n hn _ hc)).1 rfl)
  have htarget : stripMissing (traceInputs L d.req h.inputs { path := h.path.toList }).path = targetOf value ps qs := by
    rw [hpath]
    exact strip_target (fun s hs => (htempl.lits s hs).2) (fun q hq => (htempl.keys q hq).2) hu
  constructor
  · unfold traceRequest
    simp only
    rw [htarget, traceInputs_headers, traceInputs_body, find_eq_getLast hbody]
    have hf : (h.inputs.filter (fun p => decide (InHeader p))).flatMap
        (fun p => p.header.toList ++ ": ".toList ++ (stringExample L (mget d.req p.field.name)).toList ++ ['\n']) =
        ((h.inputs.filter (fun p => decide (InHeader p))).map (fun p => (p.header.toList, value p.field.name))).flatMap
          (fun f => f.1 ++ ": ".toList ++ f.2 ++ ['\n']) := by
      rw [List.flatMap_map, List.flatMap_def, List.flatMap_def]
      congr 1
      apply List.map_congr_left
      intro p hp
      have hp := List.mem_filter.1 hp
      rw [stringExample_says (hval p hp.1 (.inr (of_decide_eq_true hp.2)))]
    rw [hf]
    simp [List.flatMap_append]
    cases h.inputs.find? BodyInput <;> rfl
  · simp only [List.mem_append, not_or]
    exact ⟨⟨⟨hmethod, by decide⟩, target_no_newline hlits hkeys hu⟩, by decide⟩
  · intro f hf
    simp only [List.mem_append, List.mem_map, List.mem_filter, List.mem_singleton, decide_eq_true_eq] at hf
    rcases hf with ⟨p, ⟨hp, hph⟩, rfl⟩ | rfl
    · obtain ⟨a, b, c⟩ := hheader p hp hph
      exact ⟨by simpa using hph.2, a, b, c⟩
    · decide

/-- The text occurs in what is printed. -/
def printed (m : Model) (t : String) : Bool := traced m (fun text => containsSub t.toList text)

theorem printed_of {m : Model} {t : String} (h : printed m t = true) :
    ∃ text, traceExport noTrace id m = .ok text ∧ Occurs t.toList text := by
  unfold printed traced at h
  split at h
  · next text ht => exact ⟨text, ht, (containsSub_iff _ _).1 h⟩
  · cases h

/-- C76 refuted: values are not encoded.  The request line for the identifier `a b` has four
words. -/
theorem C76_refuted_encoding : ∃ m, Accepted noLib m ∧
    ∃ text, traceExport noTrace id m = .ok text ∧ Occurs "GET /x/a b HTTP/1.1\n".toList text := by
  obtain ⟨m, h1, h2⟩ := accepted_of noLib (exchangeSource "a b") (fun m => printed m "GET /x/a b HTTP/1.1\n")
    (by decide +kernel) (by decide +kernel)
  exact ⟨m, h1, printed_of h2⟩

/-- C76 refuted: a Boolean is not shown.  The request line for `/x/{flag}` and the example `true`
is that for no flag. -/
theorem C76_refuted_bool : ∃ m, Accepted noLib m ∧
    ∃ text, traceExport noTrace id m = .ok text ∧ Occurs "GET /x/ HTTP/1.1\n".toList text := by
  obtain ⟨m, h1, h2⟩ := accepted_of noLib
    [sym "http", sym "GET", str "/x/{flag}", punct .openParen, sym "action", punct .equals, sym "getX", punct .closeParen,
     punct .openBrace, nl, sym "flag", sym "Bool", nl, sym "expect", num "204", nl, punct .closeBrace, nl,
     sym "example", sym "GetXRequest", punct .openBrace, str "flag", punct .colon, sym "true", punct .closeBrace, nl]
    (fun m => printed m "GET /x/ HTTP/1.1\n") (by decide +kernel) (by decide +kernel)
  exact ⟨m, h1, printed_of h2⟩

/-- C76 refuted: the value `{b}` of the first of two variables is replaced by the value of the
second one. -/
theorem C76_refuted_braces : ∃ m, Accepted noLib m ∧
    ∃ text, traceExport noTrace id m = .ok text ∧ Occurs "GET /x/2/2 HTTP/1.1\n".toList text := by
  obtain ⟨m, h1, h2⟩ := accepted_of noLib
    [sym "http", sym "GET", str "/x/{a}/{b}", punct .openParen, sym "action", punct .equals, sym "getX", punct .closeParen,
     punct .openBrace, nl, sym "a", sym "String", nl, sym "b", sym "String", nl, sym "expect", num "204", nl, punct .closeBrace, nl,
     sym "example", sym "GetXRequest", punct .openBrace, str "a", punct .colon, str "{b}", punct .comma, str "b", punct .colon, str "2",
     punct .closeBrace, nl]
    (fun m => printed m "GET /x/2/2 HTTP/1.1\n") (by decide +kernel) (by decide +kernel)
  exact ⟨m, h1, printed_of h2⟩

/-! ### C77: responses -/

/-- The section of an example with a response. -/
theorem section_response {L : TLib} {h : HttpDef} {n : String} {d : TraceEx} {s : List Char} {res : GoMap Value}
    (hs : traceSection L h n d = .ok s) (hr : d.res = some res) :
    ∃ r, traceResponse L h n d res = .ok r ∧
      s = traceHead n h ++ traceRequest L h d.req ++ "\n#   Response:\n".toList ++ r ++ ['\n'] := by
  unfold traceSection at hs
  simp only [hr] at hs
  cases hq : traceResponse L h n d res with
  | err e => simp [hq] at hs
  | panic e => simp [hq] at hs
  | ok r =>
    simp only [hq, Out.bind_ok, Out.ok.injEq] at hs
    exact ⟨r, rfl, by rw [← hs]; simp [traceHead]⟩

theorem natText_no_newline (n : Nat) : '\n' ∉ (toString n).toList := by
  intro h
  have : '\n' ∈ Nat.toDigits 10 n := by simpa [toString, Nat.repr] using h
  exact absurd (Nat.isDigit_of_mem_toDigits (by decide) (by decide) this) (by decide)

theorem intText_no_newline (i : Int) : '\n' ∉ (toString i).toList := by
  cases i with
  | ofNat n => exact natText_no_newline n
  | negSucc n =>
    have : (toString (Int.negSucc n)).toList = '-' :: (toString (n + 1)).toList := by
      rw [show toString (Int.negSucc n) = "-" ++ toString (n + 1) from rfl, String.toList_append]
      rfl
    rw [this]
    simp only [List.mem_cons, not_or]
    exact ⟨by decide, natText_no_newline _⟩

theorem byteLen_ofList (l : List Char) : byteLen l = (String.ofList l).utf8ByteSize := by
  rw [← byteLen_eq, String.toList_ofList]

/-- The section with a response of the last request example of a name. -/
theorem response_occurs {L : TLib} {order : GoMap TraceEx → GoMap TraceEx} (ho : ∀ g, (order g).Perm g) {m : Model} {text : List Char}
    (ht : traceExport L order m = .ok text) {h : HttpDef} (hh : h ∈ m.schema.http) {rq ex : ExampleDef} {rvs kvs : GoMap Value}
    (hrq : LastWith (fun e => IsRequest h e ∧ e.name = rq.name) m.schema.examples rq) (hrk : rq.example = .obj rvs)
    (hname : ex.name = rq.name)
    (hex : LastWith (fun e => (IsExpected h e ∨ IsRefusal h e) ∧ e.name = ex.name) m.schema.examples ex)
    (hk : ex.example = .obj kvs) :
    ∃ d r, Entry m.schema h rq.name d ∧ traceResponse L h rq.name d kvs = .ok r ∧
      Occurs (traceHead rq.name h ++ traceRequest L h rvs ++ "\n#   Response:\n".toList ++ r ++ ['\n']) text := by
  obtain ⟨d, s, h1, h2, h3, h4⟩ := section_occurs ho ht hh hrq hrk
  subst h1
  rw [hname] at hex
  obtain ⟨kvs', hk', hres⟩ := h2.some ex hex
  rw [hk] at hk'
  cases hk'
  obtain ⟨r, hr, hs⟩ := section_response h3 hres
  exact ⟨d, r, h2, hr, hs ▸ h4⟩

/-- C77, expected responses: if the last example with the name of a request example that answers it
is an expected response, and there is no example of an exception with that name, then the request
is followed by an HTTP response with the expected status; the size of its body in bytes, the type
JSON, the headers of the expected response with the values of the example, and the date; and, unless
the status is 204, the example of the body.  (`traceRequest` is the request of C76.)  Missing: header
values that are neither strings nor numbers, and names with examples of both kinds
(`C77_refuted_status`). -/
theorem C77_expected_partial (L : TLib) (order : GoMap TraceEx → GoMap TraceEx) (ho : ∀ g, (order g).Perm g) (m : Model)
    (text : List Char) (htext : traceExport L order m = .ok text)
    (h : HttpDef) (hh : h ∈ m.schema.http) (rq : ExampleDef) (rvs : GoMap Value)
    (hrq : LastWith (fun e => IsRequest h e ∧ e.name = rq.name) m.schema.examples rq) (hrk : rq.example = .obj rvs)
    (ex : ExampleDef) (kvs : GoMap Value) (hname : ex.name = rq.name)
    (hex : LastWith (fun e => (IsExpected h e ∨ IsRefusal h e) ∧ e.name = ex.name) m.schema.examples ex)
    (hk : ex.example = .obj kvs) (hno : ∀ e ∈ m.schema.examples, e.name = ex.name → ¬ IsRefusal h e)
    (e : HttpExpectedSpec) (he : h.expected = some e)
    (value : String → List Char) (hval : ∀ p ∈ e.outputs, p.header ≠ "" → ParamText L.json kvs p.field.name (value p.field.name))
    (hheader : ∀ p ∈ e.outputs, p.header ≠ "" → ':' ∉ p.header.toList ∧ '\n' ∉ p.header.toList ∧ '\n' ∉ value p.field.name)
    (hreason : '\n' ∉ (L.statusText e.status).toList) (hdate : ∀ n, '\n' ∉ (L.date n).toList)
    (hbody : (e.outputs.filter BodyOutput).length ≤ 1) :
    ∃ response body,
      Occurs (traceHead rq.name h ++ traceRequest L h rvs ++ "\n#   Response:\n".toList ++ response ++ ['\n']) text ∧
      body = (if e.status = 204 then [] else match e.outputs.find? BodyOutput with
            | none => []
            | some p => (prettyText L.json ((mget kvs p.field.name).getD .null)).toList) ∧
      IsHttp response
        { start := "HTTP/1.1 ".toList ++ (toString e.status).toList ++ " ".toList ++ (L.statusText e.status).toList
          fields := [("Content-Length".toList, (toString (String.ofList body).utf8ByteSize).toList),
              ("Content-Type".toList, "application/json; charset=utf-8".toList)] ++
            (e.outputs.filter (fun p => !BodyOutput p)).map (fun p => (p.header.toList, value p.field.name)) ++
            [("Date".toList, (L.date rq.name).toList)]
          body := body } := by
  obtain ⟨d, r, hE, hr, hocc⟩ := response_occurs ho htext hh hrq hrk hname hex hk
  have hexc : d.exc = none := hE.noExc (fun x hx hc => hno x hx (by rw [hc.2, hname]) hc.1)
  simp only [traceResponse, he, hexc, traceOutputs_eq, find_eq_getLast hbody, Out.ok.injEq] at hr
  have hf : (e.outputs.filter (fun p => !BodyOutput p)).flatMap
      (fun p => p.header.toList ++ ": ".toList ++ (stringExample L (mget kvs p.field.name)).toList ++ ['\n']) =
      ((e.outputs.filter (fun p => !BodyOutput p)).map (fun p => (p.header.toList, value p.field.name))).flatMap
        (fun f => f.1 ++ ": ".toList ++ f.2 ++ ['\n']) := by
    rw [List.flatMap_map, List.flatMap_def, List.flatMap_def]
    congr 1
    apply List.map_congr_left
    intro p hp
    have hp := List.mem_filter.1 hp
    rw [stringExample_says (hval p hp.1 (by simpa [BodyOutput] using hp.2))]
  rw [hf, byteLen_ofList] at hr
  generalize hB : (if e.status = 204 then [] else _ : List Char) = body at hr
  refine ⟨r, body, hocc, ?_, ?_⟩
  · rw [← hB]
  constructor
  · rw [← hr]
    simp only [List.flatMap_append, List.flatMap_cons, List.flatMap_nil, List.append_nil, List.append_assoc, List.cons_append,
      List.nil_append]
    simp
  · simp only [List.mem_append, not_or]
    exact ⟨⟨⟨by decide, intText_no_newline _⟩, by decide⟩, hreason⟩
  · intro f hf
    simp only [List.mem_append, List.mem_map, List.mem_filter, List.mem_cons, List.not_mem_nil, or_false] at hf
    rcases hf with ((rfl | rfl) | ⟨p, ⟨hp, hph⟩, rfl⟩) | rfl
    · exact ⟨(by decide : "Content-Length".toList ≠ []), (by decide : ':' ∉ "Content-Length".toList),
        (by decide : '\n' ∉ "Content-Length".toList), natText_no_newline _⟩
    · decide
    · have hne : p.header ≠ "" := by simpa [BodyOutput] using hph
      obtain ⟨a, b, c⟩ := hheader p hp hne
      exact ⟨by simpa using hne, a, b, c⟩
    · exact ⟨(by decide : "Date".toList ≠ []), (by decide : ':' ∉ "Date".toList), (by decide : '\n' ∉ "Date".toList), hdate _⟩

/-- C77, exceptions: if the last example with the name of a request example that answers it is one
of an exception, then the request is followed by an HTTP response with the status of the (last)
exception of that type, the size of the body in bytes, and the example as its body. -/
theorem C77_exception (L : TLib) (order : GoMap TraceEx → GoMap TraceEx) (ho : ∀ g, (order g).Perm g) (m : Model)
    (text : List Char) (htext : traceExport L order m = .ok text)
    (h : HttpDef) (hh : h ∈ m.schema.http) (rq : ExampleDef) (rvs : GoMap Value)
    (hrq : LastWith (fun e => IsRequest h e ∧ e.name = rq.name) m.schema.examples rq) (hrk : rq.example = .obj rvs)
    (ex : ExampleDef) (kvs : GoMap Value) (hname : ex.name = rq.name) (hexc : IsRefusal h ex)
    (hex : LastWith (fun e => (IsExpected h e ∨ IsRefusal h e) ∧ e.name = ex.name) m.schema.examples ex)
    (hk : ex.example = .obj kvs) (x : HttpExceptionSpec) (hx : LastWith (fun x => x.type = ex.target) h.exceptions x)
    (hreason : '\n' ∉ (L.statusText x.status).toList) (hdate : ∀ n, '\n' ∉ (L.date n).toList) :
    ∃ response,
      Occurs (traceHead rq.name h ++ traceRequest L h rvs ++ "\n#   Response:\n".toList ++ response ++ ['\n']) text ∧
      IsHttp response
        { start := "HTTP/1.1 ".toList ++ (toString x.status).toList ++ " ".toList ++ (L.statusText x.status).toList
          fields := [("Content-Length".toList, (toString (prettyText L.json (.obj kvs)).utf8ByteSize).toList),
              ("Content-Type".toList, "application/json; charset=utf-8".toList),
              ("Date".toList, (L.date rq.name).toList)]
          body := (prettyText L.json (.obj kvs)).toList } := by
  obtain ⟨d, r, hE, hr, hocc⟩ := response_occurs ho htext hh hrq hrk hname hex hk
  have hlast : LastWith (fun e => IsRefusal h e ∧ e.name = rq.name) m.schema.examples ex := by
    obtain ⟨a, b, h1, h2, h3⟩ := hex
    refine ⟨a, b, h1, ⟨hexc, hname⟩, fun y hy hc => h3 y hy ⟨.inr hc.1, by rw [hc.2, hname]⟩⟩
  have hd := hE.exc ex x hlast hx
  have hexp : ∃ e, h.expected = some e := by
    cases he : h.expected with
    | none => simp [traceResponse, he] at hr
    | some e => exact ⟨e, rfl⟩
  obtain ⟨e, he⟩ := hexp
  refine ⟨r, hocc, ?_⟩
  simp only [traceResponse, he, hd, Out.ok.injEq, byteLen_eq] at hr
  constructor
  · rw [← hr]
    simp only [List.flatMap_cons, List.flatMap_nil, List.append_nil, List.append_assoc, List.cons_append]
    simp
  · simp only [List.mem_append, not_or]
    exact ⟨⟨⟨by decide, intText_no_newline _⟩, by decide⟩, hreason⟩
  · intro f hf
    simp only [List.mem_cons, List.not_mem_nil, or_false] at hf
    rcases hf with rfl | rfl | rfl
    · exact ⟨(by decide : "Content-Length".toList ≠ []), (by decide : ':' ∉ "Content-Length".toList),
        (by decide : '\n' ∉ "Content-Length".toList), natText_no_newline _⟩
    · decide
    · exact ⟨(by decide : "Date".toList ≠ []), (by decide : ':' ∉ "Date".toList), (by decide : '\n' ∉ "Date".toList), hdate _⟩

/-! ### C78: which examples are shown -/

/-- The trace of an action: a section for each name of its request examples, in some order, each
starting with the name. -/
def TraceOf (s : Schema) (h : HttpDef) (part : List Char) : Prop :=
  ∃ secs : List (String × List Char), (secs.map Prod.fst).Nodup ∧
    (∀ n, n ∈ secs.map Prod.fst ↔ ∃ ex ∈ s.examples, IsRequest h ex ∧ ex.name = n) ∧
    (∀ p ∈ secs, traceHead p.1 h <+: p.2) ∧ part = secs.flatMap Prod.snd

theorem section_head {L : TLib} {h : HttpDef} {n : String} {d : TraceEx} {s : List Char} (hs : traceSection L h n d = .ok s) :
    traceHead n h <+: s := by
  unfold traceSection at hs
  cases hr : d.res with
  | none =>
    simp only [hr, Out.ok.injEq] at hs
    exact ⟨traceRequest L h d.req ++ ['\n'], by rw [← hs]; simp [traceHead]⟩
  | some res =>
    simp only [hr] at hs
    cases hq : traceResponse L h n d res with
    | err e => simp [hq] at hs
    | panic e => simp [hq] at hs
    | ok r =>
      simp only [hq, Out.bind_ok, Out.ok.injEq] at hs
      exact ⟨traceRequest L h d.req ++ ['\n'] ++ "#   Response:".toList ++ '\n' :: r ++ ['\n'], by rw [← hs]; simp [traceHead]⟩

/-- C78: what is printed are the traces of the actions, in the order of the actions, each with
exactly one section for each name of its request examples. -/
theorem C78_sections (L : TLib) (order : GoMap TraceEx → GoMap TraceEx) (ho : ∀ g, (order g).Perm g) (m : Model)
    (text : List Char) (htext : traceExport L order m = .ok text) :
    ∃ parts, List.Forall₂ (TraceOf m.schema) m.schema.http parts ∧ text = parts.flatMap (· ++ ['\n']) := by
  obtain ⟨parts, p1, p2⟩ := traceActions_ok htext
  refine ⟨parts, p1.imp ?_, p2⟩
  intro h part hg
  obtain ⟨named, secs, g1, g2, g3, g4, g5⟩ := generate_ok hg
  have hlen := g4.length_eq
  have e1 : (((order named).map Prod.fst).zip secs).map Prod.fst = (order named).map Prod.fst :=
    List.map_fst_zip (by simp [hlen])
  have e2 : (((order named).map Prod.fst).zip secs).map Prod.snd = secs := List.map_snd_zip (by simp [hlen])
  have hperm := (ho named).map Prod.fst
  refine ⟨((order named).map Prod.fst).zip secs, ?_, ?_, ?_, ?_⟩
  · rw [e1]; exact hperm.nodup_iff.2 g1
  · intro n
    rw [e1, hperm.mem_iff]
    exact g2 n
  · clear e1 e2 hlen g5
    generalize order named = l at g4
    induction g4 with
    | nil => simp
    | cons h1 _ ih =>
      intro p hp
      simp only [List.map_cons, List.zip_cons_cons, List.mem_cons] at hp
      rcases hp with rfl | hp
      · exact section_head h1
      · exact ih p hp
  · rw [List.flatMap_def, e2]
    exact g5

/-- C78: if no two request examples of an action have the same name, each is shown: its trace has as
many sections as the action has request examples.  Missing: request examples of the same name
(`C78_refuted`). -/
theorem C78_every_request_partial (s : Schema) (h : HttpDef)
    (hdist : ((s.examples.filter (fun e => decide (IsRequest h e))).map (·.name)).Nodup)
    (part : List Char) (hp : TraceOf s h part) :
    ∃ secs : List (String × List Char), secs.length = (s.examples.filter (fun e => decide (IsRequest h e))).length ∧
      (∀ p ∈ secs, traceHead p.1 h <+: p.2) ∧ part = secs.flatMap Prod.snd ∧
      ∀ ex ∈ s.examples, IsRequest h ex → ∃ p ∈ secs, p.1 = ex.name := by
  obtain ⟨secs, h1, h2, h3, h4⟩ := hp
  refine ⟨secs, ?_, h3, h4, ?_⟩
  · have hperm : (secs.map Prod.fst).Perm ((s.examples.filter (fun e => decide (IsRequest h e))).map (·.name)) := by
      rw [List.perm_ext_iff_of_nodup h1 hdist]
      intro n
      rw [h2]
      simp only [List.mem_map, List.mem_filter, decide_eq_true_eq]
      constructor
      · rintro ⟨ex, a, b, c⟩; exact ⟨ex, ⟨a, b⟩, c⟩
      · rintro ⟨ex, ⟨a, b⟩, c⟩; exact ⟨ex, a, b, c⟩
    simpa using hperm.length_eq
  · intro ex hex hr
    obtain ⟨p, hp, he⟩ := List.mem_map.1 ((h2 ex.name).2 ⟨ex, hex, hr, rfl⟩)
    exact ⟨p, hp, he⟩

/-! ### a concrete exchange -/

/-- `GET /x/{id}?lim={limit}&tag={tag}` with the header `X-Key`. -/
def demoAction : HttpDef :=
  { name := "getX", method := "GET", path := "/x/{id}?lim={limit}&tag={tag}"
    inputs := [{ path := true, field := { name := "id", ts := { type := "String" } } },
      { query := "lim", field := { name := "limit", ts := { type := "Int32" } } },
      { query := "tag", field := { name := "tag", ts := { type := "String" } } },
      { header := "X-Key", field := { name := "key", ts := { type := "String" } } }]
    expected := some { status := 200, outputs := [{ field := { name := "s", ts := { type := "S" } } },
      { header := "ETag", field := { name := "etag", ts := { type := "String" } } }] }
    exceptions := [{ type := "S", status := 404 }] }

/-- A schema with two exchanges: a successful one, and a failing one. -/
def demoTrace : Model :=
  { schema :=
      { http := [demoAction]
        examples := [
          { target := "GetXRequest", name := "one", «example» := .obj [("id", .strPtr "a-1"), ("limit", .dec (.fin 7 0)), ("key", .strPtr "k: 2")] },
          { target := "GetXResponse", name := "one", «example» := .obj [("s", .obj []), ("etag", .strPtr "e")] },
          { target := "GetXRequest", name := "two", «example» := .obj [("id", .strPtr "b")] },
          { target := "S", name := "two", «example» := .obj [("a", .strPtr "gone")] }] } }

theorem demoTrace_template : IsTemplate demoAction.path.toList [.lit "/x/".toList, .var "id"]
    [("lim".toList, "limit"), ("tag".toList, "tag")] where
  text := by decide
  lits := by
    intro s hs
    simp only [List.mem_cons, Piece.lit.injEq, reduceCtorEq, List.not_mem_nil, or_false] at hs
    subst hs; decide
  vars := by
    intro n hn
    simp only [List.mem_cons, Piece.var.injEq, reduceCtorEq, List.not_mem_nil, or_false, false_or, Prod.mk.injEq] at hn
    rcases hn with rfl | ⟨k, ⟨_, rfl⟩ | ⟨_, rfl⟩⟩ <;> decide
  keys := by decide

theorem lastWith_of {α : Type} {p : α → Prop} (a : List α) {x : α} (b : List α) (h1 : p x) (h2 : ∀ y ∈ b, ¬ p y) :
    LastWith p (a ++ x :: b) x := ⟨a, b, rfl, h1, h2⟩

/-- The hypotheses of `C76_request_partial` are met; the missing parameter `tag` is left out. -/
example (text : List Char) (ht : traceExport noTrace id demoTrace = .ok text) :
    Occurs ("#\n# one (action=getX)\n#\n#   Request:\nGET /x/a-1?lim=7 HTTP/1.1\nX-Key: k: 2\nAccept: application/json\n\n\n".toList) text := by
  have := C76_request_partial noTrace id (fun _ => List.Perm.refl _) demoTrace text ht demoAction List.mem_cons_self
    { target := "GetXRequest", name := "one", «example» := .obj [("id", .strPtr "a-1"), ("limit", .dec (.fin 7 0)), ("key", .strPtr "k: 2")] }
    [("id", .strPtr "a-1"), ("limit", .dec (.fin 7 0)), ("key", .strPtr "k: 2")]
    (lastWith_of [] _ (by decide) (by
      intro y hy
      simp only [List.mem_cons, List.not_mem_nil, or_false] at hy
      rcases hy with rfl | rfl | rfl <;> decide)) rfl
    [.lit "/x/".toList, .var "id"] [("lim".toList, "limit"), ("tag".toList, "tag")] demoTrace_template
    (by
      intro n hn
      simp only [List.mem_cons, Piece.var.injEq, reduceCtorEq, List.not_mem_nil, or_false, false_or, Prod.mk.injEq] at hn
      rcases hn with rfl | ⟨k, ⟨_, rfl⟩ | ⟨_, rfl⟩⟩
      · exact ⟨_, List.mem_cons_self, by decide, rfl⟩
      · exact ⟨_, List.mem_cons_of_mem _ List.mem_cons_self, by decide, rfl⟩
      · exact ⟨_, List.mem_cons_of_mem _ (List.mem_cons_of_mem _ List.mem_cons_self), by decide, rfl⟩)
    (fun n => if n = "id" then "a-1".toList else if n = "limit" then "7".toList else if n = "key" then "k: 2".toList else [])
    (by
      intro p hp _
      simp only [demoAction, List.mem_cons, List.not_mem_nil, or_false] at hp
      rcases hp with rfl | rfl | rfl | rfl
      · exact .inl ⟨_, rfl, .str _⟩
      · exact .inl ⟨_, rfl, .num (.fin 7 0)⟩
      · exact .inr ⟨rfl, rfl⟩
      · exact .inl ⟨_, rfl, .str _⟩)
    (by
      intro p hp hu
      simp only [demoAction, List.mem_cons, List.not_mem_nil, or_false] at hp
      rcases hp with rfl | rfl | rfl | rfl
      · unfold Unreserved; decide
      · unfold Unreserved; decide
      · unfold Unreserved; decide
      · exact absurd hu (by decide))
    (by
      intro p hp _
      simp only [demoAction, List.mem_cons, List.not_mem_nil, or_false] at hp
      rcases hp with rfl | rfl | rfl | rfl <;> decide)
    (by
      intro p hp hu
      simp only [demoAction, List.mem_cons, List.not_mem_nil, or_false] at hp
      rcases hp with rfl | rfl | rfl | rfl
      · exact absurd hu (by decide)
      · exact absurd hu (by decide)
      · exact absurd hu (by decide)
      · decide)
    (by decide)
    (by
      intro s hs
      simp only [List.mem_cons, Piece.lit.injEq, reduceCtorEq, List.not_mem_nil, or_false] at hs
      subst hs; decide)
    (by decide) (by decide)
  have e : traceHead "one" demoAction ++ traceRequest noTrace demoAction
      [("id", .strPtr "a-1"), ("limit", .dec (.fin 7 0)), ("key", .strPtr "k: 2")] ++ ['\n'] =
      "#\n# one (action=getX)\n#\n#   Request:\nGET /x/a-1?lim=7 HTTP/1.1\nX-Key: k: 2\nAccept: application/json\n\n\n".toList := by
    decide +kernel
  exact e ▸ this.1

/-- The export of the example succeeds, and shows the expected response of the first request and
the exception of the second one. -/
example : printed demoTrace ("#   Response:\nHTTP/1.1 200 OK\nContent-Length: 3\nContent-Type: application/json; charset=utf-8\n" ++
      "ETag: e\nDate: now\n\n{}\n\n") = true ∧
    printed demoTrace "HTTP/1.1 404 Not Found\nContent-Length: 18\n" = true := by
  constructor <;> decide +kernel

/-- The hypotheses of `C78_every_request_partial` are met. -/
example : ((demoTrace.schema.examples.filter (fun e => decide (IsRequest demoAction e))).map (·.name)).Nodup ∧
    (demoTrace.schema.examples.filter (fun e => decide (IsRequest demoAction e))).length = 2 := by decide

/-- The hypotheses of `C77_expected_partial` are met. -/
example (text : List Char) (ht : traceExport noTrace id demoTrace = .ok text) :
    ∃ response body, Occurs (traceHead "one" demoAction ++ traceRequest noTrace demoAction
        [("id", .strPtr "a-1"), ("limit", .dec (.fin 7 0)), ("key", .strPtr "k: 2")] ++ "\n#   Response:\n".toList ++ response ++ ['\n']) text ∧
      body = "{}\n".toList ∧
      IsHttp response
        { start := "HTTP/1.1 200 OK".toList
          fields := [("Content-Length".toList, "3".toList), ("Content-Type".toList, "application/json; charset=utf-8".toList),
            ("ETag".toList, "e".toList), ("Date".toList, "now".toList)]
          body := body } := by
  obtain ⟨r, b, h1, h2, h3⟩ := C77_expected_partial noTrace id (fun _ => List.Perm.refl _) demoTrace text ht demoAction List.mem_cons_self
    { target := "GetXRequest", name := "one", «example» := .obj [("id", .strPtr "a-1"), ("limit", .dec (.fin 7 0)), ("key", .strPtr "k: 2")] }
    [("id", .strPtr "a-1"), ("limit", .dec (.fin 7 0)), ("key", .strPtr "k: 2")]
    (lastWith_of [] _ (by decide) (by
      intro y hy
      simp only [List.mem_cons, List.not_mem_nil, or_false] at hy
      rcases hy with rfl | rfl | rfl <;> decide)) rfl
    { target := "GetXResponse", name := "one", «example» := .obj [("s", .obj []), ("etag", .strPtr "e")] }
    [("s", .obj []), ("etag", .strPtr "e")] rfl
    (lastWith_of [_] _ (by decide) (by
      intro y hy
      simp only [List.mem_cons, List.not_mem_nil, or_false] at hy
      rcases hy with rfl | rfl <;> decide)) rfl
    (by
      intro y hy
      simp only [demoTrace, List.mem_cons, List.not_mem_nil, or_false] at hy
      rcases hy with rfl | rfl | rfl | rfl <;> decide)
    _ rfl (fun _ => "e".toList)
    (by
      intro p hp hne
      simp only [List.mem_cons, List.not_mem_nil, or_false] at hp
      rcases hp with rfl | rfl
      · exact absurd rfl hne
      · exact .inl ⟨_, rfl, .str _⟩)
    (by
      intro p hp hne
      simp only [List.mem_cons, List.not_mem_nil, or_false] at hp
      rcases hp with rfl | rfl
      · exact absurd rfl hne
      · decide)
    (by decide) (by intro n; show _ ∉ "now".toList; decide) (by decide)
  have hb : b = "{}\n".toList := h2.trans (by decide +kernel)
  subst hb
  exact ⟨r, _, h1, rfl, h3⟩

/-- The hypotheses of `C77_exception` are met. -/
example (text : List Char) (ht : traceExport noTrace id demoTrace = .ok text) :
    ∃ response, Occurs (traceHead "two" demoAction ++ traceRequest noTrace demoAction [("id", .strPtr "b")] ++
        "\n#   Response:\n".toList ++ response ++ ['\n']) text ∧
      ∃ msg : HttpMsg, IsHttp response msg ∧ msg.start = "HTTP/1.1 404 Not Found".toList := by
  obtain ⟨r, h1, h2⟩ := C77_exception noTrace id (fun _ => List.Perm.refl _) demoTrace text ht demoAction List.mem_cons_self
    { target := "GetXRequest", name := "two", «example» := .obj [("id", .strPtr "b")] } [("id", .strPtr "b")]
    (lastWith_of [_, _] _ (by decide) (by
      intro y hy
      simp only [List.mem_cons, List.not_mem_nil, or_false] at hy
      subst hy; decide)) rfl
    { target := "S", name := "two", «example» := .obj [("a", .strPtr "gone")] } [("a", .strPtr "gone")] rfl (by decide)
    (lastWith_of [_, _, _] [] (by decide) (by simp)) rfl
    { type := "S", status := 404 } (lastWith_of [] [] (by decide) (by simp))
    (by decide) (by intro n; show _ ∉ "now".toList; decide)
  exact ⟨r, h1, _, h2, by decide⟩

/-- C77 refuted: an example of an exception followed by one of the expected response, with the same
name, is accepted, and the expected response is shown with the status of the exception. -/
theorem C77_refuted_status : ∃ m, Accepted noLib m ∧
    ∃ text, traceExport noTrace id m = .ok text ∧
      Occurs ("HTTP/1.1 404 Not Found\nContent-Length: 33\nContent-Type: application/json; charset=utf-8\nDate: now\n\n" ++
        "{\n  \"s\": {\n    \"a\": \"fine\"\n  }\n}\n").toList text := by
  obtain ⟨m, h1, h2⟩ := accepted_of noLib
    [sym "type", sym "S", sym "Struct", punct .openBrace, nl, sym "a", sym "String", nl, punct .closeBrace, nl,
     sym "http", sym "GET", str "/x", punct .openParen, sym "action", punct .equals, sym "getX", punct .closeParen,
     punct .openBrace, nl, sym "expect", num "200", punct .openBrace, nl, sym "s", sym "S", nl, punct .closeBrace, nl,
     sym "except", num "404", sym "S", nl, punct .closeBrace, nl,
     sym "example", sym "GetXRequest", punct .openBrace, punct .closeBrace, nl,
     sym "example", sym "S", punct .openBrace, str "a", punct .colon, str "gone", punct .closeBrace, nl,
     sym "example", sym "GetXResponse", punct .openBrace, str "s", punct .colon, punct .openBrace, str "a", punct .colon, str "fine",
     punct .closeBrace, punct .closeBrace, nl]
    (fun m => printed m ("HTTP/1.1 404 Not Found\nContent-Length: 33\nContent-Type: application/json; charset=utf-8\nDate: now\n\n" ++
        "{\n  \"s\": {\n    \"a\": \"fine\"\n  }\n}\n")) (by decide +kernel) (by decide +kernel)
  exact ⟨m, h1, printed_of h2⟩

/-- C78 refuted: of two request examples without names, only the last one is shown. -/
theorem C78_refuted : ∃ m, Accepted noLib m ∧ m.schema.examples.length = 2 ∧ (∃ h ∈ m.schema.http, ∀ ex ∈ m.schema.examples, IsRequest h ex) ∧
    ∃ text, traceExport noTrace id m = .ok text ∧ ¬ Occurs "GET /x/1 ".toList text ∧ Occurs "GET /x/2 ".toList text := by
  obtain ⟨m, h1, h2⟩ := accepted_of noLib
    [sym "http", sym "GET", str "/x/{id}", punct .openParen, sym "action", punct .equals, sym "getX", punct .closeParen,
     punct .openBrace, nl, sym "id", sym "String", nl, sym "expect", num "204", nl, punct .closeBrace, nl,
     sym "example", sym "GetXRequest", punct .openBrace, str "id", punct .colon, str "1", punct .closeBrace, nl,
     sym "example", sym "GetXRequest", punct .openBrace, str "id", punct .colon, str "2", punct .closeBrace, nl]
    (fun m => traced m (fun text => !containsSub "GET /x/1 ".toList text && containsSub "GET /x/2 ".toList text) &&
      m.schema.examples.length == 2 && m.schema.http.any fun h => m.schema.examples.all fun ex => decide (IsRequest h ex))
    (by decide +kernel) (by decide +kernel)
  simp only [Bool.and_eq_true, List.any_eq_true, List.all_eq_true, beq_iff_eq, decide_eq_true_eq] at h2
  obtain ⟨⟨ha, hb⟩, hc⟩ := h2
  refine ⟨m, h1, hb, hc, ?_⟩
  unfold traced at ha
  split at ha
  · next text ht =>
    simp only [Bool.and_eq_true, Bool.not_eq_true'] at ha
    refine ⟨text, ht, ?_, (containsSub_iff _ _).1 ha.2⟩
    intro hc
    rw [(containsSub_iff _ _).2 hc] at ha
    cases ha.1
  · cases ha

end Sadl.Props
