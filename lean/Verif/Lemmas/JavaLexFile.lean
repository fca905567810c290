import Verif.Lemmas.JavaLexRest
import Verif.Lemmas.JavaKnown
import Verif.Spec.JavaExport
/-
The text of the generated Java files is well formed.
-/
namespace Sadl
open Sadl.Spec Sadl.JavaLits

theorem Spec.PlainPart.within {ts : TypeSpec} (h : PlainSpec ts) : PlainPart ts := h ts .here
theorem Spec.PlainSpec.field {ts : TypeSpec} (h : PlainSpec ts) {f : StructFieldDef} (hf : f ∈ ts.fields) : PlainSpec f.ts :=
  fun sub hs => h sub (.field hf hs)
theorem Spec.PlainSpec.variant {ts : TypeSpec} (h : PlainSpec ts) {v : UnionVariantDef} (hv : v ∈ ts.variants) : PlainSpec v.ts :=
  fun sub hs => h sub (.variant hv hs)

/-- A field can be written: its name, its comment and all of its type. -/
def PlainMember (f : StructFieldDef) : Prop := PlainText f.name ∧ CommentText f.comment ∧ PlainSpec f.ts

theorem Spec.PlainSpec.member {ts : TypeSpec} (h : PlainSpec ts) {f : StructFieldDef} (hf : f ∈ ts.fields) : PlainMember f :=
  ⟨((h ts .here).fields f hf).1, ((h ts .here).fields f hf).2, h.field hf⟩

theorem messages_plain {ps : List HttpParamSpec} (h : ∀ p ∈ ps, PlainParam p) : PlainSpec { type := "Struct", fields := ps.map HttpParamSpec.field } := by
  have he : PlainText "" := fun c hc => by cases hc
  intro sub hs
  cases hs with
  | here =>
    refine ⟨plainText_of (t := "Struct") (by decide), he, he, he, he, (fun c hc => by cases hc), ?_, (by simp), (by simp)⟩
    intro f hf
    obtain ⟨p, hp, rfl⟩ := List.mem_map.1 hf
    exact ⟨(h p hp).name, (h p hp).comment⟩
  | field hf hs =>
    obtain ⟨p, hp, rfl⟩ := List.mem_map.1 hf
    exact (h p hp).type sub hs
  | variant hv _ => cases hv

section
variable {s : Schema} (hs : PlainSource s) {instants : Bool}

include hs in
theorem JavaNamed.plain {n : String} {r : Bool} {t : JTy} (h : JavaNamed s instants n r t) (hn : PlainText n) : PlainTy t := by
  induction h with
  | primitive h => cases h <;> exact .name (plainText_of (by decide))
  | boxed h => cases h <;> exact .name (plainText_of (by decide))
  | builtin h =>
    cases h with
    | other h => exact .name hn
    | _ => exact .name (plainText_of (by decide))
  | transparent htd _ _ ih => exact ih ((hs.types _ htd).2.2 _ .here).type
  | array htd _ _ _ ih => exact .list (ih ((hs.types _ htd).2.2 _ .here).items)
  | map htd _ _ _ _ _ ih1 ih2 => exact .map (ih1 ((hs.types _ htd).2.2 _ .here).keys) (ih2 ((hs.types _ htd).2.2 _ .here).items)
  | own _ _ _ _ => exact .name hn
  | unknown _ => exact .name hn

include hs in
theorem JavaUse.plain {ts : TypeSpec} {r : Bool} {t : JTy} (h : JavaUse s instants ts r t) (hp : PlainPart ts) : PlainTy t := by
  cases h with
  | named _ _ h => exact JavaNamed.plain hs h hp.type
  | array _ _ h => exact .list (JavaNamed.plain hs h hp.items)
  | map _ _ h1 _ h2 => exact .map (JavaNamed.plain hs h1 hp.keys) (JavaNamed.plain hs h2 hp.items)

include hs in
theorem JavaBare.plain {n : String} {r : Bool} {t : JTy} (h : JavaBare s instants n r t) (hn : PlainText n) : PlainText t.text := by
  cases h with
  | named h => exact (JavaNamed.plain hs h hn).plain
  | array => exact plainText_of (by decide)
  | map => exact plainText_of (by decide)

include hs in
theorem JavaBare.plainTy {n : String} {r : Bool} {t : JTy} (h : JavaBare s instants n r t) (hn : PlainText n) : PlainTy t := by
  cases h with
  | named h => exact JavaNamed.plain hs h hn
  | array => exact .name (plainText_of (by decide))
  | map => exact .name (plainText_of (by decide))

section
variable {dec : BigFloat → String} (hd : ∀ d, PlainText (dec d) ∧ QuotableText (dec d))

theorem required_plain (r : Bool) : ∀ a ∈ JavaRequired r, PlainAnno a := by
  intro a ha
  unfold JavaRequired at ha
  split at ha
  · cases List.mem_singleton.1 ha; exact trivial
  · cases ha

include hd in
theorem bounds_plain (ts : TypeSpec) : (∀ a ∈ JavaBounds dec ts, PlainAnno a) ∧ ∀ a ∈ JavaDecimalBounds dec ts, PlainAnno a := by
  unfold JavaBounds JavaDecimalBounds
  constructor <;> intro a ha <;> rcases List.mem_append.1 ha with ha | ha <;> split at ha
  all_goals first
    | cases ha; done
    | cases List.mem_singleton.1 ha
  · exact (hd _).1
  · exact (hd _).1
  · exact (hd _).2
  · exact (hd _).2

theorem strings_plain {ts : TypeSpec} (h : QuotableText ts.pattern) : ∀ a ∈ JavaStringChecks ts, PlainAnno a := by
  intro a ha
  unfold JavaStringChecks at ha
  rcases List.mem_append.1 ha with ha | ha <;> split at ha
  · cases ha
  · cases List.mem_singleton.1 ha; exact h
  · cases ha
  · cases List.mem_singleton.1 ha; exact trivial

theorem annos_append {a b : List JAnno} (ha : ∀ x ∈ a, PlainAnno x) (hb : ∀ x ∈ b, PlainAnno x) : ∀ x ∈ a ++ b, PlainAnno x := fun x hx =>
  (List.mem_append.1 hx).elim (ha x) (hb x)

include hs hd in
theorem JavaAnnos.plain {ts : TypeSpec} {r : Bool} {as : List JAnno} (h : JavaAnnos s instants dec ts r as) (hp : PlainPart ts) :
    ∀ a ∈ as, PlainAnno a := by
  induction h with
  | primitive _ => simp
  | bool _ => simp
  | number _ _ => exact (bounds_plain hd _).1
  | string _ => exact annos_append (required_plain _) (strings_plain hp.pattern)
  | decimal _ => exact annos_append (required_plain _) (bounds_plain hd _).2
  | instant _ _ => exact annos_append (required_plain _) fun x hx => by cases List.mem_singleton.1 hx; exact trivial
  | timestamp _ _ => exact required_plain _
  | plain _ => exact required_plain _
  | transparent htd _ _ _ _ ih => exact ih ((hs.types _ htd).2.2 _ .here)
  | namedInstant _ _ _ _ => exact annos_append (required_plain _) fun x hx => (List.mem_cons.1 hx).elim (fun h => by cases h; exact trivial) fun h => by cases List.mem_singleton.1 h; exact trivial
  | namedTimestamp _ _ _ _ => exact required_plain _
  | container _ _ _ => simp
  | own _ _ _ _ _ => exact required_plain _
  | unknown _ _ => exact required_plain _
  | unknownBool _ _ => exact required_plain _
  | unknownBox _ _ _ => exact annos_append (required_plain _) (bounds_plain hd _).1

include hs hd in
theorem JavaMemberOf.plain {f : StructFieldDef} {x : JField} (h : JavaMemberOf s instants dec f x) (hf : PlainMember f) : PlainField x := by
  have hu := JavaUse.plain hs h.used (hf.2.2 _ .here)
  refine ⟨by rw [h.name]; exact hf.1, by rw [h.comment]; exact hf.2.1, ?_, hu, JavaAnnos.plain hs hd h.annos (hf.2.2 _ .here)⟩
  rw [h.decl]
  split
  · exact .name hf.1.capitalize
  · exact hu

include hs hd in
theorem members_plain {fs : List StructFieldDef} {xs : List JField} (h : List.Forall₂ (JavaMemberOf s instants dec) fs xs) (hf : ∀ f ∈ fs, PlainMember f) :
    ∀ x ∈ xs, PlainField x := by
  intro x hx
  obtain ⟨f, h1, h2⟩ := forall₂_mem_right h hx
  exact JavaMemberOf.plain hs hd h2 (hf f h1)

include hs hd in
mutual
theorem JavaClassFor.plain {lombok throwable : Bool} {cls : String} {fields : List StructFieldDef} {c : JavaClass}
    (h : JavaClassFor s instants lombok dec throwable cls fields c) (hn : PlainText cls) (hf : ∀ f ∈ fields, PlainMember f) : PlainClass c := by
  cases h with
  | lombok _ _ h => exact .mk hn (members_plain hs hd h hf) (by simp)
  | plain _ h hi _ hc => exact .mk hn (members_plain hs hd h hf) (JavaClassesFor.plain hc fun f hf' => hf f (innerField_mem ((hi f).1 hf')))
theorem JavaClassesFor.plain {lombok : Bool} {fields : List StructFieldDef} {cs : List JavaClass}
    (h : JavaClassesFor s instants lombok dec fields cs) (hf : ∀ f ∈ fields, PlainMember f) : ∀ c ∈ cs, PlainClass c := by
  cases h with
  | nil => simp
  | cons h1 h2 =>
    refine List.forall_mem_cons.2 ⟨?_, JavaClassesFor.plain h2 fun f hf' => hf f (List.mem_cons_of_mem _ hf')⟩
    have := hf _ (List.mem_cons_self ..)
    exact JavaClassFor.plain h1 this.1.capitalize fun g hg => this.2.2.member hg
end

theorem readValue_neutral {t : JTy} {e : String} (h : JavaReadValue t e) : Neutral e := by
  cases h with
  | number h =>
    have key : ∀ x ∈ JavaParsers, jrun (.code, []) x.2 = some (.code, []) := by decide +kernel
    intro s
    exact jrun_lift (key _ h) s
  | bad _ => exact (plainText_of (by decide)).neutral

theorem readUnit_neutral {t : JTy} (ht : PlainTy t) {e : String} (h : JavaReadUnit s t e) : Neutral e := by
  cases h with
  | string _ => exact fun s => by jlex []
  | enum _ => exact fun s => by jlex [ht.plain.run]
  | bad _ _ _ => exact (plainText_of (by decide)).neutral

theorem enumText_raw {el : EnumElementDef} (h1 : PlainText el.symbol) (h2 : ∀ v, mget el.annotations "x_enumValue" = some v → RawText v) :
    RawText (JavaEnumText el) := by
  unfold JavaEnumText
  split
  · next v hv =>
    split
    · exact (plainText_of (t := "true") (by decide)).raw
    · exact h2 v hv
  · exact h1.raw

include hs hd in
theorem JavaBodyFor.plain {lombok throwable : Bool} {cls : String} {ts : TypeSpec} {b : JavaBody}
    (h : JavaBodyFor s instants lombok dec throwable cls ts b) (hn : PlainText cls) (ht : PlainSpec ts) : PlainBody b := by
  have hp := ht ts .here
  cases h with
  | struct _ h => exact .struct (JavaClassFor.plain hs hd h hn fun f hf => ht.member hf)
  | enum _ h =>
    refine .enum hn fun c hc => ?_
    obtain ⟨el, h1, h2⟩ := forall₂_mem_right h hc
    obtain ⟨k1, k2, k3⟩ := hp.elements el h1
    exact ⟨by rw [h2.name]; exact k1, by rw [h2.repr]; exact enumText_raw k1 k3, by rw [h2.comment]; exact k2⟩
  | union _ h hi _ hc =>
    have hv : ∀ f ∈ ts.variants.map JavaVariantField, PlainMember f := by
      intro f hf
      obtain ⟨v, h1, rfl⟩ := List.mem_map.1 hf
      exact ⟨(hp.variants v h1).1, (hp.variants v h1).2, ht.variant h1⟩
    exact .union hn (members_plain hs hd h hv) (JavaClassesFor.plain hs hd hc fun f hf => hv f (innerField_mem ((hi f).1 hf)))
  | unit _ h1 h2 h3 h4 =>
    have p1 : PlainPart { ts with type := ts.value } := ⟨hp.value, hp.items, hp.keys, hp.value, hp.unit, hp.pattern, hp.fields, hp.variants, hp.elements⟩
    have p2 : PlainPart { ts with type := ts.unit } := ⟨hp.unit, hp.items, hp.keys, hp.value, hp.unit, hp.pattern, hp.fields, hp.variants, hp.elements⟩
    have q2 := JavaUse.plain hs h2 p2
    exact .unit hn ⟨JavaUse.plain hs h1 p1, q2, readValue_neutral h3, readUnit_neutral q2 h4⟩
end

/-! ### The server and the client -/

theorem BeforeQuery.raw {path p : String} (h : BeforeQuery path p) (hp : RawText path) : RawText p := by
  obtain ⟨_, rest, h1, _⟩ := h
  exact fun c hc => hp c (by rw [h1]; exact List.mem_append_left _ hc)

theorem Spec.FirstOf.mem {α : Type} {P : α → Prop} {l : List α} {x : α} (h : FirstOf P l x) : x ∈ l := by
  obtain ⟨a, b, rfl, _⟩ := h
  simp

theorem Spec.JavaSubject.plain {h : HttpDef} {n t : String} (hj : JavaSubject h n t) (hp : PlainAction h) : PlainText n ∧ PlainText t := by
  cases hj with
  | input _ hf => exact ⟨(hp.inputs _ hf.mem).name, ((hp.inputs _ hf.mem).type _ .here).type⟩
  | noInput _ _ => exact ⟨plainText_of (by decide), plainText_of (by decide)⟩
  | output _ _ he hf => exact ⟨(hp.outputs _ he _ hf.mem).name, ((hp.outputs _ he _ hf.mem).type _ .here).type⟩
  | noOutput _ _ _ _ => exact ⟨plainText_of (by decide), plainText_of (by decide)⟩

theorem Spec.JavaMethodName.plain {h : HttpDef} {n : String} (hj : JavaMethodName h n) (hp : PlainAction h) : PlainText n := by
  cases hj with
  | named _ => exact hp.name.uncapitalize
  | unnamed _ hj => exact hp.method.lower.append (hj.plain hp).2

theorem request_plain {n : String} (h : PlainText n) : PlainText (capitalize n ++ "Request") := h.capitalize.append (plainText_of (by decide))
theorem response_plain {n : String} (h : PlainText n) : PlainText (capitalize n ++ "Response") := h.capitalize.append (plainText_of (by decide))

section
variable {conf : JavaConf} (hc : PlainConf conf)

include hc hs in
theorem JavaParamFor.plain {p : HttpParamSpec} {x : JParam} (h : JavaParamFor s conf p x) (hp : PlainParam p) : PlainJParam x := by
  refine ⟨by rw [h.name]; exact hp.name, JavaBare.plainTy hs h.type (hp.type _ .here).type, ?_, ?_⟩
  · have := h.bind
    revert this
    generalize x.bind = b
    intro h
    cases h with
    | query _ => exact hp.query
    | header _ _ => exact hp.header
    | path _ _ _ => exact hp.name.raw
    | body _ => exact trivial
  · intro d hd
    have := h.default
    rw [hd] at this
    revert this
    have hq := hp.default
    revert hq
    generalize p.field.default = v
    intro hq h
    cases h with
    | string => exact hq _ rfl
    | number => exact (hc.numbers _).2
    | @bool b => cases b <;> exact fun c hc => .inl (by revert c; decide)

include hs in
theorem thrown_plain {h : HttpDef} (hp : PlainAction h) {ys : List (String × Int)} (hy : List.Forall₂ (JavaThrowFor s instants) h.exceptions ys) :
    ∀ y ∈ ys, PlainText y.1 := by
  intro y hy'
  obtain ⟨x, h1, _, t, h2, h3⟩ := forall₂_mem_right hy hy'
  rw [h3]
  exact JavaBare.plain hs h2 (hp.exceptions x h1)

theorem headerOutputs_plain {e : HttpExpectedSpec} (h : ∀ p ∈ e.outputs, PlainParam p) : ∀ x ∈ headerOutputs e, RawText x.1 ∧ PlainText x.2 := by
  intro x hx
  obtain ⟨p, hp, rfl⟩ := List.mem_map.1 hx
  have := h p (List.mem_of_mem_filter hp)
  exact ⟨this.header, this.name⟩

include hc hs in
theorem JavaResourceFor.plain {h : HttpDef} (hp : PlainAction h) {r : JResource} (hr : JavaResourceFor s conf h r) : PlainResource r := by
  obtain ⟨e, he, _, _, hh, hent⟩ := hr.expected
  have hn := hr.name.plain hp
  refine ⟨by rw [hr.verb]; exact hp.method, BeforeQuery.raw hr.path hp.path, hn, by rw [hr.request]; exact request_plain hn,
    by rw [hr.response]; exact response_plain hn, ?_, by rw [hh]; exact headerOutputs_plain (hp.outputs e he), ?_, thrown_plain hs hp hr.exceptions⟩
  · intro x hx
    obtain ⟨p, h1, h2⟩ := forall₂_mem_right hr.params hx
    exact JavaParamFor.plain hs hc h2 (hp.inputs p h1)
  · intro x hx
    rw [hx] at hent
    cases hent with
    | some hf _ _ _ => exact (hp.outputs e he _ hf.mem).name

include hs in
theorem JavaReturnFor.plain {e : HttpExpectedSpec} (hp : ∀ p ∈ e.outputs, PlainParam p) {x : JReturn} (h : JavaReturnFor s instants e x) : PlainReturn x := by
  cases h with
  | nothing _ => exact trivial
  | @value b hs' _ h1 h2 h3 =>
    constructor
    · intro x hx
      by_cases hf : ∃ p, FirstOf JavaOutBody e.outputs p
      · obtain ⟨p, hf⟩ := hf
        obtain ⟨t, ht, hb⟩ := h1 p hf
        rw [hx] at hb
        split at hb
        · cases hb
        · cases hb
          exact ⟨(hp p hf.mem).name, JavaBare.plain hs ht ((hp p hf.mem).type _ .here).type⟩
      · have : ∀ p ∈ e.outputs, ¬ JavaOutBody p := by
          intro p hpm hj
          apply hf
          have key : ∀ l : List HttpParamSpec, p ∈ l → ∃ q, FirstOf JavaOutBody l q := by
            intro l hl
            induction l with
            | nil => cases hl
            | cons a l ih =>
              by_cases ha : JavaOutBody a
              · exact ⟨a, [], l, rfl, ha, by simp⟩
              · rcases List.mem_cons.1 hl with rfl | hl
                · exact absurd hj ha
                · obtain ⟨q, x, y, rfl, h1, h2⟩ := ih hl
                  exact ⟨q, a :: x, y, rfl, h1, List.forall_mem_cons.2 ⟨ha, h2⟩⟩
          exact key _ hpm
        rw [h2 this] at hx
        cases hx
    · intro x hx
      obtain ⟨p, k1, k2, k3, t, k4, k5⟩ := forall₂_mem_right h3 hx
      have := hp p (List.mem_of_mem_filter k1)
      exact ⟨by rw [k2]; exact this.header, by rw [k3]; exact this.name, by rw [k5]; exact JavaBare.plain hs k4 (this.type _ .here).type⟩

include hs in
theorem JavaCallFor.plain {h : HttpDef} (hp : PlainAction h) {c : JCall} (hr : JavaCallFor s conf h c) : PlainCall c := by
  obtain ⟨e, he, _, hres⟩ := hr.expected
  have hn := hr.name.plain hp
  refine ⟨hn, by rw [hr.request]; exact request_plain hn, by rw [hr.response]; exact response_plain hn, by rw [hr.verb]; exact hp.method,
    BeforeQuery.raw hr.path hp.path, ?_, ?_, JavaReturnFor.plain hs (hp.outputs e he) hres, ?_⟩
  · intro x hx
    rw [hr.headers] at hx
    obtain ⟨p, h1, rfl⟩ := List.mem_map.1 hx
    have := hp.inputs p (List.mem_of_mem_filter h1)
    exact ⟨this.header, this.name⟩
  · intro n hent
    by_cases hm : h.method = "POST" ∨ h.method = "PUT"
    · obtain ⟨n', t, h1, h2⟩ := hr.sends hm
      rw [hent] at h2
      cases h2
      exact (h1.plain hp).1
    · rw [hr.sendsNone (fun h => hm (.inl h)) (fun h => hm (.inr h))] at hent
      cases hent
  · intro x hx
    rw [hr.exceptions] at hx
    obtain ⟨y, h1, rfl⟩ := List.mem_map.1 hx
    exact hp.exceptions y h1

/-! ### Files -/

include hs in
theorem root_raw : RawText (JavaRoot s) := by
  unfold JavaRoot
  split
  · exact fun c hc => by revert c; decide
  · exact hs.base

include hs in
theorem methods_plain {ms : List (String × String × String)} (h : JavaMethodsFor s.http ms) :
    ∀ x ∈ ms, PlainText x.1 ∧ PlainText x.2.1 ∧ PlainText x.2.2 := by
  intro x hx
  obtain ⟨a, h1, h2, h3, h4⟩ := forall₂_mem_right h hx
  have hn := h2.plain (hs.actions a h1)
  exact ⟨hn, by rw [h3]; exact response_plain hn, by rw [h4]; exact request_plain hn⟩

theorem importable_plain {p : String} (h : p ∈ JavaImportable) : PlainText p := by
  have key : ∀ p ∈ JavaImportable, p.toList.all (fun c => decide (c ∉ ['{', '}', '(', ')', '[', ']', '"', '\'', '/', '\\', '\n', '\r'])) = true := by
    decide +kernel
  exact plainText_of (key p h)

theorem pojo_neutral {imports : List String} (hi : ∀ p ∈ imports, p ∈ JavaImportable) {comment : String} (hm : CommentText comment) {b : JavaBody}
    (hb : PlainBody b) : Neutral ((JavaContent.pojo imports comment b).text conf) := fun s => by
  have h1 : Neutral (catAll (imports.map fun p => "import " ++ p ++ ";\n")) := .catMap fun p hp s => by jlex [(importable_plain (hi p hp)).run]
  have h2 : Neutral (if imports ≠ [] then catAll (imports.map fun p => "import " ++ p ++ ";\n") ++ "\n" else "") :=
    .ite (fun _ s => by jlex [h1.run]) fun _ => .empty
  have h3 : Neutral (if comment ≠ "" then javaComment "" comment 100 else "") :=
    .ite (fun _ => javaComment_neutral (by unfold Blank; simp) hm _) fun _ => .empty
  exact (by jlex [h2.run, h3.run, (hb.neutral conf).run] :
    jrun (.code, s) ((if imports ≠ [] then catAll (imports.map fun p => "import " ++ p ++ ";\n") ++ "\n" else "") ++
      (if comment ≠ "" then javaComment "" comment 100 else "") ++ b.text conf) = some (.code, s))

theorem interface_neutral {name : String} (hn : PlainText name) {ms : List (String × String × String)}
    (h : ∀ x ∈ ms, PlainText x.1 ∧ PlainText x.2.1 ∧ PlainText x.2.2) : Neutral ((JavaContent.interface name ms).text conf) := fun s => by
  have h1 : Neutral (catAll (ms.map fun (n, res, req) => "\n    public " ++ res ++ " " ++ n ++ "(" ++ req ++ " req);\n")) := .catMap fun x hx s => by
    obtain ⟨n, res, req⟩ := x
    obtain ⟨a, b, c⟩ := h _ hx
    jlex [(show PlainText n from a).run, (show PlainText res from b).run, (show PlainText req from c).run]
  exact (by jlex [hn.run, h1.run] :
    jrun (.code, s) ("\npublic interface " ++ name ++ " {\n" ++
      catAll (ms.map fun (n, res, req) => "\n    public " ++ res ++ " " ++ n ++ "(" ++ req ++ " req);\n") ++ "\n}\n") = some (.code, s))

include hs hc in
theorem JavaFileFor.neutral {parts : JavaParts} {f : JavaFile} (h : JavaFileFor s conf parts f) (hk : ∀ i c b, f.content = .pojo i c b → ∀ p ∈ i, p ∈ JavaImportable)
    (hp : ∀ t, f.content ≠ .pom t) : Neutral (f.content.text conf) ∧ PlainText f.pkg := by
  have he : PlainText "" := fun c hc => by cases hc
  cases h with
  | type _ htd hb =>
    obtain ⟨b, _, hb⟩ := hb
    have ht := hs.types _ htd
    exact ⟨pojo_neutral (hk _ _ _ rfl) ht.2.1 (JavaBodyFor.plain hs hc.numbers hb ht.1.capitalize ht.2.2), hc.modelPackage⟩
  | interface _ _ hm => exact ⟨interface_neutral hc.name (methods_plain hs hm), hc.modelPackage⟩
  | @request a n body _ _ _ ha hn hb =>
    have hn := hn.plain (hs.actions _ ha)
    have hpl : PlainSpec { type := "Struct", fields := a.inputs.map HttpParamSpec.field } := messages_plain (hs.actions _ ha).inputs
    exact ⟨pojo_neutral (hk _ _ _ rfl) (fun h => by cases h) (JavaBodyFor.plain hs hc.numbers hb (request_plain hn) hpl), hc.modelPackage⟩
  | @response a e n body _ _ _ ha hex hn hb =>
    have hn := hn.plain (hs.actions _ ha)
    have hpl : PlainSpec { type := "Struct", fields := e.outputs.map HttpParamSpec.field } := messages_plain ((hs.actions _ ha).outputs _ hex)
    exact ⟨pojo_neutral (hk _ _ _ rfl) (fun h => by cases h) (JavaBodyFor.plain hs hc.numbers hb (response_plain hn) hpl), hc.modelPackage⟩
  | timestamp _ => exact ⟨javaTimestampText_run, hc.pkg⟩
  | util _ => exact ⟨javaUtilText_run, hc.modelPackage⟩
  | exception _ _ => exact ⟨javaExceptionText_run, hc.modelPackage⟩
  | resources _ hr =>
    refine ⟨javaResourcesText_neutral hc hs.name.capitalize (root_raw hs) fun r hr' => ?_, hc.serverPackage⟩
    obtain ⟨a, h1, h2⟩ := forall₂_mem_right hr hr'
    exact JavaResourceFor.plain hs hc (hs.actions a h1) h2
  | main _ _ => exact ⟨javaMainText_neutral hc hs.name.capitalize _, he⟩
  | controller _ _ hm => exact ⟨javaImplText_neutral hc hs.name.capitalize (methods_plain hs hm), he⟩
  | clientConfig _ => exact ⟨javaClientConfigText_run, hc.clientPackage⟩
  | client _ hr =>
    refine ⟨javaClientText_neutral hc hs.name.capitalize (root_raw hs) (fun h hh => (hs.actions h hh).inputs) fun c hc' => ?_, hc.clientPackage⟩
    obtain ⟨a, h1, h2⟩ := forall₂_mem_right hr hc'
    exact JavaCallFor.plain hs (hs.actions a h1) h2
  | pom _ => exact absurd rfl (hp _)

include hs hc in
theorem JavaFileFor.lexes {parts : JavaParts} {f : JavaFile} (h : JavaFileFor s conf parts f) (hk : ∀ i c b, f.content = .pojo i c b → ∀ p ∈ i, p ∈ JavaImportable)
    (hp : ∀ t, f.content ≠ .pom t) : JavaLexes (f.text conf) := by
  obtain ⟨h1, h2⟩ := JavaFileFor.neutral hs hc h hk hp
  have h3 : Neutral (if f.pkg ≠ "" then "package " ++ f.pkg ++ ";\n" else "") := .ite (fun _ s => by jlex [h2.run]) fun _ => .empty
  have h0 : jrun (.code, []) conf.header = some (.code, []) := by unfold jrun; exact hc.header
  have e : f.text conf = conf.header ++ (if f.pkg ≠ "" then "package " ++ f.pkg ++ ";\n" else "") ++ f.content.text conf := by
    unfold JavaFile.text
    split
    · next t ht => exact absurd ht (hp t)
    · rfl
  have key : jrun (.code, []) (f.text conf) = some (.code, []) := by
    rw [e]
    jlex [h0, h3.run, h1.run]
  unfold jrun at key
  exact key
end

end
end Sadl
