import Verif.Lemmas.JavaLexText
/-
The text of generated Java classes is well formed.
-/
namespace Sadl
open Sadl.Spec Sadl.JavaLits

theorem Neutral.run {t : String} (h : Neutral t) (s : List Char) : jrun (.code, s) t = some (.code, s) := h s
theorem Spec.PlainText.run {t : String} (h : PlainText t) (s : List Char) : jrun (.code, s) t = some (.code, s) := plain_code h s
theorem Spec.PlainText.runStr {t : String} (h : PlainText t) (s : List Char) : jrun (.str, s) t = some (.str, s) := raw_str h.raw s
theorem Spec.RawText.run {t : String} (h : RawText t) (s : List Char) : jrun (.str, s) t = some (.str, s) := raw_str h s
theorem Spec.QuotableText.run {t : String} (h : QuotableText t) (s : List Char) : jrun (.str, s) (goQuote t) = some (.str, s) := quote_str h s

theorem blank_plain {t : String} (h : Blank t.toList) : PlainText t := fun c hc => by rw [h c hc]; decide
theorem blank_append {a b : String} (ha : Blank a.toList) (hb : Blank b.toList) : Blank (a ++ b).toList := fun c hc => by
  rw [String.toList_append] at hc
  exact (List.mem_append.1 hc).elim (ha c) (hb c)
theorem blank_four : Blank "    ".toList := by unfold Blank; decide

/-- The texts of a member can be written. -/
structure PlainField (f : JField) : Prop where
  name : PlainText f.name
  comment : CommentText f.comment
  decl : PlainTy f.decl
  used : PlainTy f.used
  annos : ∀ a ∈ f.annos, PlainAnno a

section
variable {conf : JavaConf} {indent : String} (hi : Blank indent.toList)
include hi

theorem JField.text_neutral {f : JField} (h : PlainField f) : Neutral (f.text conf indent) := fun s => by
  have h1 : Neutral (if f.comment ≠ "" then javaComment (indent ++ "    ") f.comment 100 else "") :=
    .ite (fun _ => javaComment_neutral (blank_append hi blank_four) h.comment _) fun _ => .empty
  have h2 : Neutral (if f.required then "" else indent ++ "    @JsonInclude(JsonInclude.Include.NON_EMPTY) /* Optional field */\n") :=
    .ite (fun _ => .empty) fun _ s => by jlex [(blank_plain hi).run]
  have h3 : Neutral (catAll (f.annos.map fun a => indent ++ "    " ++ a.text ++ "\n")) := .catMap fun a ha s => by
    jlex [(blank_plain hi).run, ((h.annos a ha).neutral).run]
  have h4 : Neutral (if conf.immutable then "    private final " else "    public ") := .ite (fun _ s => by jlex []) fun _ s => by jlex []
  unfold JField.text
  jlex [h1.run, h2.run, h3.run, h4.run, (blank_plain hi).run, h.decl.plain.run, h.name.run]

theorem javaConstructorText_neutral {cls : String} (hc : PlainText cls) {fs : List JField} (h : ∀ f ∈ fs, PlainField f) :
    Neutral (javaConstructorText cls fs indent) := fun s => by
  have h1 : Neutral (String.intercalate ", " (fs.map fun f => f.used.text ++ " " ++ f.name)) :=
    .join (fun s => by jlex []) fun f hf s => by jlex [(h f hf).used.plain.run, (h f hf).name.run]
  have h2 : Neutral (catAll (fs.map fun f => indent ++ "        this." ++ f.name ++ " = " ++ f.name ++ ";\n")) := .catMap fun f hf s => by
    jlex [(blank_plain hi).run, (h f hf).name.run]
  unfold javaConstructorText
  jlex [(blank_plain hi).run, hc.run, h1.run, h2.run]

theorem javaGetterText_neutral {f : JField} (h : PlainField f) : Neutral (javaGetterText indent f) := fun s => by
  unfold javaGetterText
  jlex [(blank_plain hi).run, h.used.plain.run, h.name.capitalize.run, h.name.run]

theorem javaSetterText_neutral {cls : String} (hc : PlainText cls) {f : JField} (h : PlainField f) : Neutral (javaSetterText cls indent f) := fun s => by
  unfold javaSetterText
  jlex [(blank_plain hi).run, hc.run, h.decl.plain.run, h.name.run]

theorem javaBuilderText_neutral {cls : String} (hc : PlainText cls) {fs : List JField} (h : ∀ f ∈ fs, PlainField f) :
    Neutral (javaBuilderText conf cls fs indent) := fun s => by
  have hj := (blank_plain hi).run
  have h1 : Neutral (catAll (fs.map fun f => indent ++ "    private " ++ f.used.text ++ " " ++ f.name ++ ";\n")) := .catMap fun f hf s => by
    jlex [hj, (h f hf).used.plain.run, (h f hf).name.run]
  have h2 : Neutral (catAll (fs.map fun f => indent ++ "        this." ++ f.name ++ " = copy.get" ++ capitalize f.name ++ "();\n")) :=
    .catMap fun f hf s => by jlex [hj, (h f hf).name.run, (h f hf).name.capitalize.run]
  have h3 : Neutral (catAll (fs.map fun f =>
      (if f.stamp ∧ conf.instants then indent ++ "    @JsonDeserialize(using = Util.InstantDeserializer.class)\n" else "") ++
      indent ++ "    public " ++ (cls ++ "Builder") ++ " " ++ f.name ++ "(" ++ f.used.text ++ " " ++ f.name ++ ") {\n" ++
      indent ++ "        this." ++ f.name ++ " = " ++ f.name ++ ";\n" ++
      indent ++ "        return this;\n" ++
      indent ++ "    }\n\n")) := .catMap fun f hf s => by
    have h0 : Neutral (if f.stamp ∧ conf.instants then indent ++ "    @JsonDeserialize(using = Util.InstantDeserializer.class)\n" else "") :=
      .ite (fun _ s => by jlex [hj]) fun _ => .empty
    jlex [h0.run, hj, hc.run, (h f hf).name.run, (h f hf).used.plain.run]
  have h4 : Neutral (String.intercalate ", " (fs.map (·.name))) := .join (fun s => by jlex []) fun f hf => (h f hf).name.neutral
  unfold javaBuilderText
  jlex [hj, hc.run, h1.run, h2.run, h3.run, h4.run]

omit hi in
theorem javaToString_neutral : Neutral javaToString := fun s => by
  unfold javaToString
  jlex []

omit hi in
theorem javaIgnored_neutral (fs : List JField) :
    Neutral (String.intercalate ", " ((javaIgnored fs).map fun f => "\"" ++ goQuote f ++ "\"")) := by
  refine .join (fun s => by jlex []) fun f hf s => ?_
  have hq : QuotableText f := by
    unfold javaIgnored at hf
    obtain ⟨x, hx, hf⟩ := List.mem_flatMap.1 hf
    obtain ⟨_, _, rfl⟩ := List.mem_map.1 hf
    have := (by decide +kernel : ∀ x ∈ ["message", "stackTrace", "cause", "localizedMessage", "suppressed"],
      x.toList.all (fun c => decide (32 ≤ c.toNat ∧ c.toNat ≠ 127)) = true) x hx
    exact fun c hc => Or.inl (of_decide_eq_true (List.all_eq_true.1 this c hc))
  jlex [hq.run]

/-- A class up to the classes inside it opens one bracket. -/
theorem javaClassHead_run (top : Bool) {name : String} (hn : PlainText name) {fs : List JField} (h : ∀ f ∈ fs, PlainField f)
    (throwable lombok : Bool) (s : List Char) :
    jrun (.code, s) (javaClassHead conf indent top name fs throwable lombok) = some (.code, '{' :: s) := by
  have hj := (blank_plain hi).run
  have h0 : Neutral (if throwable = true then " extends RuntimeException" else "") := .ite (fun _ s => by jlex []) fun _ => .empty
  have h1 : Neutral (if conf.immutable = true then indent ++ "@JsonDeserialize(builder = " ++ name ++ "." ++ name ++ "Builder.class)\n" else "") :=
    .ite (fun _ s => by jlex [hj, hn.run]) fun _ => .empty
  have h2 : Neutral (if throwable = true then
      indent ++ "@JsonIgnoreProperties({" ++ String.intercalate ", " ((javaIgnored fs).map fun f => "\"" ++ goQuote f ++ "\"") ++ "})\n"
      else "") := .ite (fun _ s => by jlex [hj, (javaIgnored_neutral fs).run]) fun _ => .empty
  have h3 : ∀ s, jrun (.code, s) (if top = true then
      (if lombok = true then
        indent ++ "@Data\n" ++ (if fs ≠ [] then indent ++ "@AllArgsConstructor\n" else "") ++
        indent ++ "@Builder\n" ++ indent ++ "@NoArgsConstructor(force=true)\n" else "") ++
      indent ++ "public class " ++ name ++ (if throwable = true then " extends RuntimeException" else "") ++ " {\n"
     else indent ++ "public static class " ++ name ++ (if throwable = true then " extends RuntimeException" else "") ++ " {\n") =
      some (.code, '{' :: s) := by
    intro s
    have ha : Neutral (if fs ≠ [] then indent ++ "@AllArgsConstructor\n" else "") := .ite (fun _ s => by jlex [hj]) fun _ => .empty
    have hl : Neutral (if lombok = true then
        indent ++ "@Data\n" ++ (if fs ≠ [] then indent ++ "@AllArgsConstructor\n" else "") ++
        indent ++ "@Builder\n" ++ indent ++ "@NoArgsConstructor(force=true)\n" else "") :=
      .ite (fun _ s => by jlex [hj, ha.run]) fun _ => .empty
    split
    · jlex [hl.run, hj, hn.run, h0.run]
    · jlex [hj, hn.run, h0.run]
  have h4 : Neutral (catAll (fs.map (JField.text conf indent))) := .catMap fun f hf => JField.text_neutral hi (h f hf)
  have h5 : Neutral (if conf.immutable = true then
      javaConstructorText name fs indent ++ catAll (fs.map (javaGetterText indent)) ++ javaBuilderText conf name fs (indent ++ "    ")
      else catAll (fs.map (javaSetterText name indent))) := by
    refine .ite (fun _ => ?_) fun _ => .catMap fun f hf => javaSetterText_neutral hi hn (h f hf)
    exact ((javaConstructorText_neutral hi hn h).append (.catMap fun f hf => javaGetterText_neutral hi (h f hf))).append
      (javaBuilderText_neutral (blank_append hi blank_four) hn h)
  have h6 : Neutral (if conf.pretty = true then javaToString else "") := .ite (fun _ => javaToString_neutral) fun _ => .empty
  have h7 : Neutral (if lombok = true then "" else
      (if conf.immutable = true then
        javaConstructorText name fs indent ++ catAll (fs.map (javaGetterText indent)) ++ javaBuilderText conf name fs (indent ++ "    ")
       else catAll (fs.map (javaSetterText name indent))) ++ (if conf.pretty = true then javaToString else "")) :=
    .ite (fun _ => .empty) fun _ => h5.append h6
  unfold javaClassHead
  jlex [h1.run, h2.run, h3, h4.run, h7.run]

end

/-- The texts of a class and of the classes inside it can be written. -/
inductive PlainClass : JavaClass → Prop
  | mk {name fs throwable lombok nested} : PlainText name → (∀ f ∈ fs, PlainField f) → (∀ c ∈ nested, PlainClass c) →
      PlainClass (.mk name fs throwable lombok nested)

theorem JavaClass.text_neutral (conf : JavaConf) {c : JavaClass} (h : PlainClass c) :
    ∀ {indent : String}, Blank indent.toList → ∀ top, Neutral (c.text conf indent top) := by
  induction h with
  | @mk name fs throwable lombok nested hn hf _ ih =>
    intro indent hi top s
    have key : ∀ cs : List JavaClass, (∀ c ∈ cs, c ∈ nested) → Neutral (javaClassTexts conf (indent ++ "    ") cs) := by
      intro cs hcs
      induction cs with
      | nil => exact .empty
      | cons c cs ihc =>
        unfold javaClassTexts
        exact (ih c (hcs c (by simp)) (blank_append hi blank_four) false).append (ihc fun x hx => hcs x (List.mem_cons_of_mem _ hx))
    unfold JavaClass.text
    jlex [javaClassHead_run hi top hn hf throwable lombok, (key nested fun _ h => h).run]

theorem javaClassTexts_neutral (conf : JavaConf) {cs : List JavaClass} (h : ∀ c ∈ cs, PlainClass c) {indent : String} (hi : Blank indent.toList) :
    Neutral (javaClassTexts conf indent cs) := by
  induction cs with
  | nil => exact .empty
  | cons c cs ih =>
    unfold javaClassTexts
    exact (JavaClass.text_neutral conf (h c (by simp)) hi false).append (ih fun x hx => h x (List.mem_cons_of_mem _ hx))

/-- The texts of a constant can be written. -/
structure PlainConst (c : JConst) : Prop where
  name : PlainText c.name
  repr : RawText c.repr
  comment : CommentText c.comment

theorem javaConstTexts_neutral {cs : List JConst} (h : ∀ c ∈ cs, PlainConst c) : Neutral (javaConstTexts cs) := by
  induction cs with
  | nil => exact .empty
  | cons c cs ih =>
    intro s
    have h0 := h c (by simp)
    have h1 : Neutral (if cs = [] then ";" else ",") := .ite (fun _ s => by jlex []) fun _ s => by jlex []
    have h2 : Neutral (if c.comment ≠ "" then javaComment " " c.comment 0 else "\n") :=
      .ite (fun _ => javaComment_neutral (by unfold Blank; decide) h0.comment _) fun _ s => by jlex []
    have h3 := ih fun x hx => h x (List.mem_cons_of_mem _ hx)
    unfold javaConstTexts
    jlex [h0.name.run, h0.repr.run, h1.run, h2.run, h3.run]

theorem javaEnumText_neutral {name : String} (hn : PlainText name) {cs : List JConst} (h : ∀ c ∈ cs, PlainConst c) :
    Neutral (javaEnumText name cs) := fun s => by
  unfold javaEnumText
  jlex [hn.run, hn.runStr, (javaConstTexts_neutral h).run]

theorem javaUnionText_neutral (conf : JavaConf) {name : String} (hn : PlainText name) {vs : List JField} (h : ∀ f ∈ vs, PlainField f)
    {nested : List JavaClass} (hc : ∀ c ∈ nested, PlainClass c) : Neutral (javaUnionText conf name vs nested) := fun s => by
  have h1 : Neutral (if conf.lombok = true then "@Data\n@AllArgsConstructor\n@Builder\n@NoArgsConstructor\n" else "") :=
    .ite (fun _ s => by jlex []) fun _ => .empty
  have h2 : Neutral (if vs = [] then "" else String.intercalate ",\n" (vs.map fun v => "        " ++ v.name) ++ "\n") := by
    refine .ite (fun _ => .empty) fun _ => .append (.join (fun s => by jlex []) fun v hv s => ?_) fun s => by jlex []
    jlex [(h v hv).name.run]
  have h3 : Neutral (catAll (vs.map fun v =>
      "    @JsonInclude(JsonInclude.Include.NON_EMPTY)\n" ++
      (if v.comment ≠ "" then javaComment "    " v.comment 100 else "") ++
      catAll (v.annos.map fun a => "    " ++ a.text ++ "\n") ++
      "    public final " ++ v.decl.text ++ " " ++ v.name ++ ";\n")) := .catMap fun v hv s => by
    have ha : Neutral (if v.comment ≠ "" then javaComment "    " v.comment 100 else "") :=
      .ite (fun _ => javaComment_neutral blank_four (h v hv).comment _) fun _ => .empty
    have hb : Neutral (catAll (v.annos.map fun a => "    " ++ a.text ++ "\n")) := .catMap fun a ha s => by
      jlex [((h v hv).annos a ha).neutral.run]
    jlex [ha.run, hb.run, (h v hv).decl.plain.run, (h v hv).name.run]
  have h4 : Neutral (String.intercalate ", " (vs.map fun v => "@JsonProperty(\"" ++ v.name ++ "\") " ++ v.used.text ++ " " ++ v.name)) :=
    .join (fun s => by jlex []) fun v hv s => by jlex [(h v hv).name.run, (h v hv).name.runStr, (h v hv).used.plain.run]
  have h5 : Neutral (catAll (vs.map fun v =>
      "        this." ++ v.name ++ " = " ++ v.name ++ ";\n" ++
      "        if (" ++ v.name ++ " != null) {\n" ++
      "            this.variant = Variant." ++ v.name ++ ";\n" ++
      "        }\n")) := .catMap fun v hv s => by jlex [(h v hv).name.run]
  have h6 : Neutral (catAll (vs.map fun v =>
      "\n    public static " ++ name ++ " of" ++ capitalize v.name ++ "(" ++ v.used.text ++ " v) {\n" ++
      "        return new " ++ name ++ "(" ++
      String.intercalate ", " (vs.map fun w => if v.name = w.name then "v" else "null") ++ ");\n" ++
      "    }\n")) := .catMap fun v hv s => by
    have ha : Neutral (String.intercalate ", " (vs.map fun w => if v.name = w.name then "v" else "null")) :=
      .join (fun s => by jlex []) fun w _ => .ite (fun _ s => by jlex []) fun _ s => by jlex []
    jlex [hn.run, (h v hv).name.capitalize.run, (h v hv).used.plain.run, ha.run]
  have h7 : Neutral (if conf.pretty = true then javaToString else "") := .ite (fun _ => javaToString_neutral) fun _ => .empty
  unfold javaUnionText
  jlex [h1.run, h2.run, h3.run, h4.run, h5.run, h6.run, h7.run, hn.run, (javaClassTexts_neutral conf hc blank_four).run]

/-- The texts of the class of a unit value can be written. -/
structure PlainUnit (u : JavaUnitClass) : Prop where
  value : PlainTy u.value
  unit : PlainTy u.unit
  readValue : Neutral u.readValue
  readUnit : Neutral u.readUnit

theorem javaUnitText_neutral {name : String} (hn : PlainText name) {u : JavaUnitClass} (h : PlainUnit u) : Neutral (javaUnitText name u) := fun s => by
  unfold javaUnitText
  jlex [hn.run, h.value.plain.run, h.unit.plain.run, h.readValue.run, h.readUnit.run]

/-- The texts of a class of any kind can be written. -/
inductive PlainBody : JavaBody → Prop
  | struct {c} : PlainClass c → PlainBody (.struct c)
  | enum {n cs} : PlainText n → (∀ c ∈ cs, PlainConst c) → PlainBody (.enum n cs)
  | union {n vs nested} : PlainText n → (∀ f ∈ vs, PlainField f) → (∀ c ∈ nested, PlainClass c) → PlainBody (.union n vs nested)
  | unit {n u} : PlainText n → PlainUnit u → PlainBody (.unit n u)

theorem PlainBody.neutral (conf : JavaConf) {b : JavaBody} (h : PlainBody b) : Neutral (b.text conf) := by
  cases h with
  | struct h => exact JavaClass.text_neutral conf h (by unfold Blank; simp) true
  | enum hn h => exact javaEnumText_neutral hn h
  | union hn h hc => exact javaUnionText_neutral conf hn h hc
  | unit hn h => exact javaUnitText_neutral hn h

end Sadl
