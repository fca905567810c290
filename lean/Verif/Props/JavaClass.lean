import Verif.Lemmas.JavaBody
import Verif.Props.Java
/-
C91, C92: the Java classes and enums generated from the types of an accepted source.
-/
namespace Sadl.Props
open Sadl Sadl.Spec

/-! ### C91 -/

/-- C91: a generated class or enum has the members, the annotations and the classes inside it that the type asks for. -/
theorem C91_mirrors (lib : PLib) (m : Model) (h : Accepted lib m) (hb : NoBoxes m.schema) (conf : JavaConf)
    (ho : ∀ l, (conf.order l).Perm l) (exceptions : List String) (cls : String) (ts : TypeSpec) (b : JavaBody) (ns : List JNote)
    (hj : javaBody m conf exceptions cls ts = some (.ok (b, ns))) :
    JavaBodyFor m.schema conf.instants conf.lombok conf.decText (decide (cls ∈ exceptions)) cls ts b :=
  (javaBody_ok (accepted_java h hb) conf ho exceptions cls ts hj).1

/-- C91: there is a class or enum for structs, enums, unions and unit values only. -/
theorem C91_kinds (m : Model) (conf : JavaConf) (exceptions : List String) (cls : String) (ts : TypeSpec) :
    javaBody m conf exceptions cls ts = none ↔ ts.type ∉ ["Struct", "Enum", "Union", "UnitValue"] := by
  unfold javaBody
  split_ifs with h1 h2 h3 h4 <;> simp [*]

/-! ### C92 -/

/-- C92: the class or enum of a type can be written exactly when the type is ready for it. -/
theorem C92_generates_iff (lib : PLib) (m : Model) (h : Accepted lib m) (hb : NoBoxes m.schema) (conf : JavaConf)
    (ho : ∀ l, (conf.order l).Perm l) (exceptions : List String) (cls : String) (ts : TypeSpec) :
    (∃ b ns, javaBody m conf exceptions cls ts = some (.ok (b, ns))) ↔
      JavaReady m.schema conf.instants conf.lombok conf.immutable (decide (cls ∈ exceptions)) cls ts :=
  ⟨fun ⟨_, _, hj⟩ => (javaBody_ok (accepted_java h hb) conf ho exceptions cls ts hj).2,
   javaBody_ready (accepted_java h hb) conf ho exceptions cls ts⟩

/-- The members of a class, and the names of the classes inside it. -/
def javaMembersOf : JavaBody → List JField × List String
  | .struct (.mk _ fs _ _ ns) => (fs, ns.map JavaClass.name)
  | .union _ fs ns => (fs, ns.map JavaClass.name)
  | _ => ([], [])

/-- The members of the class of `Foo`, and the names of the classes inside it. -/
def javaFoo? (m : Model) (conf : JavaConf) : Option (List JField × List String) :=
  match (m.findType "Foo").bind fun td => javaBody m conf [] "Foo" td.ts with
  | some (.ok (b, _)) => some (javaMembersOf b)
  | _ => none

/-- What comes of the class of `Foo`, if it is a crash or an error. -/
def javaFooFails? (m : Model) (conf : JavaConf) : Option String :=
  match (m.findType "Foo").bind fun td => javaBody m conf [] "Foo" td.ts with
  | some (.err e) => some ("error: " ++ e)
  | some (.panic e) => some ("panic: " ++ e)
  | _ => none

/-- An anonymous struct with one field. -/
def javaInnerToks (name : String) (field : List Token) : List Token :=
  [sym name, sym "Struct", punct .openBrace, nl] ++ field ++ [nl, punct .closeBrace]

/-- Some decimal literals. -/
def javaLib : PLib := { noLib with parseDecimal := fun t => if t = "3" then some (.fin 3 0) else none }

/-- `type Foo Struct { a Int32 (required, min=3)  b String  c Struct { d Timestamp } }` -/
def javaFooSource : List Token :=
  goStructFoo [[sym "a", sym "Int32", punct .openParen, sym "required", punct .comma, sym "min", punct .equals, num "3",
    punct .closeParen], [sym "b", sym "String"], javaInnerToks "c" [sym "d", sym "Timestamp"]]

theorem javaFoo_of (toks : List Token) (conf : JavaConf) (ms : List JField × List String)
    (h1 : toks.all (fun t => decide (t.type = .symbol → t.text ≠ "")) = true)
    (h : accepts javaLib toks (fun m => decide ((∀ td ∈ m.schema.types, td.name ∉ JavaBoxes) ∧ javaFoo? m conf = some ms)) = true) :
    ∃ m, Accepted javaLib m ∧ NoBoxes m.schema ∧ ∃ td b notes, m.findType "Foo" = some td ∧
      javaBody m conf [] "Foo" td.ts = some (.ok (b, notes)) ∧ javaMembersOf b = ms := by
  obtain ⟨m, h2, h3⟩ := accepted_of javaLib toks _ h1 h
  obtain ⟨h4, h5⟩ := of_decide_eq_true h3
  refine ⟨m, h2, h4, ?_⟩
  unfold javaFoo? at h5
  cases hf : m.findType "Foo" with
  | none => rw [hf] at h5; cases h5
  | some td =>
    rw [hf] at h5
    simp only [Option.bind_some] at h5
    split at h5
    · next b notes he => exact ⟨td, b, notes, rfl, he, Option.some.inj h5⟩
    · cases h5

theorem javaFooFails_of (toks : List Token) (conf : JavaConf) (e : String)
    (h1 : toks.all (fun t => decide (t.type = .symbol → t.text ≠ "")) = true)
    (h : accepts javaLib toks (fun m => decide (javaFooFails? m conf = some e)) = true) :
    ∃ m, Accepted javaLib m ∧ ∃ td, m.findType "Foo" = some td ∧ ∀ b notes, javaBody m conf [] "Foo" td.ts ≠ some (.ok (b, notes)) := by
  obtain ⟨m, h2, h3⟩ := accepted_of javaLib toks _ h1 h
  have h5 := of_decide_eq_true h3
  refine ⟨m, h2, ?_⟩
  unfold javaFooFails? at h5
  cases hf : m.findType "Foo" with
  | none => rw [hf] at h5; cases h5
  | some td =>
    rw [hf] at h5
    simp only [Option.bind_some] at h5
    refine ⟨td, rfl, fun b notes he => ?_⟩
    rw [he] at h5
    cases h5

/-- The hypotheses of C91 and C92 are met by a struct with a required number, an optional string and a struct inside it.  The
bound of the number is lost, and where it is not declared the member `c` has a type that does not exist. -/
theorem C91_example : ∃ m, Accepted javaLib m ∧ NoBoxes m.schema ∧ ∃ td b notes, m.findType "Foo" = some td ∧
    javaBody m { decText := fun _ => "3" } [] "Foo" td.ts = some (.ok (b, notes)) ∧
    javaMembersOf b = ([{ name := "a", required := true, decl := .name "int", used := .name "int" },
      { name := "b", decl := .name "String", used := .name "String" },
      { name := "c", decl := .name "C", used := .name "Struct" }], ["C"]) :=
  javaFoo_of javaFooSource _ _ (by decide +kernel) (by decide +kernel)

/-- With lombok, the member `c` is declared with a class that there is not. -/
theorem C91_refuted_lombok : ∃ m, Accepted javaLib m ∧ NoBoxes m.schema ∧ ∃ td b notes, m.findType "Foo" = some td ∧
    javaBody m { lombok := true } [] "Foo" td.ts = some (.ok (b, notes)) ∧
    javaMembersOf b = ([{ name := "c", decl := .name "C", used := .name "Struct" }], []) :=
  javaFoo_of (goStructFoo [javaInnerToks "c" [sym "d", sym "Timestamp"]]) _ _ (by decide +kernel) (by decide +kernel)

/-- That a member of a named array type is required is not said in the class. -/
theorem C91_refuted_required : ∃ m, Accepted javaLib m ∧ NoBoxes m.schema ∧ ∃ td b notes, m.findType "Foo" = some td ∧
    javaBody m {} [] "Foo" td.ts = some (.ok (b, notes)) ∧
    javaMembersOf b = ([{ name := "a", required := true, decl := .list (.name "String"), used := .list (.name "String") }], []) :=
  javaFoo_of (goStructFoo [[sym "a", sym "Names", punct .openParen, sym "required", punct .closeParen]] ++
    [sym "type", sym "Names", sym "Array", punct .openAngle, sym "String", punct .closeAngle, nl]) _ _ (by decide +kernel) (by decide +kernel)

/-- C92: not every struct can be written: a field `package` makes the generator panic. -/
theorem C92_refuted_package : ∃ m, Accepted javaLib m ∧ ∃ td, m.findType "Foo" = some td ∧
    ∀ b notes, javaBody m {} [] "Foo" td.ts ≠ some (.ok (b, notes)) :=
  javaFooFails_of (goStructFoo [[sym "package", sym "String"]]) _ "panic: bad field name, clashes with a keyword: package"
    (by decide +kernel) (by decide +kernel)

/-- C92: a struct inside `Foo` for a field `foo` is an error. -/
theorem C92_refuted_inner : ∃ m, Accepted javaLib m ∧ ∃ td, m.findType "Foo" = some td ∧
    ∀ b notes, javaBody m {} [] "Foo" td.ts ≠ some (.ok (b, notes)) :=
  javaFooFails_of (goStructFoo [javaInnerToks "foo" [sym "d", sym "Timestamp"]]) _
    "error: Cannot have identically named inner class with same name as containing class: Foo" (by decide +kernel) (by decide +kernel)

end Sadl.Props
